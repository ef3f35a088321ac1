import Verif.Rot.AngleAxis
import Mathlib.Analysis.Normed.Algebra.MatrixExponential
/-!
# The rotation of a rotation vector is the matrix exponential
-/

namespace StateObs.Rot
open Matrix

attribute [local instance] Matrix.linftyOpNormedRing Matrix.linftyOpNormedAlgebra Matrix.linftyOpNormedAddCommGroup Matrix.linftyOpNormedSpace

theorem hasDerivAt_toMat {u : V3} (h : u ⬝ᵥ u = 1) (t : ℝ) :
    HasDerivAt (fun t => AngleAxis.toMat ⟨t, u⟩) (hat u * AngleAxis.toMat ⟨t, u⟩) t := by
  simp only [AngleAxis.toMat_rodrigues]
  have h1 := ((Real.hasDerivAt_cos t).smul_const (1 : M3)).add ((Real.hasDerivAt_sin t).smul_const (hat u))
  have h2 := h1.add (((Real.hasDerivAt_cos t).const_sub 1).smul_const (vecMulVec u u))
  convert! h2 using 1
  simp only [mul_add, mul_smul_comm, AngleAxis.hat_mul_hat, AngleAxis.hat_mul_vecMulVec, h, mul_one]
  apply mext3; intro i j
  simp
  ring

theorem toMat_eq_exp {u : V3} (h : u ⬝ᵥ u = 1) (t : ℝ) : AngleAxis.toMat ⟨t, u⟩ = NormedSpace.exp (t • hat u) := by
  have hd : ∀ s, HasDerivAt (fun s => NormedSpace.exp (s • (-hat u)) * AngleAxis.toMat ⟨s, u⟩) 0 s := by
    intro s
    have h1 := (hasDerivAt_exp_smul_const (-hat u) s).mul (hasDerivAt_toMat h s)
    convert! h1 using 1
    noncomm_ring
  have hc : ∀ s, NormedSpace.exp (s • (-hat u)) * AngleAxis.toMat ⟨s, u⟩ = 1 := by
    intro s
    have := is_const_of_deriv_eq_zero (fun s => (hd s).differentiableAt) (fun s => (hd s).deriv) s 0
    rw [this]; simp [AngleAxis.toMat_zero]
  have h2 : NormedSpace.exp (t • hat u) * NormedSpace.exp (t • (-hat u)) = 1 := by
    rw [smul_neg, ← Matrix.exp_add_of_commute _ _ ((Commute.refl (t • hat u)).neg_right)]
    simp
  calc AngleAxis.toMat ⟨t, u⟩ = (NormedSpace.exp (t • hat u) * NormedSpace.exp (t • (-hat u))) * AngleAxis.toMat ⟨t, u⟩ := by
        rw [h2, one_mul]
    _ = _ := by rw [mul_assoc, hc, mul_one]

end StateObs.Rot
