import Mathlib.LinearAlgebra.CrossProduct
import Mathlib.LinearAlgebra.Matrix.NonsingularInverse
import Mathlib.LinearAlgebra.Matrix.ToLin
import Mathlib.Data.Matrix.Mul
import Mathlib.Data.Real.Basic
import Mathlib.Analysis.SpecialFunctions.Sqrt
import Mathlib.Tactic.Ring
import Mathlib.Tactic.Linarith
import Mathlib.Tactic.FinCases
import Mathlib.Tactic.LinearCombination
/-!
# Vectors and rotation matrices of the three-dimensional space

Vocabulary for the specifications (`IsRot`, `nrm`, the cross product of Mathlib) and a library of identities.
-/

namespace StateObs

abbrev V3 := Fin 3 → ℝ
abbrev M3 := Matrix (Fin 3) (Fin 3) ℝ

namespace Rot
open Matrix

/-- The Euclidean norm. -/
noncomputable def nrm (v : V3) : ℝ := Real.sqrt (v ⬝ᵥ v)

/-- Rotation matrices: orthogonal, with determinant one. -/
structure IsRot (R : M3) : Prop where
  orth : Rᵀ * R = 1
  det : R.det = 1

theorem ext3 {a b : V3} (h0 : a 0 = b 0) (h1 : a 1 = b 1) (h2 : a 2 = b 2) : a = b := by
  ext i; fin_cases i <;> assumption

theorem dot3 (a b : V3) : a ⬝ᵥ b = a 0 * b 0 + a 1 * b 1 + a 2 * b 2 := by
  simp [dotProduct, Fin.sum_univ_three]

theorem mulVec3 (R : M3) (v : V3) (i : Fin 3) : (R *ᵥ v) i = R i 0 * v 0 + R i 1 * v 1 + R i 2 * v 2 := by
  simp [mulVec, dotProduct, Fin.sum_univ_three]

theorem mul3 (A B : M3) (i j : Fin 3) : (A * B) i j = A i 0 * B 0 j + A i 1 * B 1 j + A i 2 * B 2 j := by
  simp [Matrix.mul_apply, Fin.sum_univ_three]

theorem cross0 (a b : V3) : (a ⨯₃ b) 0 = a 1 * b 2 - a 2 * b 1 := by simp [cross_apply]
theorem cross1 (a b : V3) : (a ⨯₃ b) 1 = a 2 * b 0 - a 0 * b 2 := by simp [cross_apply]
theorem cross2 (a b : V3) : (a ⨯₃ b) 2 = a 0 * b 1 - a 1 * b 0 := by simp [cross_apply]

theorem mext3 {A B : M3} (h : ∀ i j, A i j = B i j) : A = B := by ext i j; exact h i j

theorem dot_self_nonneg (v : V3) : 0 ≤ v ⬝ᵥ v := by
  rw [dot3]; nlinarith [mul_self_nonneg (v 0), mul_self_nonneg (v 1), mul_self_nonneg (v 2)]

theorem dot_self_eq_zero {v : V3} (h : v ⬝ᵥ v = 0) : v = 0 := by
  rw [dot3] at h
  have h0 := mul_self_nonneg (v 0)
  have h1 := mul_self_nonneg (v 1)
  have h2 := mul_self_nonneg (v 2)
  refine ext3 ?_ ?_ ?_ <;> exact mul_self_eq_zero.1 (by linarith)

theorem nrm_sq (v : V3) : nrm v ^ 2 = v ⬝ᵥ v := Real.sq_sqrt (dot_self_nonneg v)
theorem nrm_mul_self (v : V3) : nrm v * nrm v = v ⬝ᵥ v := Real.mul_self_sqrt (dot_self_nonneg v)
theorem nrm_nonneg (v : V3) : 0 ≤ nrm v := Real.sqrt_nonneg _
theorem nrm_eq_zero {v : V3} : nrm v = 0 ↔ v = 0 := by
  constructor
  · intro h
    apply dot_self_eq_zero
    rw [← nrm_sq, h]; simp
  · rintro rfl; simp [nrm]
theorem nrm_pos {v : V3} (h : v ≠ 0) : 0 < nrm v :=
  lt_of_le_of_ne (nrm_nonneg v) fun h' => h (nrm_eq_zero.1 h'.symm)
theorem nrm_zero : nrm 0 = 0 := nrm_eq_zero.2 rfl
theorem nrm_smul (c : ℝ) (v : V3) : nrm (c • v) = |c| * nrm v := by
  unfold nrm
  rw [smul_dotProduct, dotProduct_smul, smul_eq_mul, smul_eq_mul, ← mul_assoc, Real.sqrt_mul (mul_self_nonneg c), Real.sqrt_mul_self_eq_abs]
theorem nrm_neg (v : V3) : nrm (-v) = nrm v := by simp [nrm]
theorem nrm_eq_one {v : V3} : nrm v = 1 ↔ v ⬝ᵥ v = 1 := by
  rw [nrm, Real.sqrt_eq_one]
theorem nrm_normalized {v : V3} (h : v ≠ 0) : nrm ((nrm v)⁻¹ • v) = 1 := by
  rw [nrm_smul, abs_of_nonneg (inv_nonneg.2 (nrm_nonneg v)), inv_mul_cancel₀ (nrm_pos h).ne']

/-! ## Cross products -/

theorem cross_add (a b c : V3) : a ⨯₃ (b + c) = a ⨯₃ b + a ⨯₃ c := map_add _ _ _
theorem add_cross (a b c : V3) : (a + b) ⨯₃ c = a ⨯₃ c + b ⨯₃ c := by simp
theorem cross_sub (a b c : V3) : a ⨯₃ (b - c) = a ⨯₃ b - a ⨯₃ c := map_sub _ _ _
theorem sub_cross (a b c : V3) : (a - b) ⨯₃ c = a ⨯₃ c - b ⨯₃ c := by simp
theorem cross_smul (r : ℝ) (a b : V3) : a ⨯₃ (r • b) = r • a ⨯₃ b := map_smul _ _ _
theorem smul_cross (r : ℝ) (a b : V3) : (r • a) ⨯₃ b = r • a ⨯₃ b := by simp
theorem cross_neg (a b : V3) : a ⨯₃ (-b) = -(a ⨯₃ b) := map_neg _ _
theorem neg_cross (a b : V3) : (-a) ⨯₃ b = -(a ⨯₃ b) := by simp

/-- The matrix of the cross product with `v` (specification; the function of the code is `skewSymmetric`). -/
def hat (v : V3) : M3 := Matrix.of fun i j => (v ⨯₃ (Pi.single j 1 : V3)) i

theorem hat_eq (v : V3) : hat v = !![0, -v 2, v 1; v 2, 0, -v 0; -v 1, v 0, 0] := by
  ext i j
  fin_cases i <;> fin_cases j <;> simp [hat, cross_apply]

theorem hat_mulVec (v w : V3) : hat v *ᵥ w = v ⨯₃ w := by
  rw [hat_eq]
  apply ext3
  · rw [mulVec3, cross0]; simp; ring
  · rw [mulVec3, cross1]; simp; ring
  · rw [mulVec3, cross2]; simp; ring

theorem hat_transpose (v : V3) : (hat v)ᵀ = -hat v := by
  rw [hat_eq]
  ext i j
  fin_cases i <;> fin_cases j <;> simp

theorem hat_add (v w : V3) : hat (v + w) = hat v + hat w := by
  rw [hat_eq, hat_eq, hat_eq]
  ext i j
  fin_cases i <;> fin_cases j <;> simp <;> ring

theorem hat_smul (r : ℝ) (v : V3) : hat (r • v) = r • hat v := by
  rw [hat_eq, hat_eq]
  ext i j
  fin_cases i <;> fin_cases j <;> simp

theorem hat_neg (v : V3) : hat (-v) = -hat v := by
  rw [hat_eq, hat_eq]
  ext i j
  fin_cases i <;> fin_cases j <;> simp

theorem hat_zero : hat 0 = 0 := by
  rw [hat_eq]
  ext i j
  fin_cases i <;> fin_cases j <;> simp

theorem hat_sub (v w : V3) : hat (v - w) = hat v - hat w := by
  rw [sub_eq_add_neg, hat_add, hat_neg, ← sub_eq_add_neg]

theorem hat_inj {v w : V3} (h : hat v = hat w) : v = w := by
  rw [hat_eq, hat_eq] at h
  have h1 := congrFun (congrFun h 2) 1
  have h2 := congrFun (congrFun h 0) 2
  have h3 := congrFun (congrFun h 1) 0
  simp at h1 h2 h3
  exact ext3 h1 h2 h3

theorem mulVec_ext {A B : M3} (h : ∀ v, A *ᵥ v = B *ᵥ v) : A = B := by
  ext i j
  have := congrFun (h (Pi.single j 1)) i
  simpa using this

/-! ## Rotations -/

theorem IsRot.orth' {R : M3} (h : IsRot R) : R * Rᵀ = 1 := mul_eq_one_comm.1 h.orth

theorem IsRot.one : IsRot 1 := ⟨by simp, by simp⟩

theorem IsRot.mul {R S : M3} (hR : IsRot R) (hS : IsRot S) : IsRot (R * S) := by
  refine ⟨?_, by rw [det_mul, hR.det, hS.det, one_mul]⟩
  rw [transpose_mul, Matrix.mul_assoc, ← Matrix.mul_assoc Rᵀ, hR.orth, Matrix.one_mul, hS.orth]

theorem IsRot.transpose {R : M3} (h : IsRot R) : IsRot Rᵀ :=
  ⟨by rw [transpose_transpose]; exact h.orth', by rw [det_transpose, h.det]⟩

theorem IsRot.cancel {R : M3} (h : IsRot R) (v : V3) : Rᵀ *ᵥ (R *ᵥ v) = v := by
  rw [mulVec_mulVec, h.orth, one_mulVec]

theorem IsRot.cancel' {R : M3} (h : IsRot R) (v : V3) : R *ᵥ (Rᵀ *ᵥ v) = v := by
  rw [mulVec_mulVec, h.orth', one_mulVec]

theorem IsRot.inv {R : M3} (h : IsRot R) : R⁻¹ = Rᵀ := inv_eq_left_inv h.orth

theorem IsRot.adjugate {R : M3} (h : IsRot R) : R.adjugate = Rᵀ := by
  have h1 := Matrix.mul_adjugate R
  rw [h.det, one_smul] at h1
  have : Rᵀ * (R * R.adjugate) = Rᵀ := by rw [h1, Matrix.mul_one]
  rwa [← Matrix.mul_assoc, h.orth, Matrix.one_mul] at this

/-- The images of two vectors under any matrix. -/
theorem mulVec_cross (R : M3) (a b : V3) : (R *ᵥ a) ⨯₃ (R *ᵥ b) = R.adjugateᵀ *ᵥ (a ⨯₃ b) := by
  rw [adjugate_fin_three]
  apply ext3
  · rw [cross0]; simp only [mulVec3, cross0, cross1, cross2]; simp; ring
  · rw [cross1]; simp only [mulVec3, cross0, cross1, cross2]; simp; ring
  · rw [cross2]; simp only [mulVec3, cross0, cross1, cross2]; simp; ring

theorem IsRot.cross {R : M3} (h : IsRot R) (a b : V3) : R *ᵥ (a ⨯₃ b) = (R *ᵥ a) ⨯₃ (R *ᵥ b) := by
  rw [mulVec_cross, h.adjugate, transpose_transpose]

theorem IsRot.hat {R : M3} (h : IsRot R) (v : V3) : Rot.hat (R *ᵥ v) = R * Rot.hat v * Rᵀ := by
  apply mulVec_ext
  intro w
  rw [hat_mulVec, ← mulVec_mulVec, ← mulVec_mulVec, hat_mulVec, h.cross, h.cancel']

theorem IsRot.dot {R : M3} (h : IsRot R) (a b : V3) : (R *ᵥ a) ⬝ᵥ (R *ᵥ b) = a ⬝ᵥ b := by
  rw [dotProduct_mulVec, vecMul_mulVec, ← dotProduct_mulVec]
  simp [h.orth]

theorem IsRot.nrm {R : M3} (h : IsRot R) (a : V3) : Rot.nrm (R *ᵥ a) = Rot.nrm a := by
  unfold Rot.nrm; rw [h.dot]

theorem IsRot.injective {R : M3} (h : IsRot R) {a b : V3} (e : R *ᵥ a = R *ᵥ b) : a = b := by
  rw [← h.cancel a, e, h.cancel]

end Rot
end StateObs
