import Verif.Rot.Motion
import Verif.Rot.MotionProps
import Mathlib.Analysis.SpecialFunctions.Trigonometric.Deriv
/-!
# Derivative of the exponential of rotation vectors: helper lemmas
-/

namespace StateObs.Rot
open Matrix

/-- The curve of rotations `R` passes at time `t` with angular velocity `ω`, in the fixed frame. -/
def TurnsAt (R : ℝ → M3) (ω : V3) (t : ℝ) : Prop := ∀ w, HasDerivAt (fun t => R t *ᵥ w) (ω ⨯₃ (R t *ᵥ w)) t

/-- Rodrigues' formula for a rotation vector. -/
theorem exp_mulVec {v : V3} (h : v ≠ 0) (w : V3) : NormedSpace.exp (hat v) *ᵥ w =
    w + (Real.sin (nrm v) / nrm v) • (v ⨯₃ w) + ((1 - Real.cos (nrm v)) / (v ⬝ᵥ v)) • (v ⨯₃ (v ⨯₃ w)) := by
  have hp := nrm_pos h
  rw [← Kine.toMat_normalized hp, AngleAxis.toMat_mulVec, ← nrm_sq]
  have e : v ⨯₃ (v ⨯₃ w) = (v ⬝ᵥ w) • v - (nrm v ^ 2) • w := by
    rw [nrm_sq, cross_cross_eq_smul_sub_smul']
  rw [e]
  simp only [smul_cross, smul_dotProduct, smul_eq_mul]
  apply ext3 <;> simp <;> field_simp <;> ring

theorem hasDerivAt_nrm {δ : ℝ → V3} {δ' : V3} {t : ℝ} (hd : HasDerivAt δ δ' t) (h : δ t ≠ 0) :
    HasDerivAt (fun s => nrm (δ s)) ((δ t ⬝ᵥ δ') / nrm (δ t)) t := by
  have h1 := hasDerivAt_dot hd hd
  have h2 : δ t ⬝ᵥ δ t ≠ 0 := fun e => h (dot_self_eq_zero e)
  have := h1.sqrt h2
  convert! this using 1
  rw [dotProduct_comm δ' (δ t)]
  show _ = _ / (2 * nrm (δ t))
  have := nrm_pos h
  field_simp; ring

/-- The identity behind the left Jacobian: `a = sin φ / φ`, `b = (1 - cos φ) / φ²`. -/
theorem jacobian_identity (v d w : V3) (a b n p : ℝ) (hn : n = v ⬝ᵥ v) (hp : p = v ⬝ᵥ d) (h0 : n ≠ 0) (hab : a * a + b * b * n = 2 * b) :
    (((1 - a) / n * p) • v + a • d + b • (v ⨯₃ d)) ⨯₃ (w + a • (v ⨯₃ w) + b • (v ⨯₃ (v ⨯₃ w))) =
      ((1 - b * n - a) / n * p) • (v ⨯₃ w) + a • (d ⨯₃ w) + ((a - 2 * b) / n * p) • (v ⨯₃ (v ⨯₃ w)) +
        b • (d ⨯₃ (v ⨯₃ w) + v ⨯₃ (d ⨯₃ w)) := by
  rw [dot3] at hn hp
  apply ext3
  all_goals
    simp only [cross0, cross1, cross2, Pi.add_apply, Pi.smul_apply, smul_eq_mul]
    field_simp
    subst hp hn
  · linear_combination ((v 0 * v 0 + v 1 * v 1 + v 2 * v 2) * (d 1 * (v 0 * w 1 - v 1 * w 0) - d 2 * (v 2 * w 0 - v 0 * w 2)) -
      (v 0 * d 0 + v 1 * d 1 + v 2 * d 2) * (v 1 * (v 0 * w 1 - v 1 * w 0) - v 2 * (v 2 * w 0 - v 0 * w 2))) * hab
  · linear_combination ((v 0 * v 0 + v 1 * v 1 + v 2 * v 2) * (d 2 * (v 1 * w 2 - v 2 * w 1) - d 0 * (v 0 * w 1 - v 1 * w 0)) -
      (v 0 * d 0 + v 1 * d 1 + v 2 * d 2) * (v 2 * (v 1 * w 2 - v 2 * w 1) - v 0 * (v 0 * w 1 - v 1 * w 0))) * hab
  · linear_combination ((v 0 * v 0 + v 1 * v 1 + v 2 * v 2) * (d 0 * (v 2 * w 0 - v 0 * w 2) - d 1 * (v 1 * w 2 - v 2 * w 1)) -
      (v 0 * d 0 + v 1 * d 1 + v 2 * d 2) * (v 0 * (v 2 * w 0 - v 0 * w 2) - v 1 * (v 1 * w 2 - v 2 * w 1))) * hab

/-- The left Jacobian of the exponential: how the rotation of a moving rotation vector turns. -/
theorem turnsAt_exp {δ : ℝ → V3} {δ' : V3} {t : ℝ} (hd : HasDerivAt δ δ' t) (h : δ t ≠ 0) :
    TurnsAt (fun s => NormedSpace.exp (hat (δ s)))
      ((((nrm (δ t) - Real.sin (nrm (δ t))) / nrm (δ t) ^ 3) * (δ t ⬝ᵥ δ')) • δ t + (Real.sin (nrm (δ t)) / nrm (δ t)) • δ' +
        ((1 - Real.cos (nrm (δ t))) / nrm (δ t) ^ 2) • (δ t ⨯₃ δ')) t := by
  intro w
  have hp := nrm_pos h
  have hev : ∀ᶠ s in nhds t, δ s ≠ 0 := hd.continuousAt.eventually_ne h
  have hφ := hasDerivAt_nrm hd h
  have hdd := hasDerivAt_dot hd hd
  have h2 : δ t ⬝ᵥ δ t ≠ 0 := fun e => h (dot_self_eq_zero e)
  have ha := hφ.sin.div hφ hp.ne'
  have hb := (hφ.cos.const_sub 1).div hdd h2
  have hc1 := hasDerivAt_cross hd (hasDerivAt_const t w)
  have hc2 := hasDerivAt_cross hd hc1
  have hcurve := ((hasDerivAt_const t w).add (ha.smul hc1)).add (hb.smul hc2)
  have hfin := hcurve.congr_of_eventuallyEq (f₁ := fun s => NormedSpace.exp (hat (δ s)) *ᵥ w)
    (hev.mono fun s hs => exp_mulVec hs w)
  convert! hfin using 1
  have hsc := Real.sin_sq_add_cos_sq (nrm (δ t))
  have hJ := jacobian_identity (δ t) δ' w (Real.sin (nrm (δ t)) / nrm (δ t)) ((1 - Real.cos (nrm (δ t))) / nrm (δ t) ^ 2)
    (nrm (δ t) ^ 2) (δ t ⬝ᵥ δ') (nrm_sq _) rfl (by positivity) (by field_simp; linear_combination hsc)
  simp only [Pi.div_apply, exp_mulVec h, ← nrm_sq, map_zero, add_zero, zero_add]
  have e1 : (nrm (δ t) - Real.sin (nrm (δ t))) / nrm (δ t) ^ 3 = (1 - Real.sin (nrm (δ t)) / nrm (δ t)) / nrm (δ t) ^ 2 := by
    field_simp
  rw [e1, hJ]
  rw [dotProduct_comm δ' (δ t)]
  generalize δ t ⨯₃ (δ t ⨯₃ w) = A
  generalize δ t ⨯₃ (δ' ⨯₃ w) = A'
  generalize δ' ⨯₃ (δ t ⨯₃ w) = A''
  generalize δ t ⨯₃ w = B
  generalize δ' ⨯₃ w = B'
  apply ext3
  all_goals
    simp only [Pi.add_apply, Pi.smul_apply, smul_eq_mul]
    field_simp
    ring

section
attribute [local instance] Matrix.linftyOpNormedRing Matrix.linftyOpNormedAlgebra Matrix.linftyOpNormedAddCommGroup Matrix.linftyOpNormedSpace

/-- Around the identity the rotation turns as its vector moves. -/
theorem turnsAt_exp_zero {δ : ℝ → V3} {δ' : V3} {t : ℝ} (hd : HasDerivAt δ δ' t) (h : δ t = 0) :
    TurnsAt (fun s => NormedSpace.exp (hat (δ s))) δ' t := by
  intro w
  obtain ⟨d0, d1, d2⟩ := hasDerivAt3.1 hd
  have hs : ∀ v : V3, hat v = v 0 • hat ![1, 0, 0] + v 1 • hat ![0, 1, 0] + v 2 • hat ![0, 0, 1] := by
    intro v
    rw [← hat_smul, ← hat_smul, ← hat_smul, ← hat_add, ← hat_add]
    congr 1
    apply ext3 <;> simp
  have h1 : HasDerivAt (fun s => hat (δ s)) (hat δ') t := by
    have := ((d0.smul_const (hat ![1, 0, 0])).add (d1.smul_const (hat ![0, 1, 0]))).add (d2.smul_const (hat ![0, 0, 1]))
    rw [hs δ']
    refine this.congr_of_eventuallyEq (Filter.Eventually.of_forall fun s => hs (δ s))
  have h2 : HasFDerivAt (𝕜 := ℝ) (NormedSpace.exp : M3 → M3) (1 : M3 →L[ℝ] M3) (hat (δ t)) := by
    rw [h, hat_zero]; exact hasFDerivAt_exp_zero
  have h3 := h2.comp_hasDerivAt t h1
  let L : M3 →L[ℝ] V3 := LinearMap.toContinuousLinearMap ⟨⟨fun M => M *ᵥ w, fun a b => add_mulVec a b w⟩, fun r a => smul_mulVec r a w⟩
  have h4 := L.hasFDerivAt.comp_hasDerivAt t h3
  convert! h4 using 1
  show _ = hat δ' *ᵥ w
  rw [hat_mulVec]
  simp [h, hat_zero]

end

end StateObs.Rot
