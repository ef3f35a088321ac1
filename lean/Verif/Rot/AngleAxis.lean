import Verif.Rot.Quat
import Verif.Rot.Model
import Mathlib.Analysis.SpecialFunctions.Trigonometric.Deriv
import Mathlib.Analysis.SpecialFunctions.Exponential
import Mathlib.Analysis.Matrix.Normed
import Mathlib.Analysis.Calculus.MeanValue
/-!
# Angle-axis, exponential of skew matrices: helper lemmas
-/

namespace StateObs.Rot
open Matrix

namespace AngleAxis

theorem normSq_ofAngleAxis {a : AngleAxis} (h : a.axis ⬝ᵥ a.axis = 1) : (Quat.ofAngleAxis a).normSq = 1 := by
  rw [dot3] at h
  have := Real.sin_sq_add_cos_sq (1 / 2 * a.angle)
  simp only [Quat.normSq, Quat.ofAngleAxis]
  linear_combination Real.sin (1 / 2 * a.angle) ^ 2 * h + this

theorem toMat_ofAngleAxis {a : AngleAxis} (h : a.axis ⬝ᵥ a.axis = 1) : (Quat.ofAngleAxis a).toMat = a.toMat := by
  rw [dot3] at h
  have hc : Real.cos a.angle = 1 - 2 * Real.sin (1 / 2 * a.angle) ^ 2 := by
    have := Real.cos_sq' (1 / 2 * a.angle)
    have h2 := Real.cos_two_mul (1 / 2 * a.angle)
    rw [show 2 * (1 / 2 * a.angle) = a.angle by ring] at h2
    linarith
  have hs : Real.sin a.angle = 2 * Real.sin (1 / 2 * a.angle) * Real.cos (1 / 2 * a.angle) := by
    rw [← Real.sin_two_mul, show 2 * (1 / 2 * a.angle) = a.angle by ring]
  apply mext3; intro i j
  simp only [Quat.toMat, Quat.ofAngleAxis, toMat, hc, hs]
  generalize Real.sin (1 / 2 * a.angle) = s
  generalize Real.cos (1 / 2 * a.angle) = c
  fin_cases i <;> fin_cases j <;> simp
  all_goals first
    | ring1
    | linear_combination (2 * s ^ 2) * h
    | linear_combination (-2 * s ^ 2) * h

theorem toMat_isRot {a : AngleAxis} (h : a.axis ⬝ᵥ a.axis = 1) : IsRot a.toMat := by
  rw [← toMat_ofAngleAxis h]
  exact Quat.toMat_isRot (normSq_ofAngleAxis h)

theorem toMat_zero (u : V3) : toMat ⟨0, u⟩ = 1 := by
  apply mext3; intro i j
  fin_cases i <;> fin_cases j <;> simp [toMat]

theorem toMat_rodrigues (a : AngleAxis) :
    a.toMat = Real.cos a.angle • (1 : M3) + Real.sin a.angle • hat a.axis + (1 - Real.cos a.angle) • vecMulVec a.axis a.axis := by
  apply mext3; intro i j
  rw [hat_eq]
  fin_cases i <;> fin_cases j <;> simp [toMat, vecMulVec] <;> ring

theorem hat_mul_hat (u : V3) : hat u * hat u = vecMulVec u u - (u ⬝ᵥ u) • (1 : M3) := by
  apply mext3; intro i j
  rw [mul3, hat_eq, dot3]
  fin_cases i <;> fin_cases j <;> simp [vecMulVec] <;> ring

theorem hat_mul_vecMulVec (u : V3) : hat u * vecMulVec u u = 0 := by
  apply mext3; intro i j
  rw [mul3, hat_eq]
  fin_cases i <;> fin_cases j <;> simp [vecMulVec] <;> ring

theorem vecMulVec_mul_hat (u : V3) : vecMulVec u u * hat u = 0 := by
  apply mext3; intro i j
  rw [mul3, hat_eq]
  fin_cases i <;> fin_cases j <;> simp [vecMulVec] <;> ring

theorem toMat_neg (t : ℝ) (u : V3) : toMat ⟨t, -u⟩ = toMat ⟨-t, u⟩ := by
  rw [toMat_rodrigues, toMat_rodrigues]
  simp [hat_neg]

theorem toMat_transpose (t : ℝ) (u : V3) : (toMat ⟨t, u⟩)ᵀ = toMat ⟨-t, u⟩ := by
  rw [toMat_rodrigues, toMat_rodrigues]
  simp [hat_transpose, transpose_vecMulVec]

theorem toMat_mulVec (t : ℝ) (u w : V3) :
    toMat ⟨t, u⟩ *ᵥ w = Real.cos t • w + Real.sin t • (u ⨯₃ w) + ((1 - Real.cos t) * (u ⬝ᵥ w)) • u := by
  rw [toMat_rodrigues]
  simp only [add_mulVec, smul_mulVec, one_mulVec, hat_mulVec, vecMulVec_mulVec]
  simp [smul_smul, mul_comm]

theorem toMat_axis {t : ℝ} {u : V3} (h : u ⬝ᵥ u = 1) : toMat ⟨t, u⟩ *ᵥ u = u := by
  rw [toMat_mulVec, h, _root_.cross_self]
  simp [← add_smul]

theorem toMat_add {u : V3} (h : u ⬝ᵥ u = 1) (s t : ℝ) : toMat ⟨s, u⟩ * toMat ⟨t, u⟩ = toMat ⟨s + t, u⟩ := by
  simp only [toMat_rodrigues, add_mul, mul_add, smul_mul_assoc, mul_smul_comm, hat_mul_hat, hat_mul_vecMulVec, vecMulVec_mul_hat,
    vecMulVec_mul_vecMulVec, h, Real.cos_add, Real.sin_add, mul_one, one_mul, smul_smul]
  apply mext3; intro i j
  simp
  ring

theorem vec_dot (q : Quat) : q.vec ⬝ᵥ q.vec = q.x * q.x + q.y * q.y + q.z * q.z := by
  rw [dot3]; simp [Quat.vec]

theorem quat_norm {q : Quat} (h : q.normSq = 1) : q.w ^ 2 + nrm q.vec ^ 2 = 1 := by
  rw [nrm_sq, vec_dot]; simp only [Quat.normSq] at h; linarith

theorem atan2_polar {r θ : ℝ} (hr : 0 < r) (h : θ ∈ Set.Ioc (-Real.pi) Real.pi) : atan2 (r * Real.sin θ) (r * Real.cos θ) = θ := by
  have := Complex.arg_mul_cos_add_sin_mul_I hr h
  rw [atan2]
  convert! this using 2
  apply Complex.ext <;> simp [← Complex.ofReal_cos, ← Complex.ofReal_sin]

theorem cos_atan2 {n w : ℝ} (h : w ^ 2 + n ^ 2 = 1) : Real.cos (atan2 n w) = w := by
  have hn : ‖(⟨w, n⟩ : ℂ)‖ = 1 := by
    rw [Complex.norm_def, Complex.normSq_mk, ← pow_two, ← pow_two, h, Real.sqrt_one]
  have h0 : (⟨w, n⟩ : ℂ) ≠ 0 := by intro e; rw [e] at hn; simp at hn
  rw [atan2, Complex.cos_arg h0, hn]; simp

theorem sin_atan2 {n w : ℝ} (h : w ^ 2 + n ^ 2 = 1) : Real.sin (atan2 n w) = n := by
  have hn : ‖(⟨w, n⟩ : ℂ)‖ = 1 := by
    rw [Complex.norm_def, Complex.normSq_mk, ← pow_two, ← pow_two, h, Real.sqrt_one]
  rw [atan2, Complex.sin_arg, hn]; simp

theorem ofQuat_axis_unit (q : Quat) : (ofQuat q).axis ⬝ᵥ (ofQuat q).axis = 1 := by
  unfold ofQuat
  by_cases h : nrm q.vec = 0
  · simp [h, dot3]
  · have e := nrm_mul_self q.vec
    simp only [ne_eq, h, not_false_eq_true, if_true]
    rw [smul_dotProduct, dotProduct_smul, ← e]
    split <;> simp <;> field_simp

theorem ofQuat_angle_nonneg (q : Quat) : 0 ≤ (ofQuat q).angle := by
  unfold ofQuat
  by_cases h : nrm q.vec = 0
  · simp [h]
  · simp only [ne_eq, h, not_false_eq_true, if_true]
    have : 0 ≤ atan2 (nrm q.vec) |q.w| := by
      rw [atan2, Complex.arg_nonneg_iff]; exact nrm_nonneg _
    linarith

theorem ofQuat_angle_le (q : Quat) : (ofQuat q).angle ≤ Real.pi := by
  unfold ofQuat
  by_cases h : nrm q.vec = 0
  · simp [h, Real.pi_pos.le]
  · simp only [ne_eq, h, not_false_eq_true, if_true]
    have : abs (atan2 (nrm q.vec) |q.w|) ≤ Real.pi / 2 := by
      rw [atan2, Complex.abs_arg_le_pi_div_two_iff]; exact abs_nonneg _
    have := le_abs_self (atan2 (nrm q.vec) |q.w|)
    linarith

/-- Going to the angle-axis and back gives the quaternion of nonnegative scalar part. -/
theorem ofAngleAxis_ofQuat {q : Quat} (h : q.normSq = 1) :
    Quat.ofAngleAxis (ofQuat q) = if q.w < 0 then Quat.scale (-1) q else if nrm q.vec = 0 then 1 else q := by
  have hn := quat_norm h
  unfold ofQuat
  by_cases h0 : nrm q.vec = 0
  · have hv := nrm_eq_zero.1 h0
    have hx : q.x = 0 := congrFun hv 0
    have hy : q.y = 0 := congrFun hv 1
    have hz : q.z = 0 := congrFun hv 2
    simp only [h0, ne_eq, not_true_eq_false, if_false, if_true]
    simp only [h0] at hn
    split
    · have hw : q.w = -1 := by nlinarith
      ext <;> simp [Quat.ofAngleAxis, Quat.scale, hx, hy, hz, hw]
    · ext <;> simp [Quat.ofAngleAxis]
  · simp only [ne_eq, h0, not_false_eq_true, if_true, if_false]
    have hn' : |q.w| ^ 2 + nrm q.vec ^ 2 = 1 := by rw [sq_abs]; exact hn
    have ha : 1 / 2 * (2 * atan2 (nrm q.vec) |q.w|) = atan2 (nrm q.vec) |q.w| := by ring
    simp only [Quat.ofAngleAxis, ha, cos_atan2 hn', sin_atan2 hn']
    split
    · rename_i hw
      rw [abs_of_neg hw]
      generalize nrm q.vec = n at h0
      ext <;> simp [Quat.scale, Quat.vec] <;> field_simp
    · rename_i hw
      rw [abs_of_nonneg (not_lt.1 hw)]
      generalize nrm q.vec = n at h0
      ext <;> simp [Quat.vec] <;> field_simp

theorem toMat_ofQuat {q : Quat} (h : q.normSq = 1) : (ofQuat q).toMat = q.toMat := by
  rw [← toMat_ofAngleAxis (ofQuat_axis_unit q), ofAngleAxis_ofQuat h]
  split
  · exact Quat.toMat_neg q
  · split
    · rename_i hw h0
      have hn := quat_norm h
      rw [h0] at hn
      have hv := nrm_eq_zero.1 h0
      have hx : q.x = 0 := congrFun hv 0
      have hy : q.y = 0 := congrFun hv 1
      have hz : q.z = 0 := congrFun hv 2
      have hw : q.w = 1 := by nlinarith
      congr 1
      ext <;> simp [hx, hy, hz, hw]
    · rfl

theorem toMat_ofMat {R : M3} (h : IsRot R) : (ofMat R).toMat = R := by
  have := Quat.ofMat_spec h
  rw [ofMat, toMat_ofQuat this.1, this.2]

/-- Unit quaternions representing the same rotation are equal up to sign. -/
theorem _root_.StateObs.Rot.Quat.toMat_inj {p q : Quat} (hp : p.normSq = 1) (hq : q.normSq = 1) (h : p.toMat = q.toMat) :
    p = q ∨ p = Quat.scale (-1) q := by
  -- `r = conj q * p` represents the identity
  have hr : (q.conj * p).toMat = 1 := by
    rw [Quat.toMat_mul ((Quat.normSq_conj q).trans hq) hp, h, Quat.toMat_conj, (Quat.toMat_isRot hq).orth]
  have hn : (q.conj * p).normSq = 1 := by rw [Quat.normSq_mul, Quat.normSq_conj, hp, hq, mul_one]
  have hpq : p = q * (q.conj * p) := by rw [← Quat.mul_assoc, Quat.mul_conj_self hq, Quat.one_mul]
  generalize q.conj * p = r at *
  have e0 : r.toMat 0 0 = 1 := by rw [hr]; rfl
  have e1 : r.toMat 1 1 = 1 := by rw [hr]; rfl
  have e2 : r.toMat 2 2 = 1 := by rw [hr]; rfl
  simp only [Quat.toMat] at e0 e1 e2
  simp at e0 e1 e2
  have hx : r.x = 0 := by nlinarith [sq_nonneg r.x, sq_nonneg r.y, sq_nonneg r.z]
  have hy : r.y = 0 := by nlinarith [sq_nonneg r.x, sq_nonneg r.y, sq_nonneg r.z]
  have hz : r.z = 0 := by nlinarith [sq_nonneg r.x, sq_nonneg r.y, sq_nonneg r.z]
  simp [Quat.normSq, hx, hy, hz] at hn
  have hw : (r.w - 1) * (r.w + 1) = 0 := by linear_combination hn
  rcases mul_eq_zero.1 hw with hw | hw
  · left
    have : r.w = 1 := by linarith
    rw [hpq]; ext <;> simp [hx, hy, hz, this]
  · right
    have : r.w = -1 := by linarith
    rw [hpq]; ext <;> simp [hx, hy, hz, this, Quat.scale]

/-- Converting the quaternion of an angle below a half turn gives back the angle and axis. -/
theorem ofQuat_ofAngleAxis {t : ℝ} {u : V3} (hu : u ⬝ᵥ u = 1) (h0 : 0 < t) (h1 : t < Real.pi) :
    ofQuat (Quat.ofAngleAxis ⟨t, u⟩) = ⟨t, u⟩ := by
  have hs : 0 < Real.sin (1 / 2 * t) := Real.sin_pos_of_pos_of_lt_pi (by linarith) (by linarith)
  have hc : 0 < Real.cos (1 / 2 * t) := Real.cos_pos_of_mem_Ioo ⟨by linarith, by linarith⟩
  have hv : (Quat.ofAngleAxis ⟨t, u⟩).vec = Real.sin (1 / 2 * t) • u := by
    apply ext3 <;> simp [Quat.vec, Quat.ofAngleAxis]
  have hn : nrm (Quat.ofAngleAxis ⟨t, u⟩).vec = Real.sin (1 / 2 * t) := by
    rw [hv, nrm_smul, abs_of_pos hs, nrm_eq_one.2 hu, mul_one]
  have hw : (Quat.ofAngleAxis ⟨t, u⟩).w = Real.cos (1 / 2 * t) := rfl
  unfold ofQuat
  rw [hn, hw, hv]
  simp only [ne_eq, hs.ne', not_false_eq_true, if_true, not_lt.2 hc.le, if_false, abs_of_pos hc]
  have : atan2 (Real.sin (1 / 2 * t)) (Real.cos (1 / 2 * t)) = 1 / 2 * t := by
    have := atan2_polar (r := 1) (θ := 1 / 2 * t) one_pos ⟨by linarith, by linarith⟩
    rwa [one_mul, one_mul] at this
  rw [this, smul_smul]
  rw [one_div_mul_cancel hs.ne', one_smul]
  congr 1
  ring

end AngleAxis

end StateObs.Rot
