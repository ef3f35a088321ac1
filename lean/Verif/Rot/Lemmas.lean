import Verif.Rot.AngleAxis
import Verif.Rot.Exp
import Verif.Rot.Spec
/-!
# Helper lemmas about the functions on rotations
-/

namespace StateObs.Kine
open StateObs Matrix Rot

theorem epsilonAngle_pos : 0 < epsilonAngle := by norm_num [epsilonAngle]
theorem epsilon1_pos : 0 < epsilon1 := by norm_num [epsilon1]
theorem epsilon1_lt : epsilon1 < 1 / 2 := by norm_num [epsilon1]

theorem above_iff (v : V3) : v ⬝ᵥ v > epsilonAngle * epsilonAngle ↔ epsilonAngle < nrm v := by
  rw [← nrm_mul_self v]
  constructor
  · intro h
    by_contra hc
    have := nrm_nonneg v
    nlinarith
  · intro h
    have := epsilonAngle_pos
    show epsilonAngle * epsilonAngle < nrm v * nrm v
    nlinarith

theorem aa_above {v : V3} (h : epsilonAngle < nrm v) : rotationVectorToAngleAxis v = ⟨nrm v, (1 / nrm v) • v⟩ := by
  have := (above_iff v).2 h
  simp only [rotationVectorToAngleAxis]
  rw [if_pos this]; rfl

theorem aa_below {v : V3} (h : nrm v ≤ epsilonAngle) : rotationVectorToAngleAxis v = ⟨0, ez⟩ := by
  have := (above_iff v).not.2 (not_lt.2 h)
  simp only [rotationVectorToAngleAxis]
  rw [if_neg this]

theorem unit_normalized {v : V3} (h : 0 < nrm v) : ((1 / nrm v) • v) ⬝ᵥ ((1 / nrm v) • v) = 1 := by
  rw [smul_dotProduct, dotProduct_smul, ← nrm_mul_self]
  simp; field_simp

@[simp] theorem ez_0 : ez 0 = 0 := rfl
@[simp] theorem ez_1 : ez 1 = 0 := rfl
@[simp] theorem ez_2 : ez 2 = 1 := rfl
@[simp] theorem ex_0 : ex 0 = 1 := rfl
@[simp] theorem ex_1 : ex 1 = 0 := rfl
@[simp] theorem ex_2 : ex 2 = 0 := rfl
@[simp] theorem ey_0 : ey 0 = 0 := rfl
@[simp] theorem ey_1 : ey 1 = 1 := rfl
@[simp] theorem ey_2 : ey 2 = 0 := rfl
@[simp] theorem dot_ez (v : V3) : v ⬝ᵥ ez = v 2 := by simp [dot3]
@[simp] theorem ez_dot (v : V3) : ez ⬝ᵥ v = v 2 := by simp [dot3]
@[simp] theorem dot_ex (v : V3) : v ⬝ᵥ ex = v 0 := by simp [dot3]
@[simp] theorem ex_dot (v : V3) : ex ⬝ᵥ v = v 0 := by simp [dot3]

theorem ez_unit : ez ⬝ᵥ ez = 1 := by simp [dot3, ez]

theorem aa_unit (v : V3) : (rotationVectorToAngleAxis v).axis ⬝ᵥ (rotationVectorToAngleAxis v).axis = 1 := by
  by_cases h : epsilonAngle < nrm v
  · rw [aa_above h]
    exact unit_normalized (epsilonAngle_pos.trans h)
  · rw [aa_below (not_lt.1 h)]; exact ez_unit

/-- The rotation of the angle-axis of a vector, whatever the norm of the vector. -/
theorem toMat_normalized {v : V3} (h : 0 < nrm v) : AngleAxis.toMat ⟨nrm v, (1 / nrm v) • v⟩ = NormedSpace.exp (hat v) := by
  rw [toMat_eq_exp (unit_normalized h), ← hat_smul, smul_smul, mul_one_div_cancel h.ne', one_smul]

theorem rv_exp {v : V3} (h : epsilonAngle < nrm v) : rotationVectorToRotationMatrix v = NormedSpace.exp (hat v) := by
  rw [rotationVectorToRotationMatrix, aa_above h, toMat_normalized (epsilonAngle_pos.trans h)]

theorem rv_below {v : V3} (h : nrm v ≤ epsilonAngle) : rotationVectorToRotationMatrix v = 1 := by
  rw [rotationVectorToRotationMatrix, aa_below h, AngleAxis.toMat_zero]

theorem rv_isRot (v : V3) : IsRot (rotationVectorToRotationMatrix v) := AngleAxis.toMat_isRot (aa_unit v)

theorem rvq_unit (v : V3) : (rotationVectorToQuaternion v).normSq = 1 := AngleAxis.normSq_ofAngleAxis (aa_unit v)

theorem rvq_toMat (v : V3) : (rotationVectorToQuaternion v).toMat = rotationVectorToRotationMatrix v :=
  AngleAxis.toMat_ofAngleAxis (aa_unit v)

theorem rv_neg (v : V3) : rotationVectorToRotationMatrix (-v) = (rotationVectorToRotationMatrix v)ᵀ := by
  by_cases h : epsilonAngle < nrm v
  · rw [rotationVectorToRotationMatrix, rotationVectorToRotationMatrix, aa_above h, aa_above (by rwa [nrm_neg]), nrm_neg, smul_neg,
      AngleAxis.toMat_neg, AngleAxis.toMat_transpose]
  · have h := not_lt.1 h
    rw [rv_below h, rv_below (by rwa [nrm_neg])]; simp

theorem exp_isRot (v : V3) : IsRot (NormedSpace.exp (hat v)) := by
  by_cases h : v = 0
  · subst h; rw [hat_zero]; simpa using IsRot.one
  · rw [← toMat_normalized (nrm_pos h)]
    exact AngleAxis.toMat_isRot (unit_normalized (nrm_pos h))

theorem exp_ofAngleAxis (a : AngleAxis) (h : a.axis ⬝ᵥ a.axis = 1) : NormedSpace.exp (hat (a.angle • a.axis)) = a.toMat := by
  rw [hat_smul, ← toMat_eq_exp h]

/-- The angle-axis of a multiple of a unit vector. -/
theorem nrm_angle_axis {a : AngleAxis} (h : a.axis ⬝ᵥ a.axis = 1) (h0 : 0 ≤ a.angle) : nrm (a.angle • a.axis) = a.angle := by
  rw [nrm_smul, nrm_eq_one.2 h, mul_one, abs_of_nonneg h0]

theorem aa_of_angle_axis {a : AngleAxis} (h : a.axis ⬝ᵥ a.axis = 1) (h0 : epsilonAngle < a.angle) :
    rotationVectorToAngleAxis (a.angle • a.axis) = a := by
  have hp := epsilonAngle_pos.trans h0
  have e := nrm_angle_axis h hp.le
  rw [aa_above (by rw [e]; exact h0), e, smul_smul, one_div_mul_cancel hp.ne', one_smul]

/-- Three orthonormal vectors, right-handed. -/
theorem rows_isRot {a b c : V3} (ha : a ⬝ᵥ a = 1) (hc : c ⬝ᵥ c = 1) (hac : a ⬝ᵥ c = 0) (hb : b = c ⨯₃ a) : IsRot (rows a b c) := by
  subst hb
  rw [dot3] at ha hc hac
  have hT : rows a (c ⨯₃ a) c * (rows a (c ⨯₃ a) c)ᵀ = 1 := by
    apply mext3; intro i j
    rw [mul3]
    fin_cases i <;> fin_cases j <;> simp [rows, cross0, cross1, cross2]
    · linear_combination ha
    · ring
    · linear_combination hac
    · ring
    · linear_combination (c 0 * c 0 + c 1 * c 1 + c 2 * c 2) * ha + hc - (a 0 * c 0 + a 1 * c 1 + a 2 * c 2) * hac
    · ring
    · linear_combination hac
    · ring
    · linear_combination hc
  constructor
  · exact mul_eq_one_comm.1 hT
  · rw [det_fin_three]
    simp [rows, cross0, cross1, cross2]
    linear_combination (c 0 * c 0 + c 1 * c 1 + c 2 * c 2) * ha + hc - (a 0 * c 0 + a 1 * c 1 + a 2 * c 2) * hac

theorem cols_eq (a b c : V3) : cols a b c = (rows a b c)ᵀ := by
  apply mext3; intro i j; fin_cases i <;> fin_cases j <;> rfl

theorem cols_isRot {a b c : V3} (ha : a ⬝ᵥ a = 1) (hc : c ⬝ᵥ c = 1) (hac : a ⬝ᵥ c = 0) (hb : b = c ⨯₃ a) : IsRot (cols a b c) := by
  rw [cols_eq]; exact (rows_isRot ha hc hac hb).transpose

theorem rows_mulVec (a b c v : V3) : rows a b c *ᵥ v = ![a ⬝ᵥ v, b ⬝ᵥ v, c ⬝ᵥ v] := by
  apply ext3 <;> simp [mulVec3, rows, dot3]

theorem cols_mulVec (a b c v : V3) : cols a b c *ᵥ v = v 0 • a + v 1 • b + v 2 • c := by
  apply ext3 <;> simp [mulVec3, cols] <;> ring

theorem rot_dot_transpose (R : M3) (a b : V3) : (Rᵀ *ᵥ a) ⬝ᵥ b = a ⬝ᵥ (R *ᵥ b) := by
  simp only [dot3, mulVec3, transpose_apply]; ring

theorem cauchy (a b : V3) : (a ⬝ᵥ b) ^ 2 ≤ (a ⬝ᵥ a) * (b ⬝ᵥ b) := by
  simp only [dot3]
  nlinarith [sq_nonneg (a 0 * b 1 - a 1 * b 0), sq_nonneg (a 0 * b 2 - a 2 * b 0), sq_nonneg (a 1 * b 2 - a 2 * b 1)]

theorem dot_le (a b : V3) : a ⬝ᵥ b ≤ nrm a * nrm b := by
  have h := cauchy a b
  rw [← nrm_sq, ← nrm_sq, ← mul_pow] at h
  exact le_of_abs_le (abs_le_of_sq_le_sq h (mul_nonneg (nrm_nonneg a) (nrm_nonneg b)))

end StateObs.Kine
