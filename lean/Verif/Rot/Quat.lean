import Verif.Rot.Eigen
import Mathlib.Tactic.LinearCombination
import Mathlib.Tactic.FieldSimp
/-!
# Quaternions, rotation matrices and angle-axis: helper lemmas
-/

namespace StateObs.Rot
open Matrix

variable {R : M3}

section entries
theorem IsRot.o (h : IsRot R) (i j : Fin 3) : R 0 i * R 0 j + R 1 i * R 1 j + R 2 i * R 2 j = (1 : M3) i j := by
  have := congrFun (congrFun h.orth i) j
  rwa [mul3] at this

theorem IsRot.r (h : IsRot R) (i j : Fin 3) : R i 0 * R j 0 + R i 1 * R j 1 + R i 2 * R j 2 = (1 : M3) i j := by
  have := congrFun (congrFun h.orth' i) j
  rwa [mul3] at this

theorem IsRot.a' (h : IsRot R) (i j : Fin 3) : R.adjugate i j = R j i := by rw [h.adjugate]; rfl
theorem IsRot.o00 (h : IsRot R) : R 0 0 * R 0 0 + R 1 0 * R 1 0 + R 2 0 * R 2 0 = 1 := by
  simpa using h.o 0 0
theorem IsRot.r00 (h : IsRot R) : R 0 0 * R 0 0 + R 0 1 * R 0 1 + R 0 2 * R 0 2 = 1 := by
  simpa using h.r 0 0
theorem IsRot.o01 (h : IsRot R) : R 0 0 * R 0 1 + R 1 0 * R 1 1 + R 2 0 * R 2 1 = 0 := by
  simpa using h.o 0 1
theorem IsRot.r01 (h : IsRot R) : R 0 0 * R 1 0 + R 0 1 * R 1 1 + R 0 2 * R 1 2 = 0 := by
  simpa using h.r 0 1
theorem IsRot.o02 (h : IsRot R) : R 0 0 * R 0 2 + R 1 0 * R 1 2 + R 2 0 * R 2 2 = 0 := by
  simpa using h.o 0 2
theorem IsRot.r02 (h : IsRot R) : R 0 0 * R 2 0 + R 0 1 * R 2 1 + R 0 2 * R 2 2 = 0 := by
  simpa using h.r 0 2
theorem IsRot.o11 (h : IsRot R) : R 0 1 * R 0 1 + R 1 1 * R 1 1 + R 2 1 * R 2 1 = 1 := by
  simpa using h.o 1 1
theorem IsRot.r11 (h : IsRot R) : R 1 0 * R 1 0 + R 1 1 * R 1 1 + R 1 2 * R 1 2 = 1 := by
  simpa using h.r 1 1
theorem IsRot.o12 (h : IsRot R) : R 0 1 * R 0 2 + R 1 1 * R 1 2 + R 2 1 * R 2 2 = 0 := by
  simpa using h.o 1 2
theorem IsRot.r12 (h : IsRot R) : R 1 0 * R 2 0 + R 1 1 * R 2 1 + R 1 2 * R 2 2 = 0 := by
  simpa using h.r 1 2
theorem IsRot.o22 (h : IsRot R) : R 0 2 * R 0 2 + R 1 2 * R 1 2 + R 2 2 * R 2 2 = 1 := by
  simpa using h.o 2 2
theorem IsRot.r22 (h : IsRot R) : R 2 0 * R 2 0 + R 2 1 * R 2 1 + R 2 2 * R 2 2 = 1 := by
  simpa using h.r 2 2
theorem IsRot.a00 (h : IsRot R) : R 1 1 * R 2 2 - R 1 2 * R 2 1 = R 0 0 := by
  have := h.a' 0 0
  rw [adjugate_fin_three] at this
  simp at this
  linear_combination this
theorem IsRot.a01 (h : IsRot R) : R 1 2 * R 2 0 - R 1 0 * R 2 2 = R 0 1 := by
  have := h.a' 1 0
  rw [adjugate_fin_three] at this
  simp at this
  linear_combination this
theorem IsRot.a02 (h : IsRot R) : R 1 0 * R 2 1 - R 1 1 * R 2 0 = R 0 2 := by
  have := h.a' 2 0
  rw [adjugate_fin_three] at this
  simp at this
  linear_combination this
theorem IsRot.a10 (h : IsRot R) : R 2 1 * R 0 2 - R 2 2 * R 0 1 = R 1 0 := by
  have := h.a' 0 1
  rw [adjugate_fin_three] at this
  simp at this
  linear_combination this
theorem IsRot.a11 (h : IsRot R) : R 2 2 * R 0 0 - R 2 0 * R 0 2 = R 1 1 := by
  have := h.a' 1 1
  rw [adjugate_fin_three] at this
  simp at this
  linear_combination this
theorem IsRot.a12 (h : IsRot R) : R 2 0 * R 0 1 - R 2 1 * R 0 0 = R 1 2 := by
  have := h.a' 2 1
  rw [adjugate_fin_three] at this
  simp at this
  linear_combination this
theorem IsRot.a20 (h : IsRot R) : R 0 1 * R 1 2 - R 0 2 * R 1 1 = R 2 0 := by
  have := h.a' 0 2
  rw [adjugate_fin_three] at this
  simp at this
  linear_combination this
theorem IsRot.a21 (h : IsRot R) : R 0 2 * R 1 0 - R 0 0 * R 1 2 = R 2 1 := by
  have := h.a' 1 2
  rw [adjugate_fin_three] at this
  simp at this
  linear_combination this
theorem IsRot.a22 (h : IsRot R) : R 0 0 * R 1 1 - R 0 1 * R 1 0 = R 2 2 := by
  have := h.a' 2 2
  rw [adjugate_fin_three] at this
  simp at this
  linear_combination this
end entries

theorem IsRot.K0_11 (h : IsRot R) : (R 2 1 - R 1 2) * (R 2 1 - R 1 2) = (1 + R 0 0 + R 1 1 + R 2 2) * (1 + R 0 0 - R 1 1 - R 2 2) := by
  linear_combination (1) * h.o11 + (1) * h.o22 + (-1) * h.r00 + (2) * h.a00
theorem IsRot.K0_12 (h : IsRot R) : (R 2 1 - R 1 2) * (R 0 2 - R 2 0) = (1 + R 0 0 + R 1 1 + R 2 2) * (R 1 0 + R 0 1) := by
  linear_combination (-1) * h.o01 + (-1) * h.r01 + (1) * h.a01 + (1) * h.a10
theorem IsRot.K0_13 (h : IsRot R) : (R 2 1 - R 1 2) * (R 1 0 - R 0 1) = (1 + R 0 0 + R 1 1 + R 2 2) * (R 2 0 + R 0 2) := by
  linear_combination (-1) * h.o02 + (-1) * h.r02 + (1) * h.a02 + (1) * h.a20
theorem IsRot.K0_22 (h : IsRot R) : (R 0 2 - R 2 0) * (R 0 2 - R 2 0) = (1 + R 0 0 + R 1 1 + R 2 2) * (1 - R 0 0 + R 1 1 - R 2 2) := by
  linear_combination (1) * h.o00 + (1) * h.o22 + (-1) * h.r11 + (2) * h.a11
theorem IsRot.K0_23 (h : IsRot R) : (R 0 2 - R 2 0) * (R 1 0 - R 0 1) = (1 + R 0 0 + R 1 1 + R 2 2) * (R 2 1 + R 1 2) := by
  linear_combination (-1) * h.o12 + (-1) * h.r12 + (1) * h.a12 + (1) * h.a21
theorem IsRot.K0_33 (h : IsRot R) : (R 1 0 - R 0 1) * (R 1 0 - R 0 1) = (1 + R 0 0 + R 1 1 + R 2 2) * (1 - R 0 0 - R 1 1 + R 2 2) := by
  linear_combination (-1) * h.o22 + (1) * h.r00 + (1) * h.r11 + (2) * h.a22
theorem IsRot.K1_00 (h : IsRot R) : (R 2 1 - R 1 2) * (R 2 1 - R 1 2) = (1 + R 0 0 - R 1 1 - R 2 2) * (1 + R 0 0 + R 1 1 + R 2 2) := by
  linear_combination (1) * h.o11 + (1) * h.o22 + (-1) * h.r00 + (2) * h.a00
theorem IsRot.K1_02 (h : IsRot R) : (R 2 1 - R 1 2) * (R 1 0 + R 0 1) = (1 + R 0 0 - R 1 1 - R 2 2) * (R 0 2 - R 2 0) := by
  linear_combination (-1) * h.o02 + (1) * h.r02 + (1) * h.a02 + (-1) * h.a20
theorem IsRot.K1_03 (h : IsRot R) : (R 2 1 - R 1 2) * (R 2 0 + R 0 2) = (1 + R 0 0 - R 1 1 - R 2 2) * (R 1 0 - R 0 1) := by
  linear_combination (1) * h.o01 + (-1) * h.r01 + (-1) * h.a01 + (1) * h.a10
theorem IsRot.K1_22 (h : IsRot R) : (R 1 0 + R 0 1) * (R 1 0 + R 0 1) = (1 + R 0 0 - R 1 1 - R 2 2) * (1 - R 0 0 + R 1 1 - R 2 2) := by
  linear_combination (-1) * h.o22 + (1) * h.r00 + (1) * h.r11 + (-2) * h.a22
theorem IsRot.K1_23 (h : IsRot R) : (R 1 0 + R 0 1) * (R 2 0 + R 0 2) = (1 + R 0 0 - R 1 1 - R 2 2) * (R 2 1 + R 1 2) := by
  linear_combination (1) * h.o12 + (1) * h.r12 + (1) * h.a12 + (1) * h.a21
theorem IsRot.K1_33 (h : IsRot R) : (R 2 0 + R 0 2) * (R 2 0 + R 0 2) = (1 + R 0 0 - R 1 1 - R 2 2) * (1 - R 0 0 - R 1 1 + R 2 2) := by
  linear_combination (1) * h.o00 + (1) * h.o22 + (-1) * h.r11 + (-2) * h.a11
theorem IsRot.K2_00 (h : IsRot R) : (R 0 2 - R 2 0) * (R 0 2 - R 2 0) = (1 - R 0 0 + R 1 1 - R 2 2) * (1 + R 0 0 + R 1 1 + R 2 2) := by
  linear_combination (1) * h.o00 + (1) * h.o22 + (-1) * h.r11 + (2) * h.a11
theorem IsRot.K2_01 (h : IsRot R) : (R 0 2 - R 2 0) * (R 1 0 + R 0 1) = (1 - R 0 0 + R 1 1 - R 2 2) * (R 2 1 - R 1 2) := by
  linear_combination (1) * h.o12 + (-1) * h.r12 + (-1) * h.a12 + (1) * h.a21
theorem IsRot.K2_03 (h : IsRot R) : (R 0 2 - R 2 0) * (R 2 1 + R 1 2) = (1 - R 0 0 + R 1 1 - R 2 2) * (R 1 0 - R 0 1) := by
  linear_combination (-1) * h.o01 + (1) * h.r01 + (-1) * h.a01 + (1) * h.a10
theorem IsRot.K2_11 (h : IsRot R) : (R 1 0 + R 0 1) * (R 1 0 + R 0 1) = (1 - R 0 0 + R 1 1 - R 2 2) * (1 + R 0 0 - R 1 1 - R 2 2) := by
  linear_combination (-1) * h.o22 + (1) * h.r00 + (1) * h.r11 + (-2) * h.a22
theorem IsRot.K2_13 (h : IsRot R) : (R 1 0 + R 0 1) * (R 2 1 + R 1 2) = (1 - R 0 0 + R 1 1 - R 2 2) * (R 2 0 + R 0 2) := by
  linear_combination (1) * h.o02 + (1) * h.r02 + (1) * h.a02 + (1) * h.a20
theorem IsRot.K2_33 (h : IsRot R) : (R 2 1 + R 1 2) * (R 2 1 + R 1 2) = (1 - R 0 0 + R 1 1 - R 2 2) * (1 - R 0 0 - R 1 1 + R 2 2) := by
  linear_combination (1) * h.o11 + (1) * h.o22 + (-1) * h.r00 + (-2) * h.a00
theorem IsRot.K3_00 (h : IsRot R) : (R 1 0 - R 0 1) * (R 1 0 - R 0 1) = (1 - R 0 0 - R 1 1 + R 2 2) * (1 + R 0 0 + R 1 1 + R 2 2) := by
  linear_combination (-1) * h.o22 + (1) * h.r00 + (1) * h.r11 + (2) * h.a22
theorem IsRot.K3_01 (h : IsRot R) : (R 1 0 - R 0 1) * (R 2 0 + R 0 2) = (1 - R 0 0 - R 1 1 + R 2 2) * (R 2 1 - R 1 2) := by
  linear_combination (-1) * h.o12 + (1) * h.r12 + (-1) * h.a12 + (1) * h.a21
theorem IsRot.K3_02 (h : IsRot R) : (R 1 0 - R 0 1) * (R 2 1 + R 1 2) = (1 - R 0 0 - R 1 1 + R 2 2) * (R 0 2 - R 2 0) := by
  linear_combination (1) * h.o02 + (-1) * h.r02 + (1) * h.a02 + (-1) * h.a20
theorem IsRot.K3_11 (h : IsRot R) : (R 2 0 + R 0 2) * (R 2 0 + R 0 2) = (1 - R 0 0 - R 1 1 + R 2 2) * (1 + R 0 0 - R 1 1 - R 2 2) := by
  linear_combination (1) * h.o00 + (1) * h.o22 + (-1) * h.r11 + (-2) * h.a11
theorem IsRot.K3_12 (h : IsRot R) : (R 2 0 + R 0 2) * (R 2 1 + R 1 2) = (1 - R 0 0 - R 1 1 + R 2 2) * (R 1 0 + R 0 1) := by
  linear_combination (1) * h.o01 + (1) * h.r01 + (1) * h.a01 + (1) * h.a10
theorem IsRot.K3_22 (h : IsRot R) : (R 2 1 + R 1 2) * (R 2 1 + R 1 2) = (1 - R 0 0 - R 1 1 + R 2 2) * (1 - R 0 0 + R 1 1 - R 2 2) := by
  linear_combination (1) * h.o11 + (1) * h.o22 + (-1) * h.r00 + (-2) * h.a00

namespace Quat

theorem one_def : (1 : Quat) = ⟨1, 0, 0, 0⟩ := rfl
theorem mul_def (a b : Quat) : a * b = mul a b := rfl
@[simp] theorem mul_w (a b : Quat) : (a * b).w = a.w * b.w - a.x * b.x - a.y * b.y - a.z * b.z := rfl
@[simp] theorem mul_x (a b : Quat) : (a * b).x = a.w * b.x + a.x * b.w + a.y * b.z - a.z * b.y := rfl
@[simp] theorem mul_y (a b : Quat) : (a * b).y = a.w * b.y + a.y * b.w + a.z * b.x - a.x * b.z := rfl
@[simp] theorem mul_z (a b : Quat) : (a * b).z = a.w * b.z + a.z * b.w + a.x * b.y - a.y * b.x := rfl
@[simp] theorem one_w : (1 : Quat).w = 1 := rfl
@[simp] theorem one_x : (1 : Quat).x = 0 := rfl
@[simp] theorem one_y : (1 : Quat).y = 0 := rfl
@[simp] theorem one_z : (1 : Quat).z = 0 := rfl

theorem mul_assoc (a b c : Quat) : a * b * c = a * (b * c) := by
  ext <;> simp <;> ring
theorem one_mul (a : Quat) : 1 * a = a := by ext <;> simp
theorem mul_one (a : Quat) : a * 1 = a := by ext <;> simp

theorem normSq_mul (a b : Quat) : (a * b).normSq = a.normSq * b.normSq := by
  simp [normSq]; ring
theorem normSq_one : (1 : Quat).normSq = 1 := by simp [normSq]
theorem normSq_conj (a : Quat) : a.conj.normSq = a.normSq := by simp [normSq, conj]
theorem normSq_nonneg (a : Quat) : 0 ≤ a.normSq := by
  unfold normSq; nlinarith [sq_nonneg a.x, sq_nonneg a.y, sq_nonneg a.z, sq_nonneg a.w]
theorem normSq_scale (c : ℝ) (a : Quat) : (scale c a).normSq = c ^ 2 * a.normSq := by simp [normSq, scale]; ring

theorem conj_mul_self {a : Quat} (h : a.normSq = 1) : a.conj * a = 1 := by
  simp [normSq] at h
  ext <;> simp [conj] <;> linarith
theorem mul_conj_self {a : Quat} (h : a.normSq = 1) : a * a.conj = 1 := by
  simp [normSq] at h
  ext <;> simp [conj] <;> linarith

theorem inverse_unit {a : Quat} (h : a.normSq = 1) : a.inverse = a.conj := by
  simp [inverse, h, scale]

theorem toMat_one : toMat 1 = 1 := by
  apply mext3; intro i j; fin_cases i <;> fin_cases j <;> simp [toMat]

theorem toMat_neg (q : Quat) : toMat (scale (-1) q) = toMat q := by
  simp [toMat, scale]

/-- The homogeneous form of the matrix of a unit quaternion. -/
theorem toMat_hom {q : Quat} (h : q.normSq = 1) : toMat q =
    !![q.w * q.w + q.x * q.x - q.y * q.y - q.z * q.z, 2 * (q.x * q.y - q.w * q.z), 2 * (q.x * q.z + q.w * q.y);
       2 * (q.x * q.y + q.w * q.z), q.w * q.w - q.x * q.x + q.y * q.y - q.z * q.z, 2 * (q.y * q.z - q.w * q.x);
       2 * (q.x * q.z - q.w * q.y), 2 * (q.y * q.z + q.w * q.x), q.w * q.w - q.x * q.x - q.y * q.y + q.z * q.z] := by
  simp only [normSq] at h
  apply mext3; intro i j; fin_cases i <;> fin_cases j <;> simp [toMat]
  all_goals first
    | ring1
    | linear_combination -h

theorem toMat_mul {a b : Quat} (ha : a.normSq = 1) (hb : b.normSq = 1) : toMat (a * b) = toMat a * toMat b := by
  rw [toMat_hom ha, toMat_hom hb, toMat_hom (by rw [normSq_mul, ha, hb, _root_.mul_one])]
  apply mext3; intro i j; rw [mul3]
  fin_cases i <;> fin_cases j <;> simp <;> ring

theorem toMat_conj (a : Quat) : toMat a.conj = (toMat a)ᵀ := by
  apply mext3; intro i j; fin_cases i <;> fin_cases j <;> simp [toMat, conj]; all_goals ring

theorem toMat_isRot {a : Quat} (h : a.normSq = 1) : IsRot (toMat a) := by
  constructor
  · rw [← toMat_conj, ← toMat_mul ((normSq_conj a).trans h) h, conj_mul_self h, toMat_one]
  · rw [toMat_hom h, det_fin_three]
    have : a.normSq ^ 3 = 1 := by rw [h]; norm_num
    simp only [normSq] at this
    simp
    linear_combination this

/-- A quaternion whose products of coefficients are given by the matrix represents it. -/
theorem toMat_eq_of {q : Quat} {R : M3}
    (hww : q.w * q.w = (1 + R 0 0 + R 1 1 + R 2 2) / 4) (hxx : q.x * q.x = (1 + R 0 0 - R 1 1 - R 2 2) / 4)
    (hyy : q.y * q.y = (1 - R 0 0 + R 1 1 - R 2 2) / 4) (hzz : q.z * q.z = (1 - R 0 0 - R 1 1 + R 2 2) / 4)
    (hwx : q.w * q.x = (R 2 1 - R 1 2) / 4) (hwy : q.w * q.y = (R 0 2 - R 2 0) / 4) (hwz : q.w * q.z = (R 1 0 - R 0 1) / 4)
    (hxy : q.x * q.y = (R 1 0 + R 0 1) / 4) (hxz : q.x * q.z = (R 2 0 + R 0 2) / 4) (hyz : q.y * q.z = (R 2 1 + R 1 2) / 4) :
    q.normSq = 1 ∧ toMat q = R := by
  constructor
  · simp [normSq]; linarith
  · apply mext3; intro i j; fin_cases i <;> fin_cases j <;> simp [toMat] <;> linarith

theorem ofMat_spec {R : M3} (h : IsRot R) : (ofMat R).normSq = 1 ∧ toMat (ofMat R) = R := by
  have key : ∀ (s k a b c : ℝ), 0 < k → s = Real.sqrt k →
      (1 / 2 * s) * (1 / 2 * s) = k / 4 ∧ (1 / 2 * s) * (a * (1 / 2 / s)) = a / 4 ∧
      ((a * b = k * c) → (a * (1 / 2 / s)) * (b * (1 / 2 / s)) = c / 4) := by
    intro s k a b c hk hs
    have hs2 : s * s = k := by rw [hs]; exact Real.mul_self_sqrt hk.le
    have hs0 : s ≠ 0 := by rintro rfl; simp at hs2; linarith
    refine ⟨by linear_combination hs2 / 4, by field_simp; ring, fun e => ?_⟩
    field_simp
    linear_combination 4 * e - 4 * c * hs2
  by_cases ht : R 0 0 + R 1 1 + R 2 2 > 0
  · have hk : 0 < 1 + R 0 0 + R 1 1 + R 2 2 := by linarith
    rw [ofMat, if_pos ht]
    have hs : Real.sqrt (R 0 0 + R 1 1 + R 2 2 + 1) = Real.sqrt (1 + R 0 0 + R 1 1 + R 2 2) := by congr 1; ring
    generalize Real.sqrt (R 0 0 + R 1 1 + R 2 2 + 1) = s at hs
    refine toMat_eq_of ?_ ?_ ?_ ?_ ?_ ?_ ?_ ?_ ?_ ?_ <;> dsimp only
    · exact (key s _ 0 0 0 hk hs).1
    · exact (key s _ _ _ _ hk hs).2.2 h.K0_11
    · exact (key s _ _ _ _ hk hs).2.2 h.K0_22
    · exact (key s _ _ _ _ hk hs).2.2 h.K0_33
    · exact (key s _ _ 0 0 hk hs).2.1
    · exact (key s _ _ 0 0 hk hs).2.1
    · exact (key s _ _ 0 0 hk hs).2.1
    · exact (key s _ _ _ _ hk hs).2.2 h.K0_12
    · exact (key s _ _ _ _ hk hs).2.2 h.K0_13
    · exact (key s _ _ _ _ hk hs).2.2 h.K0_23
  · rw [ofMat, if_neg ht]
    have main0 (hk : 0 < 1 + R 0 0 - R 1 1 - R 2 2) : ∀ s, s = Real.sqrt (R 0 0 - R 1 1 - R 2 2 + 1) →
        Quat.normSq ⟨(R 2 1 - R 1 2) * (1 / 2 / s), 1 / 2 * s, (R 1 0 + R 0 1) * (1 / 2 / s), (R 2 0 + R 0 2) * (1 / 2 / s)⟩ = 1 ∧
        toMat ⟨(R 2 1 - R 1 2) * (1 / 2 / s), 1 / 2 * s, (R 1 0 + R 0 1) * (1 / 2 / s), (R 2 0 + R 0 2) * (1 / 2 / s)⟩ = R := by
      intro s hs
      rw [show R 0 0 - R 1 1 - R 2 2 + 1 = 1 + R 0 0 - R 1 1 - R 2 2 by ring] at hs
      refine toMat_eq_of ?_ ?_ ?_ ?_ ?_ ?_ ?_ ?_ ?_ ?_ <;> dsimp only
      · exact (key s _ _ _ _ hk hs).2.2 h.K1_00
      · exact (key s _ 0 0 0 hk hs).1
      · exact (key s _ _ _ _ hk hs).2.2 h.K1_22
      · exact (key s _ _ _ _ hk hs).2.2 h.K1_33
      · rw [mul_comm]; exact (key s _ _ 0 0 hk hs).2.1
      · exact (key s _ _ _ _ hk hs).2.2 h.K1_02
      · exact (key s _ _ _ _ hk hs).2.2 h.K1_03
      · exact (key s _ _ 0 0 hk hs).2.1
      · exact (key s _ _ 0 0 hk hs).2.1
      · exact (key s _ _ _ _ hk hs).2.2 h.K1_23
    have main1 (hk : 0 < 1 - R 0 0 + R 1 1 - R 2 2) : ∀ s, s = Real.sqrt (R 1 1 - R 2 2 - R 0 0 + 1) →
        Quat.normSq ⟨(R 0 2 - R 2 0) * (1 / 2 / s), (R 0 1 + R 1 0) * (1 / 2 / s), 1 / 2 * s, (R 2 1 + R 1 2) * (1 / 2 / s)⟩ = 1 ∧
        toMat ⟨(R 0 2 - R 2 0) * (1 / 2 / s), (R 0 1 + R 1 0) * (1 / 2 / s), 1 / 2 * s, (R 2 1 + R 1 2) * (1 / 2 / s)⟩ = R := by
      intro s hs
      rw [show R 1 1 - R 2 2 - R 0 0 + 1 = 1 - R 0 0 + R 1 1 - R 2 2 by ring] at hs
      rw [add_comm (R 0 1)]
      refine toMat_eq_of ?_ ?_ ?_ ?_ ?_ ?_ ?_ ?_ ?_ ?_ <;> dsimp only
      · exact (key s _ _ _ _ hk hs).2.2 h.K2_00
      · exact (key s _ _ _ _ hk hs).2.2 h.K2_11
      · exact (key s _ 0 0 0 hk hs).1
      · exact (key s _ _ _ _ hk hs).2.2 h.K2_33
      · exact (key s _ _ _ _ hk hs).2.2 h.K2_01
      · rw [mul_comm]; exact (key s _ _ 0 0 hk hs).2.1
      · exact (key s _ _ _ _ hk hs).2.2 h.K2_03
      · rw [mul_comm]; exact (key s _ _ 0 0 hk hs).2.1
      · exact (key s _ _ _ _ hk hs).2.2 h.K2_13
      · exact (key s _ _ 0 0 hk hs).2.1
    have main2 (hk : 0 < 1 - R 0 0 - R 1 1 + R 2 2) : ∀ s, s = Real.sqrt (R 2 2 - R 0 0 - R 1 1 + 1) →
        Quat.normSq ⟨(R 1 0 - R 0 1) * (1 / 2 / s), (R 0 2 + R 2 0) * (1 / 2 / s), (R 1 2 + R 2 1) * (1 / 2 / s), 1 / 2 * s⟩ = 1 ∧
        toMat ⟨(R 1 0 - R 0 1) * (1 / 2 / s), (R 0 2 + R 2 0) * (1 / 2 / s), (R 1 2 + R 2 1) * (1 / 2 / s), 1 / 2 * s⟩ = R := by
      intro s hs
      rw [show R 2 2 - R 0 0 - R 1 1 + 1 = 1 - R 0 0 - R 1 1 + R 2 2 by ring] at hs
      rw [add_comm (R 0 2), add_comm (R 1 2)]
      refine toMat_eq_of ?_ ?_ ?_ ?_ ?_ ?_ ?_ ?_ ?_ ?_ <;> dsimp only
      · exact (key s _ _ _ _ hk hs).2.2 h.K3_00
      · exact (key s _ _ _ _ hk hs).2.2 h.K3_11
      · exact (key s _ _ _ _ hk hs).2.2 h.K3_22
      · exact (key s _ 0 0 0 hk hs).1
      · exact (key s _ _ _ _ hk hs).2.2 h.K3_01
      · exact (key s _ _ _ _ hk hs).2.2 h.K3_02
      · rw [mul_comm]; exact (key s _ _ 0 0 hk hs).2.1
      · exact (key s _ _ _ _ hk hs).2.2 h.K3_12
      · rw [mul_comm]; exact (key s _ _ 0 0 hk hs).2.1
      · rw [mul_comm]; exact (key s _ _ 0 0 hk hs).2.1
    by_cases h10 : R 1 1 > R 0 0
    · rw [if_pos h10]
      by_cases h21 : R 2 2 > R 1 1
      · dsimp only; rw [if_pos h21]
        exact main2 (by linarith) _ rfl
      · dsimp only; rw [if_neg h21]
        exact main1 (by linarith) _ rfl
    · rw [if_neg h10]
      by_cases h20 : R 2 2 > R 0 0
      · dsimp only; rw [if_pos h20]
        exact main2 (by linarith) _ rfl
      · dsimp only; rw [if_neg h20]
        exact main0 (by linarith) _ rfl

end Quat
end StateObs.Rot
