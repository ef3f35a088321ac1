import Verif.Imu.MltpProps
/-! # Property C60 for the multiplicative IMU system: the difference added to the second state gives the first -/

namespace StateObs.Mltp
open StateObs Imu Rot Kine

theorem rvq_below {v : V3} (h : nrm v ≤ 1e-16) : rotationVectorToQuaternion v = 1 := by
  have h' : nrm v ≤ epsilonAngle := h
  rw [rotationVectorToQuaternion, aa_below h']
  show Quat.ofAngleAxis ⟨0, ez⟩ = Quat.one
  simp [Quat.ofAngleAxis, Quat.one]

theorem diff_pos (x y : Fin 19 → ℝ) : seg 3 (stateDifference x y) iPos = seg 3 x qPos - seg 3 y qPos := by
  simp only [stateDifference]
  repeat rw [seg_setSeg_ne _ _ _ _ (by decide)]
  rw [seg_setSeg_same _ _ _ (by decide)]

theorem diff_ori (x y : Fin 19 → ℝ) :
    seg 3 (stateDifference x y) iOri = quaternionToRotationVector (quatOf (seg 4 x qOri) * (quatOf (seg 4 y qOri)).conj) := by
  simp only [stateDifference]
  repeat rw [seg_setSeg_ne _ _ _ _ (by decide)]
  rw [seg_setSeg_same _ _ _ (by decide)]

theorem diff_linVel (x y : Fin 19 → ℝ) : seg 3 (stateDifference x y) iLinVel = seg 3 x qLinVel - seg 3 y qLinVel := by
  simp only [stateDifference]
  repeat rw [seg_setSeg_ne _ _ _ _ (by decide)]
  rw [seg_setSeg_same _ _ _ (by decide)]

theorem diff_angVel (x y : Fin 19 → ℝ) : seg 3 (stateDifference x y) iAngVel = seg 3 x qAngVel - seg 3 y qAngVel := by
  simp only [stateDifference]
  repeat rw [seg_setSeg_ne _ _ _ _ (by decide)]
  rw [seg_setSeg_same _ _ _ (by decide)]

theorem diff_linAcc (x y : Fin 19 → ℝ) : seg 3 (stateDifference x y) iLinAcc = seg 3 x qLinAcc - seg 3 y qLinAcc := by
  simp only [stateDifference]
  repeat rw [seg_setSeg_ne _ _ _ _ (by decide)]
  rw [seg_setSeg_same _ _ _ (by decide)]

theorem diff_angAcc (x y : Fin 19 → ℝ) : seg 3 (stateDifference x y) iAngAcc = seg 3 x qAngAcc - seg 3 y qAngAcc := by
  simp only [stateDifference]
  rw [seg_setSeg_same _ _ _ (by decide)]

/-- **C60** Taking the difference then adding it gives the state back: the vectors are equal, and so is the rotation unless the two orientations are closer
than 1e-16 (without being equal). -/
theorem C60_imu_back (x y : Fin 19 → ℝ) (hx : Unit4 x) (hy : Unit4 y) :
    let s := stateSum y (stateDifference x y)
    (seg 3 s qPos = seg 3 x qPos ∧ seg 3 s qLinVel = seg 3 x qLinVel ∧ seg 3 s qAngVel = seg 3 x qAngVel ∧ seg 3 s qLinAcc = seg 3 x qLinAcc ∧
      seg 3 s qAngAcc = seg 3 x qAngAcc) ∧
    (1e-16 < nrm (seg 3 (stateDifference x y) iOri) ∨ (quatOf (seg 4 x qOri)).toMat = (quatOf (seg 4 y qOri)).toMat →
      (quatOf (seg 4 s qOri)).toMat = (quatOf (seg 4 x qOri)).toMat) := by
  intro s
  refine ⟨⟨?_, ?_, ?_, ?_, ?_⟩, ?_⟩
  · rw [sum_pos, diff_pos, add_sub_cancel]
  · rw [sum_linVel, diff_linVel, add_sub_cancel]
  · rw [sum_angVel, diff_angVel, add_sub_cancel]
  · rw [sum_linAcc, diff_linAcc, add_sub_cancel]
  · rw [sum_angAcc, diff_angAcc, add_sub_cancel]
  · have hq : (quatOf (seg 4 x qOri) * (quatOf (seg 4 y qOri)).conj).normSq = 1 := by
      rw [Quat.normSq_mul, Quat.normSq_conj, hx, hy, one_mul]
    have hb : quatOf (seg 4 x qOri) * (quatOf (seg 4 y qOri)).conj * quatOf (seg 4 y qOri) = quatOf (seg 4 x qOri) := by
      rw [Quat.mul_assoc, Quat.conj_mul_self hy, Quat.mul_one]
    have e : quatOf (seg 4 s qOri) = rotationVectorToQuaternion (quaternionToRotationVector (quatOf (seg 4 x qOri) * (quatOf (seg 4 y qOri)).conj)) *
        quatOf (seg 4 y qOri) := by rw [sum_ori, quatOf_coeffs, diff_ori]
    have big : 1e-16 < nrm (seg 3 (stateDifference x y) iOri) → (quatOf (seg 4 s qOri)).toMat = (quatOf (seg 4 x qOri)).toMat := by
      intro h
      rw [diff_ori] at h
      have h35 := (C35_quaternion _ hq h).1
      rw [e, h35]
      split_ifs
      · rw [Quat.toMat_mul (by rw [Quat.normSq_scale, hq]; norm_num) hy, Quat.toMat_neg, ← Quat.toMat_mul hq hy, hb]
      · rw [hb]
    rintro (h | h)
    · exact big h
    · by_cases h' : 1e-16 < nrm (seg 3 (stateDifference x y) iOri)
      · exact big h'
      · rw [diff_ori] at h'
        rw [e, rvq_below (not_lt.1 h'), Quat.one_mul, h]

/-- Non-vacuity: two states whose orientations are a half turn apart. -/
example : ∃ x y : Fin 19 → ℝ, Unit4 x ∧ Unit4 y ∧ (quatOf (seg 4 x qOri)).toMat ≠ (quatOf (seg 4 y qOri)).toMat := by
  refine ⟨fun i => if i.val = 6 then 1 else 0, fun i => if i.val = 5 then 1 else 0, ?_, ?_, fun h => ?_⟩
  · simp [Unit4, quatOf, Quat.normSq, seg, qOri]
  · simp [Unit4, quatOf, Quat.normSq, seg, qOri]
  · have := congrFun (congrFun h 0) 0
    simp [quatOf, Quat.toMat, seg, qOri] at this
    norm_num at this

end StateObs.Mltp
