import Verif.Offline.AttSpec
import Verif.Flex.Functor
/-! # The functor of the offline attitude estimation against its specification -/

namespace StateObs.Offline
open StateObs KF Flex Imu Rot Kine Matrix Sensor

theorem imuNext_spec (dt : ℝ) (x : Fin 18 → ℝ) (u : Fin 6 → ℝ) :
    ImuNext dt x u (nextState .imu dt (rotationVectorToQuaternion (seg 3 x iOri)) x u) := by
  have hu : ((rotationVectorToQuaternion (dt • seg 3 x 9 + (0.5 * dt * dt) • seg 3 x 15)) * rotationVectorToQuaternion (seg 3 x 3)).normSq = 1 := by
    rw [Quat.normSq_mul, rvq_unit, rvq_unit, one_mul]
  have e : (0.5 * dt * dt : ℝ) = dt ^ 2 / 2 := by ring
  obtain ⟨l1, l2⟩ := C35_log _ hu
  have ho : seg 3 (nextState .imu dt (rotationVectorToQuaternion (seg 3 x iOri)) x u) 3 =
      quaternionToRotationVector (rotationVectorToQuaternion (dt • seg 3 x 9 + (0.5 * dt * dt) • seg 3 x 15) * rotationVectorToQuaternion (seg 3 x 3)) := by
    simp only [nextState]
    rw [seg_setSeg_ne _ _ _ _ (by decide), seg_setSeg_same _ _ _ (by decide)]
    rfl
  refine ⟨?_, ?_, ?_, ?_, ?_, ?_, ?_⟩
  · simp only [nextState]
    rw [seg_setSeg_ne _ _ _ _ (by decide), seg_setSeg_ne _ _ _ _ (by decide), seg_setSeg_ne _ _ _ _ (by decide), seg_setSeg_same _ _ _ (by decide), ← e]
    exact (add_assoc _ _ _).symm
  · rw [ho, l1, Quat.toMat_mul (rvq_unit _) (rvq_unit _), rvq_toMat, rvq_toMat, turn_eq, turn_eq, e]
  · rw [ho]; exact l2
  · simp only [nextState]
    rw [seg_setSeg_ne _ _ _ _ (by decide), seg_setSeg_ne _ _ _ _ (by decide), seg_setSeg_same _ _ _ (by decide)]
    rfl
  · simp only [nextState]
    rw [seg_setSeg_same _ _ _ (by decide)]
    rfl
  · simp only [nextState]
    rw [seg_setSeg_ne _ _ _ _ (by decide), seg_setSeg_ne _ _ _ _ (by decide), seg_setSeg_ne _ _ _ _ (by decide), seg_setSeg_ne _ _ _ _ (by decide),
      seg_setSeg_ne _ _ _ _ (by decide), seg_setSeg_same _ _ _ (by decide)]
    rfl
  · simp only [nextState]
    rw [seg_setSeg_ne _ _ _ _ (by decide), seg_setSeg_ne _ _ _ _ (by decide), seg_setSeg_ne _ _ _ _ (by decide), seg_setSeg_ne _ _ _ _ (by decide),
      seg_setSeg_same _ _ _ (by decide)]
    rfl

/-- The numbers returned by the measurement. -/
noncomputable def imuList (x : Fin 18 → ℝ) : List ℝ :=
  toL ((rotationVectorToQuaternion (seg 3 x iOri)).toMatᵀ *ᵥ (seg 3 x iLinAcc + ![0, 0, 9.8])) ++
    toL ((rotationVectorToQuaternion (seg 3 x iOri)).toMatᵀ *ᵥ seg 3 x iAngVel)

/-- The measurement. -/
noncomputable def imuReading (x : Fin 18 → ℝ) : Fin 6 → ℝ := fun i => (imuList x).get i

theorem imuReading_spec (x : Fin 18 → ℝ) : ImuReading x (imuReading x) := by
  have hR : ∀ v, turn (seg 3 x 3) *ᵥ ((rotationVectorToQuaternion (seg 3 x 3)).toMatᵀ *ᵥ v) = v := by
    intro v
    rw [turn_eq, rvq_toMat, mulVec_mulVec, (rv_isRot _).orth', one_mulVec]
  have e1 : seg 3 (imuReading x) 0 = (rotationVectorToQuaternion (seg 3 x 3)).toMatᵀ *ᵥ (seg 3 x 12 + ![0, 0, 9.8]) := by
    funext i; fin_cases i <;> rfl
  have e2 : seg 3 (imuReading x) 3 = (rotationVectorToQuaternion (seg 3 x 3)).toMatᵀ *ᵥ seg 3 x 9 := by
    funext i; fin_cases i <;> rfl
  exact ⟨by rw [e1, hR], by rw [e2, hR]⟩

theorem imuFunctor_state (dt : ℝ) (x : Fin 18 → ℝ) (u : Fin 6 → ℝ) (k : Int) :
    (imuFunctor dt).stateDynamics ⟨18, x⟩ ⟨6, u⟩ k = .ok ⟨18, nextState .imu dt (rotationVectorToQuaternion (seg 3 x iOri)) x u⟩ := by
  simp only [imuFunctor, dif_pos, Fin.cast_eq_self]
  rw [stateDynamics_eq .imu (good_ctor (R := Unit) dt)]
  rfl

theorem imuFunctor_measure (dt : ℝ) (x : Fin 18 → ℝ) (u : DVec) (k : Int) :
    (imuFunctor dt).measureDynamics ⟨18, x⟩ u k = .ok ⟨6, imuReading x⟩ := by
  simp only [imuFunctor, dif_pos, Fin.cast_eq_self]
  have h := measureImu_seen .imu (good_ctor (R := Unit) dt) x k ()
  have e : sensed .imu (R := Unit) (Imu.ctor dt : Sys Unit).sensor.noise (sensorState (rotationVectorToQuaternion (seg 3 x iOri))
      (seg 3 x iLinAcc) (seg 3 x iAngVel)) () = .ok (imuList x, ()) := by
    show ((accGyro.compute false (stateQ _ _ _) >>= fun y => .ok (y, ())) : Res (List ℝ × Unit)) = _
    simp [accGyro, read_stateQ, toL, accelerationMeasure, rotationVelocityMeasure, gravity, imuList]
  rw [e] at h
  change ((measureImu .imu (Imu.ctor dt : Sys Unit) x k ()) >>= fun p => .ok (ofList p.1)) = _
  unfold seen at h
  cases hm : measureImu .imu (Imu.ctor dt : Sys Unit) x k () with
  | ok a =>
    rw [hm] at h
    obtain ⟨y, s, r⟩ := a
    simp only [Res.ok_bind, Res.ok.injEq, Prod.mk.injEq] at h
    rw [Res.ok_bind, h.1]
    rfl
  | assertFail => rw [hm] at h; simp at h
  | ub => rw [hm] at h; simp at h
  | exn => rw [hm] at h; simp at h

end StateObs.Offline
