import Verif.Flex.Spec
import Verif.Flex.Lemmas
import Verif.Imu.CacheProps
import Verif.Rot.Props
import Verif.Rot.MotionProps
/-! # The functor of the estimator against its specification -/

namespace StateObs.Flex
open StateObs KF Imu Rot Kine Matrix Sensor

theorem turn_eq (v : V3) : turn v = rotationVectorToRotationMatrix v := (C34_exp v).symm

theorem next_spec (dt : ℝ) (x : Fin 18 → ℝ) : Next dt x (nextState .fixed dt (rotationVectorToQuaternion (seg 3 x iOri)) x 0) := by
  have hu : ((rotationVectorToQuaternion (dt • seg 3 x 9 + (0.5 * dt * dt) • seg 3 x 15)) * rotationVectorToQuaternion (seg 3 x 3)).normSq = 1 := by
    rw [Quat.normSq_mul, rvq_unit, rvq_unit, one_mul]
  have e : (0.5 * dt * dt : ℝ) = dt ^ 2 / 2 := by ring
  obtain ⟨l1, l2⟩ := C35_log _ hu
  have ho : seg 3 (nextState .fixed dt (rotationVectorToQuaternion (seg 3 x iOri)) x 0) 3 =
      quaternionToRotationVector (rotationVectorToQuaternion (dt • seg 3 x 9 + (0.5 * dt * dt) • seg 3 x 15) * rotationVectorToQuaternion (seg 3 x 3)) := by
    simp only [nextState]
    rw [seg_setSeg_ne _ _ _ _ (by decide), seg_setSeg_same _ _ _ (by decide)]
    rfl
  refine ⟨?_, ?_, ?_, ?_, ?_, ?_, ?_⟩
  · simp only [nextState]
    rw [seg_setSeg_ne _ _ _ _ (by decide), seg_setSeg_ne _ _ _ _ (by decide), seg_setSeg_ne _ _ _ _ (by decide), seg_setSeg_same _ _ _ (by decide), ← e]
    exact (add_assoc _ _ _).symm
  · rw [ho, l1, Quat.toMat_mul (rvq_unit _) (rvq_unit _), rvq_toMat, rvq_toMat, turn_eq, turn_eq, e]
  · rw [ho]; exact l2
  · simp only [nextState]
    rw [seg_setSeg_ne _ _ _ _ (by decide), seg_setSeg_ne _ _ _ _ (by decide), seg_setSeg_same _ _ _ (by decide)]
    rfl
  · simp only [nextState]
    rw [seg_setSeg_same _ _ _ (by decide)]
    rfl
  · simp only [nextState]
    rw [seg_setSeg_ne _ _ _ _ (by decide), seg_setSeg_ne _ _ _ _ (by decide), seg_setSeg_ne _ _ _ _ (by decide), seg_setSeg_ne _ _ _ _ (by decide)]
  · simp only [nextState]
    rw [seg_setSeg_ne _ _ _ _ (by decide), seg_setSeg_ne _ _ _ _ (by decide), seg_setSeg_ne _ _ _ _ (by decide), seg_setSeg_ne _ _ _ _ (by decide)]

/-- The numbers returned by the measurement. -/
noncomputable def readingList (c : List V3) (x : Fin 18 → ℝ) (u : Fin 15 → ℝ) : List ℝ :=
  let q := rotationVectorToQuaternion (seg 3 x iOri)
  let S := (q * rotationVectorToQuaternion (seg 3 u iOri)).toMat
  toL (Sᵀ *ᵥ (fixedAcceleration q.toMat x u + ![0, 0, 9.8])) ++ toL (Sᵀ *ᵥ (seg 3 x iAngVel + q.toMat *ᵥ seg 3 u iAngVel)) ++
    contactMeasurements q.toMat (seg 3 x iPos) c

theorem contact_length (R : M3) (p : V3) (c : List V3) : (contactMeasurements R p c).length = 3 * c.length := by
  induction c with
  | nil => rfl
  | cons a c ih =>
    rw [contactMeasurements, List.flatMap_cons, List.length_append, ← contactMeasurements, ih]
    simp [toL]; omega

theorem reading_length (c : List V3) (x : Fin 18 → ℝ) (u : Fin 15 → ℝ) : (readingList c x u).length = 6 + 3 * c.length := by
  simp [readingList, contact_length, toL]; omega

theorem contact_get (R : M3) (p : V3) : ∀ (c : List V3) (i : ℕ) (h : i < c.length) (j : Fin 3),
    (contactMeasurements R p c)[3 * i + j.val]? = some ((R *ᵥ c[i] + p - c[i]) j)
  | a :: c, 0, h, j => by fin_cases j <;> rfl
  | a :: c, i + 1, h, j => by
    have h' : i < c.length := by simpa using h
    rw [contactMeasurements, List.flatMap_cons, List.getElem?_append_right (by simp [toL]; omega), ← contactMeasurements]
    rw [show 3 * (i + 1) + j.val - (toL (R *ᵥ a + p - a)).length = 3 * i + j.val by simp [toL]; omega]
    exact contact_get R p c i h' j

/-- The reading as a vector. -/
noncomputable def reading (c : List V3) (x : Fin 18 → ℝ) (u : Fin 15 → ℝ) : Fin (6 + 3 * c.length) → ℝ :=
  fun i => (readingList c x u).get (Fin.cast (reading_length c x u).symm i)

theorem reading_spec (c : List V3) (x : Fin 18 → ℝ) (u : Fin 15 → ℝ) : Reading c x u (reading c x u) := by
  have hS : (rotationVectorToQuaternion (seg 3 x iOri) * rotationVectorToQuaternion (seg 3 u iOri)).toMat = turn (seg 3 x 3) * turn (seg 3 u 3) := by
    rw [Quat.toMat_mul (rvq_unit _) (rvq_unit _), rvq_toMat, rvq_toMat, turn_eq, turn_eq]
  have hR : IsRot (turn (seg 3 x 3) * turn (seg 3 u 3)) := by
    rw [← hS]; exact Quat.toMat_isRot (by rw [Quat.normSq_mul, rvq_unit, rvq_unit, one_mul])
  have hT : (rotationVectorToQuaternion (seg 3 x iOri)).toMat = turn (seg 3 x 3) := by rw [rvq_toMat, turn_eq]
  have ha : seg 3 (reading c x u) 0 = (turn (seg 3 x 3) * turn (seg 3 u 3))ᵀ *ᵥ (fixedAcceleration (turn (seg 3 x 3)) x u + ![0, 0, 9.8]) := by
    rw [← hS, ← hT]
    funext j
    simp only [seg, reading]
    rw [dif_pos (by have := j.2; omega)]
    fin_cases j <;> rfl
  have hg : seg 3 (reading c x u) 3 = (turn (seg 3 x 3) * turn (seg 3 u 3))ᵀ *ᵥ (seg 3 x iAngVel + turn (seg 3 x 3) *ᵥ seg 3 u iAngVel) := by
    rw [← hS, ← hT]
    funext j
    simp only [seg, reading]
    rw [dif_pos (by have := j.2; omega)]
    fin_cases j <;> rfl
  refine ⟨?_, ?_, ?_⟩
  · rw [ha, hR.cancel']
    congr 1
    simp only [fixedAcceleration, pointAcceleration, Matrix.add_mulVec, ← Matrix.mulVec_mulVec, (C37_skew _ _).1]
    abel
  · rw [hg, hR.cancel']
  · intro i h
    funext j
    have hj := j.2
    simp only [seg, reading]
    rw [dif_pos (by omega), List.get_eq_getElem, ← Option.some_inj, ← List.getElem?_eq_getElem]
    simp only [Fin.val_cast]
    rw [readingList, List.getElem?_append_right (by simp [toL]; omega), ← hT, ← contact_get _ _ _ i h]
    congr 1
    simp [toL]; omega

theorem ofList_reading (c : List V3) (x : Fin 18 → ℝ) (u : Fin 15 → ℝ) : ofList (readingList c x u) = ⟨6 + 3 * c.length, reading c x u⟩ := by
  have : ∀ (l : List ℝ) (n : ℕ) (h : l.length = n), ofList l = ⟨n, fun i => l.get (Fin.cast h.symm i)⟩ := by
    intro l n h; subst h; rfl
  exact this _ _ (reading_length c x u)

theorem good_sys (dt : ℝ) (c : List V3) : Good ({ Imu.ctor dt with contacts := c } : Sys Unit) := ⟨(good_ctor (R := Unit) dt).cache, rfl, rfl⟩

theorem functor_state (dt : ℝ) (c : List V3) (x : Fin 18 → ℝ) (u : DVec) (k : Int) :
    (functor dt c).stateDynamics ⟨18, x⟩ u k = .ok ⟨18, nextState .fixed dt (rotationVectorToQuaternion (seg 3 x iOri)) x 0⟩ := by
  simp only [functor, dif_pos, Fin.cast_eq_self]
  rw [stateDynamics_eq .fixed (good_sys dt c)]
  rfl

theorem functor_measure (dt : ℝ) (c : List V3) (x : Fin 18 → ℝ) (u : Fin 15 → ℝ) (k : Int) :
    (functor dt c).measureDynamics ⟨18, x⟩ ⟨15, u⟩ k = .ok ⟨6 + 3 * c.length, reading c x u⟩ := by
  simp only [functor, dif_pos, Fin.cast_eq_self]
  have h := measureFixed_seen .fixed (good_sys dt c) x u k ()
  have e : sensed .fixed (R := Unit) ({ Imu.ctor dt with contacts := c } : Sys Unit).sensor.noise (sensorState
        (rotationVectorToQuaternion (seg 3 x iOri) * rotationVectorToQuaternion (seg 3 u iOri))
        (fixedAcceleration (rotationVectorToQuaternion (seg 3 x iOri)).toMat x u)
        (seg 3 x iAngVel + (rotationVectorToQuaternion (seg 3 x iOri)).toMat *ᵥ seg 3 u iAngVel)) () =
      .ok (toL ((rotationVectorToQuaternion (seg 3 x iOri) * rotationVectorToQuaternion (seg 3 u iOri)).toMatᵀ *ᵥ
          (fixedAcceleration (rotationVectorToQuaternion (seg 3 x iOri)).toMat x u + ![0, 0, 9.8])) ++
        toL ((rotationVectorToQuaternion (seg 3 x iOri) * rotationVectorToQuaternion (seg 3 u iOri)).toMatᵀ *ᵥ
          (seg 3 x iAngVel + (rotationVectorToQuaternion (seg 3 x iOri)).toMat *ᵥ seg 3 u iAngVel)), ()) := by
    show ((accGyro.compute false (stateQ _ _ _) >>= fun y => .ok (y, ())) : Res (List ℝ × Unit)) = _
    simp [accGyro, read_stateQ, toL, accelerationMeasure, rotationVelocityMeasure, gravity]
  rw [e] at h
  have hl : (toL ((rotationVectorToQuaternion (seg 3 x iOri) * rotationVectorToQuaternion (seg 3 u iOri)).toMatᵀ *ᵥ
          (fixedAcceleration (rotationVectorToQuaternion (seg 3 x iOri)).toMat x u + ![0, 0, 9.8])) ++
        toL ((rotationVectorToQuaternion (seg 3 x iOri) * rotationVectorToQuaternion (seg 3 u iOri)).toMatᵀ *ᵥ
          (seg 3 x iAngVel + (rotationVectorToQuaternion (seg 3 x iOri)).toMat *ᵥ seg 3 u iAngVel))).length = 6 := rfl
  simp only [Res.ok_bind, hl, decide_true, Res.assert_true] at h
  have h' : seen (measureFixed .fixed ({ Imu.ctor dt with contacts := c } : Sys Unit) x u k ()) = .ok (readingList c x u, ()) := h
  change ((measureFixed .fixed ({ Imu.ctor dt with contacts := c } : Sys Unit) x u k ()) >>= fun p => .ok (ofList p.1)) = _
  rw [← ofList_reading]
  unfold seen at h'
  cases hm : measureFixed .fixed ({ Imu.ctor dt with contacts := c } : Sys Unit) x u k () with
  | ok a =>
    rw [hm] at h'
    obtain ⟨y, s, r⟩ := a
    simp only [Res.ok_bind, Res.ok.injEq, Prod.mk.injEq] at h'
    rw [Res.ok_bind, h'.1]
  | assertFail => rw [hm] at h'; simp at h'
  | ub => rw [hm] at h'; simp at h'
  | exn => rw [hm] at h'; simp at h'

theorem fdStep_eq : defaultDx = fdStep := by
  funext i
  fin_cases i <;> simp [defaultDx, fdStep, setSeg, iOri, iAngVel]

end StateObs.Flex
