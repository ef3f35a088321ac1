import Verif.Imu.CacheProps
import Verif.Imu.MltpLemmas
import Verif.Kin.MotionExists
import Verif.Rot.MotionProps
/-! # C141: the inertial measurements that the systems of an inertial measurement unit predict -/

namespace StateObs.Imu
open StateObs Matrix Rot Kine Sensor

variable {G : Type}

/-- The state says how the body moves at the instant `t`: position, orientation, velocities and accelerations. -/
structure StateMoves (x : Fin 18 → ℝ) (m : Motion) (t : ℝ) : Prop where
  position : m.p t = seg 3 x 0
  orientation : m.R t = rotationVectorToRotationMatrix (seg 3 x 3)
  velocity : m.v t = seg 3 x 6
  angularVelocity : m.ω t = seg 3 x 9
  acceleration : m.a t = seg 3 x 12
  angularAcceleration : m.α t = seg 3 x 15

/-- The input (15 coefficients) says how the sensor moves in the frame of the body at the instant `t`. It has no angular acceleration. -/
structure InputMoves {N : ℕ} (u : Fin N → ℝ) (n : Motion) (t : ℝ) : Prop where
  position : n.p t = seg 3 u 0
  orientation : n.R t = rotationVectorToRotationMatrix (seg 3 u 3)
  velocity : n.v t = seg 3 u 6
  angularVelocity : n.ω t = seg 3 u 9
  acceleration : n.a t = seg 3 u 12

/-- Two angular velocities of the same motion are equal. -/
theorem TurnsAt.unique {Q : ℝ → M3} {w w' : V3} {t : ℝ} (hQ : IsRot (Q t)) (h : TurnsAt Q w t) (h' : TurnsAt Q w' t) : w = w' := by
  have e : ∀ z, w ⨯₃ z = w' ⨯₃ z := by
    intro z
    have := (h ((Q t)ᵀ *ᵥ z)).unique (h' ((Q t)ᵀ *ᵥ z))
    rwa [hQ.cancel'] at this
  have e0 := e ![1, 0, 0]
  have e1 := e ![0, 1, 0]
  rw [cross_apply, cross_apply] at e0 e1
  have a1 := congrFun e0 1
  have a2 := congrFun e0 2
  have a3 := congrFun e1 2
  simp at a1 a2 a3
  exact ext3 a3 a2 a1

theorem sensed_imu (v : Variant) (hv : v ≠ .mag) {q : Quat} (hq : q.normSq = 1) (a w : V3) (r : G) :
    ∃ acc gyro : V3, sensed v none (sensorState q a w) r = .ok ([acc 0, acc 1, acc 2, gyro 0, gyro 1, gyro 2], r) ∧
      q.toMat *ᵥ acc = a + ![0, 0, 9.8] ∧ q.toMat *ᵥ gyro = w := by
  obtain ⟨acc, gyro, h, h1, h2, -, -⟩ := C66_imu q hq a w
  refine ⟨acc, gyro, ?_, h1, h2⟩
  have e : (kind v).compute magMode (sensorState q a w) = accGyro.compute false (stateQ q a w) := by cases v <;> first | rfl | exact absurd rfl hv
  rw [sensed, e, h]
  rfl

theorem sensed_mag {q : Quat} (hq : q.normSq = 1) (a w : V3) (r : G) :
    ∃ acc gyro mag : V3, sensed .mag none (sensorState q a w) r = .ok ([acc 0, acc 1, acc 2, gyro 0, gyro 1, gyro 2, mag 0, mag 1, mag 2], r) ∧
      q.toMat *ᵥ acc = a + ![0, 0, 9.8] ∧ q.toMat *ᵥ gyro = w ∧ q.toMat *ᵥ mag = ![0, 28, -33.7] := by
  obtain ⟨acc, gyro, mag, h, h1, h2, h3, -⟩ := C66_magnetometer_partial q hq a w magMode.2
  refine ⟨acc, gyro, mag, ?_, h1, h2, h3⟩
  have e : (kind .mag).compute magMode (sensorState q a w) = accGyroMag.compute (false, magMode.2) (stateQ q a w) := rfl
  rw [sensed, e, h]
  rfl

/-- `fixedAcceleration` for an input of any size. -/
noncomputable def carried {N : ℕ} (rFlex : M3) (x : Fin 18 → ℝ) (u : Fin N → ℝ) : V3 :=
  (skewSymmetric (seg 3 x iAngAcc) + skewSymmetric (seg 3 x iAngVel) * skewSymmetric (seg 3 x iAngVel)) *ᵥ (rFlex *ᵥ seg 3 u iPos) +
    (2 : ℝ) • (skewSymmetric (seg 3 x iAngVel) *ᵥ (rFlex *ᵥ seg 3 u iLinVel)) + seg 3 x iLinAcc + rFlex *ᵥ seg 3 u iLinAcc

/-- The measurement of the fixed-contact systems without noise. -/
theorem measured_fixed (v : Variant) (hv : v = .fixed ∨ v = .stable) (cs : List V3) (x : Fin 18 → ℝ) (u : Fin (inputSize v) → ℝ) (r : G) :
    ∃ acc gyro : V3, measured v none cs x u r = .ok ([acc 0, acc 1, acc 2, gyro 0, gyro 1, gyro 2] ++
        contactMeasurements (rotationVectorToRotationMatrix (seg 3 x iOri)) (seg 3 x iPos) cs, r) ∧
      (rotationVectorToRotationMatrix (seg 3 x iOri) * rotationVectorToRotationMatrix (seg 3 u iOri)) *ᵥ acc =
        carried (rotationVectorToRotationMatrix (seg 3 x iOri)) x u + ![0, 0, 9.8] ∧
      (rotationVectorToRotationMatrix (seg 3 x iOri) * rotationVectorToRotationMatrix (seg 3 u iOri)) *ᵥ gyro =
        seg 3 x iAngVel + rotationVectorToRotationMatrix (seg 3 x iOri) *ᵥ seg 3 u iAngVel := by
  have key : ∀ u' : Fin 15 → ℝ, (rotationVectorToQuaternion (seg 3 x iOri) * rotationVectorToQuaternion (seg 3 u' iOri)).normSq = 1 := by
    intro u'
    rw [Quat.normSq_mul, rvq_unit, rvq_unit, one_mul]
  rcases hv with rfl | rfl
  · have e : ∀ u : Fin 15 → ℝ, measured .fixed none cs x u r = (sensed .fixed none (sensorState (rotationVectorToQuaternion (seg 3 x iOri) * rotationVectorToQuaternion (seg 3 u iOri))
        (fixedAcceleration (rotationVectorToQuaternion (seg 3 x iOri)).toMat x u)
        (seg 3 x iAngVel + (rotationVectorToQuaternion (seg 3 x iOri)).toMat *ᵥ seg 3 u iAngVel)) r >>= fun p => Res.assert (decide (p.1.length = 6)) >>= fun _ =>
        .ok (p.1 ++ contactMeasurements (rotationVectorToQuaternion (seg 3 x iOri)).toMat (seg 3 x iPos) cs, p.2)) := fun u => rfl
    obtain ⟨acc, gyro, h, h1, h2⟩ := sensed_imu .fixed (fun h => nomatch h) (key u) (fixedAcceleration (rotationVectorToQuaternion (seg 3 x iOri)).toMat x u)
      (seg 3 x iAngVel + (rotationVectorToQuaternion (seg 3 x iOri)).toMat *ᵥ seg 3 (N := 15) u iAngVel) r
    have e' := e u
    rw [h, rvq_toMat] at e'
    rw [Quat.toMat_mul (rvq_unit _) (rvq_unit _), rvq_toMat, rvq_toMat] at h1 h2
    exact ⟨acc, gyro, e', h1, h2⟩
  · have e : ∀ u : Fin 15 → ℝ, measured .stable none cs x u r = (sensed .stable none (sensorState (rotationVectorToQuaternion (seg 3 x iOri) * rotationVectorToQuaternion (seg 3 u iOri))
        (fixedAcceleration (rotationVectorToQuaternion (seg 3 x iOri)).toMat x u)
        (seg 3 x iAngVel + (rotationVectorToQuaternion (seg 3 x iOri)).toMat *ᵥ seg 3 u iAngVel)) r >>= fun p => Res.assert (decide (p.1.length = 6)) >>= fun _ =>
        .ok (p.1 ++ contactMeasurements (rotationVectorToQuaternion (seg 3 x iOri)).toMat (seg 3 x iPos) cs, p.2)) := fun u => rfl
    obtain ⟨acc, gyro, h, h1, h2⟩ := sensed_imu .stable (fun h => nomatch h) (key u) (fixedAcceleration (rotationVectorToQuaternion (seg 3 x iOri)).toMat x u)
      (seg 3 x iAngVel + (rotationVectorToQuaternion (seg 3 x iOri)).toMat *ᵥ seg 3 (N := 15) u iAngVel) r
    have e' := e u
    rw [h, rvq_toMat] at e'
    rw [Quat.toMat_mul (rvq_unit _) (rvq_unit _), rvq_toMat, rvq_toMat] at h1 h2
    exact ⟨acc, gyro, e', h1, h2⟩

/-- **C141**, sensors carried by a body that moves: the body moves as the state says and the sensor moves in the frame of the body as the input says; then the first three
numbers predicted are the acceleration of the sensor in the world plus gravity, the next three its angular velocity, both in the frame of the sensor. The rest is for the
contacts, C73. -/
theorem C141_carried (v : Variant) (hv : v = .fixed ∨ v = .stable) (dt : ℝ) (past : List (Op G v)) (r0 r r' r'' : G) (s s' : Sys G)
    (h : run v (ctor dt) r0 past = .ok (s, r)) (hn : s.sensor.noise = none) (x : Fin 18 → ℝ) (u : Fin (inputSize v) → ℝ) (k : Int) (y : List ℝ)
    (hm : measureDynamics v s x u k r' = .ok (y, s', r'')) :
    ∃ (acc gyro : V3) (rest : List ℝ), y = [acc 0, acc 1, acc 2, gyro 0, gyro 1, gyro 2] ++ rest ∧ rest.length = 3 * s.contacts.length ∧
      ∀ (m n : Motion) (t : ℝ), StateMoves x m t → InputMoves u n t →
        ∀ (V : ℝ → V3) (A W : V3), Deriv (fun t => m.p t + m.R t *ᵥ n.p t) V → HasDerivAt V A t → TurnsAt (fun t => m.R t * n.R t) W t →
          (m.R t * n.R t) *ᵥ acc = A + ![0, 0, 9.8] ∧ (m.R t * n.R t) *ᵥ gyro = W := by
  have g := run_good v (good_ctor dt) r0 r past h
  have e := measure_seen v g x u k r'
  obtain ⟨acc, gyro, e', h1, h2⟩ := measured_fixed v hv s.contacts x u r'
  rw [hm, hn, e'] at e
  simp only [seen, Res.ok_bind] at e
  obtain ⟨rfl, -⟩ : y = [acc 0, acc 1, acc 2, gyro 0, gyro 1, gyro 2] ++
        contactMeasurements (rotationVectorToRotationMatrix (seg 3 x iOri)) (seg 3 x iPos) s.contacts ∧ r'' = r' := by
    injection e with e
    injection e with e1 e2
    exact ⟨e1, e2⟩
  refine ⟨acc, gyro, _, rfl, by simp [contactMeasurements, List.length_flatMap, toL]; omega, ?_⟩
  rintro m n t ⟨-, p2, p3, p4, p5, p6⟩ ⟨c1, c2, c3, c4, c5⟩ V A W hV hA hW
  have hR := (m.rot t).mul (n.rot t)
  rw [← p2, ← c2] at h1 h2
  constructor
  · have hv : Deriv (fun t => m.p t + m.R t *ᵥ n.p t) (fun t => m.v t + (m.ω t ⨯₃ (m.R t *ᵥ n.p t) + m.R t *ᵥ n.v t)) :=
      fun t => (m.dp t).add (m.turns.mulVec (n.dp t))
    obtain rfl : V = fun t => m.v t + (m.ω t ⨯₃ (m.R t *ᵥ n.p t) + m.R t *ᵥ n.v t) := by
      funext t
      exact (hV t).unique (hv t)
    have ha := (m.dv t).add ((hasDerivAt_cross (m.dω t) (m.turns.mulVec (n.dp t))).add (m.turns.mulVec (n.dv t)))
    rw [hA.unique ha, h1]
    unfold carried
    rw [← p4, ← p5, ← p6, ← c1, ← c3, ← c5]
    simp only [add_mulVec, ← mulVec_mulVec, skew_hat, hat_mulVec, cross_add, two_smul]
    abel
  · rw [h2]
    refine TurnsAt.unique hR ?_ hW
    rw [← p4, ← c4]
    exact TurnsAt.mul (fun w => m.turns t w) (fun w => n.turns t w) (m.rot t)

/-- **C141**, the sensor is the body itself: the first three numbers predicted are the acceleration of the body plus gravity, the next three its angular velocity, in the frame
of the body; with the magnetometer, the last three are the field (0, 28, -33.7) in that frame. -/
theorem C141_body (v : Variant) (hv : v = .imu ∨ v = .mag) (dt : ℝ) (past : List (Op G v)) (r0 r r' r'' : G) (s s' : Sys G)
    (h : run v (ctor dt) r0 past = .ok (s, r)) (hn : s.sensor.noise = none) (x : Fin 18 → ℝ) (u : Fin (inputSize v) → ℝ) (k : Int) (y : List ℝ)
    (hm : measureDynamics v s x u k r' = .ok (y, s', r'')) :
    ∃ (acc gyro : V3) (rest : List ℝ), y = [acc 0, acc 1, acc 2, gyro 0, gyro 1, gyro 2] ++ rest ∧
      (v = .imu → rest = []) ∧
      ∀ (m : Motion) (t : ℝ), StateMoves x m t →
        (v = .mag → ∃ mag : V3, rest = [mag 0, mag 1, mag 2] ∧ m.R t *ᵥ mag = ![0, 28, -33.7]) ∧
        ∀ (V : ℝ → V3) (A W : V3), Deriv m.p V → HasDerivAt V A t → TurnsAt m.R W t → m.R t *ᵥ acc = A + ![0, 0, 9.8] ∧ m.R t *ᵥ gyro = W := by
  have g := run_good v (good_ctor dt) r0 r past h
  have e := measure_seen v g x u k r'
  have fin : ∀ acc gyro : V3, (rotationVectorToQuaternion (seg 3 x iOri)).toMat *ᵥ acc = seg 3 x iLinAcc + ![0, 0, 9.8] →
      (rotationVectorToQuaternion (seg 3 x iOri)).toMat *ᵥ gyro = seg 3 x iAngVel → ∀ (m : Motion) (t : ℝ), StateMoves x m t →
        ∀ (V : ℝ → V3) (A W : V3), Deriv m.p V → HasDerivAt V A t → TurnsAt m.R W t → m.R t *ᵥ acc = A + ![0, 0, 9.8] ∧ m.R t *ᵥ gyro = W := by
    intro acc gyro h1 h2 m t hM V A W hV hA hW
    rw [rvq_toMat, ← hM.orientation] at h1 h2
    obtain rfl : V = m.v := by
      funext t
      exact (hV t).unique (m.dp t)
    rw [h1, h2, hA.unique (m.dv t), hM.acceleration]
    refine ⟨rfl, TurnsAt.unique (m.rot t) ?_ hW⟩
    rw [← hM.angularVelocity]
    exact fun w => m.turns t w
  rcases hv with rfl | rfl
  · obtain ⟨acc, gyro, e', h1, h2⟩ := sensed_imu .imu (fun h => nomatch h) (rvq_unit (seg 3 x iOri)) (seg 3 x iLinAcc) (seg 3 x iAngVel) r'
    rw [hm, hn, measured] at e
    simp only [seen, Res.ok_bind, e'] at e
    injection e with e
    injection e with e1 e2
    exact ⟨acc, gyro, [], by rw [e1]; rfl, fun _ => rfl, fun m t hM => ⟨(fun h => nomatch h), fin acc gyro h1 h2 m t hM⟩⟩
  · obtain ⟨acc, gyro, mag, e', h1, h2, h3⟩ := sensed_mag (rvq_unit (seg 3 x iOri)) (seg 3 x iLinAcc) (seg 3 x iAngVel) r'
    rw [hm, hn, measured] at e
    simp only [seen, Res.ok_bind, e'] at e
    injection e with e
    injection e with e1 e2
    refine ⟨acc, gyro, [mag 0, mag 1, mag 2], by rw [e1]; rfl, (fun h => nomatch h), fun m t hM => ⟨fun _ => ⟨mag, rfl, ?_⟩, fin acc gyro h1 h2 m t hM⟩⟩
    rw [hM.orientation, ← rvq_toMat]
    exact h3

/-- **C141**, without measurement noise the measurement is always returned, and the random generator is untouched. -/
theorem C141_returns (v : Variant) (dt : ℝ) (past : List (Op G v)) (r0 r r' : G) (s : Sys G)
    (h : run v (ctor dt) r0 past = .ok (s, r)) (hn : s.sensor.noise = none) (x : Fin 18 → ℝ) (u : Fin (inputSize v) → ℝ) (k : Int) :
    ∃ y s', measureDynamics v s x u k r' = .ok (y, s', r') := by
  have g := run_good v (good_ctor dt) r0 r past h
  have e := measure_seen v g x u k r'
  have : ∃ y, measured v s.sensor.noise s.contacts x u r' = .ok (y, r') := by
    rw [hn]
    cases v
    · obtain ⟨acc, gyro, e', -⟩ := sensed_imu .imu (fun h => nomatch h) (rvq_unit (seg 3 x iOri)) (seg 3 x iLinAcc) (seg 3 x iAngVel) r'
      exact ⟨_, e'⟩
    · obtain ⟨acc, gyro, mag, e', -⟩ := sensed_mag (rvq_unit (seg 3 x iOri)) (seg 3 x iLinAcc) (seg 3 x iAngVel) r'
      exact ⟨_, e'⟩
    · obtain ⟨acc, gyro, e', -⟩ := measured_fixed .fixed (.inl rfl) s.contacts x u r'
      exact ⟨_, e'⟩
    · obtain ⟨acc, gyro, e', -⟩ := measured_fixed .stable (.inr rfl) s.contacts x u r'
      exact ⟨_, e'⟩
  obtain ⟨y, hy⟩ := this
  rw [hy] at e
  cases hm : measureDynamics v s x u k r' with
  | ok a =>
    obtain ⟨y1, s1, r1⟩ := a
    rw [hm] at e
    simp only [seen, Res.ok_bind] at e
    injection e with e
    injection e with e1 e2
    exact ⟨y1, s1, by rw [e2]⟩
  | assertFail => rw [hm] at e; cases e
  | ub => rw [hm] at e; cases e
  | exn => rw [hm] at e; cases e

/-- C141 is not vacuous: for every state and every input there are such motions, and the sensor that they carry has an acceleration and an angular velocity. -/
example (x : Fin 18 → ℝ) (u : Fin 15 → ℝ) : ∃ (m n : Motion) (V : ℝ → V3) (A W : V3), StateMoves x m 0 ∧ InputMoves u n 0 ∧
    Deriv (fun t => m.p t + m.R t *ᵥ n.p t) V ∧ HasDerivAt V A 0 ∧ TurnsAt (fun t => m.R t * n.R t) W 0 := by
  obtain ⟨m, h1, h2, h3, h4, h5, h6⟩ := motion_exists (seg 3 x 0) (seg 3 x 6) (seg 3 x 9) (seg 3 x 12) (seg 3 x 15) (rv_isRot (seg 3 x 3))
  obtain ⟨n, k1, k2, k3, k4, k5, -⟩ := motion_exists (seg 3 u 0) (seg 3 u 6) (seg 3 u 9) (seg 3 u 12) 0 (rv_isRot (seg 3 u 3))
  exact ⟨m, n, _, _, _, ⟨h1, h2, h3, h4, h5, h6⟩, ⟨k1, k2, k3, k4, k5⟩, fun t => (m.dp t).add (m.turns.mulVec (n.dp t)),
    (m.dv 0).add ((hasDerivAt_cross (m.dω 0) (m.turns.mulVec (n.dp 0))).add (m.turns.mulVec (n.dv 0))),
    TurnsAt.mul (fun w => m.turns 0 w) (fun w => n.turns 0 w) (m.rot 0)⟩

end StateObs.Imu
