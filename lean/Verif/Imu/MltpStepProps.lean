import Verif.Imu.MltpProps
import Verif.Imu.InertialProps
import Verif.Imu.StepSpec
/-! # C144: the predictions of the inertial unit with a multiplicative state -/

namespace StateObs.Mltp
open StateObs Matrix Rot Kine Sensor
open StateObs.Imu hiding Sys Op ctor exec run stateDynamics measureDynamics nextState period hasNoise Good run_good exec_good good_ctor measure_good

variable {R : Type}

/-- The rotation of the state (position, quaternion `x y z w`, linear velocity, angular velocity, linear acceleration, angular acceleration). -/
def rotationOf (x : Fin 19 → ℝ) : M3 := (⟨x 6, x 3, x 4, x 5⟩ : Quat).toMat

/-- The squared norm of the quaternion of the state. -/
def quatNormSq (x : Fin 19 → ℝ) : ℝ := x 3 ^ 2 + x 4 ^ 2 + x 5 ^ 2 + x 6 ^ 2

/-- The pose and the velocities `dt` after `x` with the accelerations of `x`, then the accelerations of the input. -/
structure AfterQ (dt : ℝ) (x : Fin 19 → ℝ) (u : Fin 6 → ℝ) (z : Fin 19 → ℝ) : Prop where
  pos : seg 3 z 0 = seg 3 x 0 + dt • seg 3 x 7 + (dt ^ 2 / 2) • seg 3 x 13
  linVel : seg 3 z 7 = seg 3 x 7 + dt • seg 3 x 13
  angVel : seg 3 z 10 = seg 3 x 10 + dt • seg 3 x 16
  linAcc : seg 3 z 13 = seg 3 u 0
  angAcc : seg 3 z 16 = seg 3 u 3

/-- The sampling period after some calls: the last one that was set, one at first. -/
def period (dt : ℝ) : List (Op R) → ℝ
  | [] => dt
  | .setSamplingPeriod d :: ops => period d ops
  | _ :: ops => period dt ops

/-- Whether there is a process noise after some calls. -/
def hasNoise (b : Bool) : List (Op R) → Bool
  | [] => b
  | .setProcessNoise n :: ops => hasNoise n.isSome ops
  | _ :: ops => hasNoise b ops

theorem run_params {s s' : Sys R} {r r' : R} (ops : List (Op R)) (he : run s r ops = .ok (s', r')) :
    s'.dt = period s.dt ops ∧ s'.noise.isSome = hasNoise s.noise.isSome ops := by
  induction ops generalizing s r with
  | nil => cases he; exact ⟨rfl, rfl⟩
  | cons op ops ih =>
    simp only [run, Res.bind_eq_ok] at he
    obtain ⟨⟨s1, r1⟩, h1, he⟩ := he
    obtain ⟨e1, e2⟩ := ih he
    cases op with
    | stateDynamics x u k =>
      simp only [exec, Res.bind_eq_ok] at h1
      obtain ⟨⟨y, r2⟩, _, h1⟩ := h1
      cases h1
      exact ⟨e1, e2⟩
    | measureDynamics x u k =>
      simp only [exec, Res.bind_eq_ok, measureDynamics] at h1
      obtain ⟨⟨y, s2, r2⟩, ⟨A, _, ⟨y1, B, r3⟩, _, h2⟩, h1⟩ := h1
      cases h2
      cases h1
      exact ⟨e1, e2⟩
    | getAMatrix x => cases h1; exact ⟨e1, e2⟩
    | getCMatrix x => cases h1; exact ⟨e1, e2⟩
    | setProcessNoise n => cases h1; exact ⟨e1, e2⟩
    | setMeasurementNoise n => cases h1; exact ⟨e1, e2⟩
    | setSamplingPeriod dt => cases h1; exact ⟨e1, e2⟩

theorem rotationOf_eq (x : Fin 19 → ℝ) : rotationOf x = (quatOf (seg 4 x 3)).toMat := rfl

theorem quatNormSq_eq (x : Fin 19 → ℝ) : quatNormSq x = (quatOf (seg 4 x 3)).normSq := by
  simp [quatNormSq, quatOf, Quat.normSq, seg]
  ring

theorem normSq_eq_of_seg {z : Fin 19 → ℝ} {q : Quat} (h : seg 4 z 3 = coeffs q) : quatNormSq z = q.normSq := by
  rw [quatNormSq_eq, h, quatOf_coeffs]

/-- **C144** After any calls, without process noise, the prediction from a state with a unit quaternion is returned and is the state one sampling period later with constant
accelerations; the next accelerations are the input, and the quaternion is a unit again. -/
theorem C144_step (past : List (Op R)) (r0 r1 r : R) (s : Sys R) (h : run ctor r0 past = .ok (s, r1)) (hn : hasNoise false past = false) (x : Fin 19 → ℝ) (u : Fin 6 → ℝ)
    (hx : quatNormSq x = 1) :
    ∃ z, stateDynamics s x u r = .ok (z, r) ∧ AfterQ (period 1 past) x u z ∧ quatNormSq z = 1 ∧
      rotationOf z = turned (period 1 past • seg 3 x 10 + (period 1 past ^ 2 / 2) • seg 3 x 16) * rotationOf x := by
  obtain ⟨e1, e2⟩ := run_params past h
  have hn' : s.noise = none := by
    have : s.noise.isSome = false := e2.trans hn
    simpa using this
  have e3 : s.dt = period 1 past := e1
  have hq : (quatOf (seg 4 x 3)).normSq = 1 := (quatNormSq_eq x).symm.trans hx
  have e : (0.5 * s.dt * s.dt : ℝ) = s.dt ^ 2 / 2 := by ring
  have hu : (integrateQuatVel (quatOf (seg 4 x qOri)) (seg 3 x qAngVel) (seg 3 x qAngAcc) s.dt).1.normSq = 1 := by
    rw [integrateQuatVel, Quat.normSq_mul, rvq_unit, hq, one_mul]
  have ho := next_ori s.dt x u
  rw [renormalize_unit hu] at ho
  refine ⟨nextState s.dt x u, by rw [stateDynamics, hn']; rfl, ⟨?_, ?_, ?_, next_linAcc _ _ _, next_angAcc _ _ _⟩, ?_, ?_⟩
  · rw [← e3, ← e]
    exact (next_pos _ _ _).trans (add_assoc _ _ _).symm
  · rw [← e3]; exact next_linVel _ _ _
  · rw [← e3]; exact next_angVel _ _ _
  · rw [normSq_eq_of_seg ho, hu]
  · rw [rotationOf_eq, ho, quatOf_coeffs, integrateQuatVel, Quat.toMat_mul (rvq_unit _) hq, rvq_toMat, ← e3, ← e, turned, rotationOf_eq]
    exact congrArg (· * _) (C34_exp _)

/-- **C144** The norm does not drift: whatever non-null quaternion is in the state, the squared norm of the next quaternion is within 1e-6 of one. -/
theorem C144_norm (past : List (Op R)) (r0 r1 r : R) (s : Sys R) (h : run ctor r0 past = .ok (s, r1)) (hn : hasNoise false past = false) (x : Fin 19 → ℝ) (u : Fin 6 → ℝ)
    (hx : quatNormSq x ≠ 0) : ∃ z, stateDynamics s x u r = .ok (z, r) ∧ |quatNormSq z - 1| ≤ 1e-6 := by
  obtain ⟨-, e2⟩ := run_params past h
  have hn' : s.noise = none := by
    have : s.noise.isSome = false := e2.trans hn
    simpa using this
  refine ⟨nextState s.dt x u, by rw [stateDynamics, hn']; rfl, ?_⟩
  rw [normSq_eq_of_seg (next_ori s.dt x u)]
  have hq : (integrateQuatVel (quatOf (seg 4 x qOri)) (seg 3 x qAngVel) (seg 3 x qAngAcc) s.dt).1.normSq ≠ 0 := by
    rw [integrateQuatVel, Quat.normSq_mul, rvq_unit, one_mul, ← quatNormSq_eq]
    exact hx
  generalize (integrateQuatVel (quatOf (seg 4 x qOri)) (seg 3 x qAngVel) (seg 3 x qAngAcc) s.dt).1 = q at hq
  rw [renormalize]
  split
  · have hpos : 0 < q.normSq := lt_of_le_of_ne (by rw [Quat.normSq]; nlinarith [mul_self_nonneg q.w, mul_self_nonneg q.x, mul_self_nonneg q.y, mul_self_nonneg q.z]) hq.symm
    have : q.normalized.normSq = 1 := by
      rw [Quat.normalized, if_pos hpos]
      have e : ∀ c : ℝ, (Quat.scale c q).normSq = c ^ 2 * q.normSq := by
        intro c
        simp only [Quat.scale, Quat.normSq]
        ring
      rw [e, div_pow, Real.sq_sqrt hpos.le, one_pow, one_div, inv_mul_cancel₀ hq]
    rw [this]
    norm_num
  · rename_i hc
    push Not at hc
    rw [quatNormTol] at hc
    rw [abs_le]
    exact ⟨by linarith [hc.2], by linarith [hc.1]⟩

/-- The state says how the body moves at the instant `t`. -/
structure StateMovesQ (x : Fin 19 → ℝ) (m : Motion) (t : ℝ) : Prop where
  position : m.p t = seg 3 x 0
  orientation : m.R t = rotationOf x
  velocity : m.v t = seg 3 x 7
  angularVelocity : m.ω t = seg 3 x 10
  acceleration : m.a t = seg 3 x 13
  angularAcceleration : m.α t = seg 3 x 16

/-- **C144** Without measurement noise, the measurement is returned; for a body that moves as the state says, it is the acceleration of the body plus gravity, then its angular velocity, in
the frame of the body. -/
theorem C144_measurement (past : List (Op R)) (r0 r1 r : R) (s : Sys R) (h : run ctor r0 past = .ok (s, r1)) (hn : s.sensor.noise = none) (x : Fin 19 → ℝ) (k : Int) :
    ∃ (acc gyro : V3) (s' : Sys R), measureDynamics s x k r = .ok ([acc 0, acc 1, acc 2, gyro 0, gyro 1, gyro 2], s', r) ∧
      ∀ (m : Motion) (t : ℝ), StateMovesQ x m t → ∀ (V : ℝ → V3) (A W : V3), Deriv m.p V → HasDerivAt V A t → TurnsAt m.R W t →
        m.R t *ᵥ acc = A + ![0, 0, 9.8] ∧ m.R t *ᵥ gyro = W := by
  have g := run_good good_ctor r0 r1 past h
  obtain ⟨s', e⟩ := measure_value g hn x k r
  refine ⟨_, _, s', e, ?_⟩
  intro m t hM V A W hV hA hW
  have hR := m.rot t
  have hO : (quatOf (seg 4 x qOri)).toMat = m.R t := hM.orientation.symm
  rw [hO, hR.cancel', hR.cancel']
  obtain rfl : V = m.v := by
    funext t
    exact (hV t).unique (m.dp t)
  rw [hA.unique (m.dv t), hM.acceleration]
  refine ⟨rfl, TurnsAt.unique hR ?_ hW⟩
  rw [← hM.angularVelocity]
  exact fun w => m.turns t w

/-- C144 is not vacuous: for every state with a unit quaternion there is such a motion. -/
example (x : Fin 19 → ℝ) (hx : quatNormSq x = 1) : ∃ m : Motion, StateMovesQ x m 0 := by
  obtain ⟨m, h1, h2, h3, h4, h5, h6⟩ := motion_exists (seg 3 x 0) (seg 3 x 7) (seg 3 x 10) (seg 3 x 13) (seg 3 x 16)
    (Quat.toMat_isRot (a := quatOf (seg 4 x 3)) ((quatNormSq_eq x).symm.trans hx))
  exact ⟨m, h1, h2, h3, h4, h5, h6⟩

end StateObs.Mltp
