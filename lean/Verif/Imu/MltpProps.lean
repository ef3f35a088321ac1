import Verif.Imu.MltpLemmas
/-!
# Properties C45, C60 (multiplicative inertial unit), C74: Jacobians and increments
-/

namespace StateObs.Mltp
open StateObs Matrix Rot Kine Sensor Imu

variable {R : Type}

/-! ## Specification -/

/-- The curve of states `x` passes at time `t` with the tangent vector `ξ`: the vectors have their derivatives in the segments of `ξ` and the
rotation turns with the angular velocity in the segment of the orientation. -/
structure Moves (x : ℝ → Fin 19 → ℝ) (ξ : Fin 18 → ℝ) (t : ℝ) : Prop where
  pos : HasDerivAt (fun τ => seg 3 (x τ) qPos) (seg 3 ξ iPos) t
  ori : TurnsAt (fun τ => (quatOf (seg 4 (x τ) qOri)).toMat) (seg 3 ξ iOri) t
  linVel : HasDerivAt (fun τ => seg 3 (x τ) qLinVel) (seg 3 ξ iLinVel) t
  angVel : HasDerivAt (fun τ => seg 3 (x τ) qAngVel) (seg 3 ξ iAngVel) t
  linAcc : HasDerivAt (fun τ => seg 3 (x τ) qLinAcc) (seg 3 ξ iLinAcc) t
  angAcc : HasDerivAt (fun τ => seg 3 (x τ) qAngAcc) (seg 3 ξ iAngAcc) t

/-- The orientation of the state is a unit quaternion. -/
def Unit4 (x : Fin 19 → ℝ) : Prop := (quatOf (seg 4 x qOri)).normSq = 1

/-- `y` is the state `x` incremented by `d`: the vectors are added, the rotation vector of `d` turns the orientation from the left
(by the exact exponential). -/
structure Incremented (x : Fin 19 → ℝ) (d : Fin 18 → ℝ) (y : Fin 19 → ℝ) : Prop where
  pos : seg 3 y qPos = seg 3 x qPos + seg 3 d iPos
  ori : (quatOf (seg 4 y qOri)).toMat = NormedSpace.exp (hat (seg 3 d iOri)) * (quatOf (seg 4 x qOri)).toMat
  linVel : seg 3 y qLinVel = seg 3 x qLinVel + seg 3 d iLinVel
  angVel : seg 3 y qAngVel = seg 3 x qAngVel + seg 3 d iAngVel
  linAcc : seg 3 y qLinAcc = seg 3 x qLinAcc + seg 3 d iLinAcc
  angAcc : seg 3 y qAngAcc = seg 3 x qAngAcc + seg 3 d iAngAcc

theorem seg_smul {n N : ℕ} (c : ℝ) (d : Fin N → ℝ) (i : ℕ) : seg n (c • d) i = c • seg n d i := by
  funext j
  simp only [seg, Pi.smul_apply, smul_eq_mul]
  split_ifs <;> simp

theorem seg_zero {n N : ℕ} (i : ℕ) : seg n (0 : Fin N → ℝ) i = 0 := by
  funext j
  simp [seg]

/-- **C45** `stateSum` is the increment, for the rotations above 1e-16 (and the null one); its result is a unit quaternion again. -/
theorem C45_stateSum (x : Fin 19 → ℝ) (d : Fin 18 → ℝ) (hx : Unit4 x) (hd : seg 3 d iOri = 0 ∨ 1e-16 < nrm (seg 3 d iOri)) :
    Incremented x d (stateSum x d) ∧ Unit4 (stateSum x d) := by
  have e := sum_ori x d
  refine ⟨⟨sum_pos x d, ?_, sum_linVel x d, sum_angVel x d, sum_linAcc x d, sum_angAcc x d⟩, ?_⟩
  · rw [e, quatOf_coeffs, Quat.toMat_mul (rvq_unit _) hx, rvq_toMat]
    rcases hd with h | h
    · rw [h, hat_zero, rv_below (by rw [nrm_zero]; exact epsilonAngle_pos.le)]
      simp
    · rw [rv_exp h]
  · show (quatOf _).normSq = 1
    rw [e, quatOf_coeffs, Quat.normSq_mul, rvq_unit, hx, one_mul]

/-- **C45** Incrementing a state by multiples of `ξ` moves it with tangent vector `ξ`. -/
theorem C45_increment (x0 : Fin 19 → ℝ) (ξ : Fin 18 → ℝ) (x : ℝ → Fin 19 → ℝ) (h : ∀ τ, Incremented x0 (τ • ξ) (x τ)) : Moves x ξ 0 := by
  have lin : ∀ i j : ℕ, (∀ τ : ℝ, seg 3 (x τ) i = seg 3 x0 i + seg 3 (τ • ξ) j) → HasDerivAt (fun τ => seg 3 (x τ) i) (seg 3 ξ j) 0 := by
    intro i j hh
    have e : (fun τ => seg 3 (x τ) i) = fun τ : ℝ => seg 3 x0 i + τ • seg 3 ξ j := by
      funext τ; rw [hh, seg_smul]
    rw [e]
    simpa using ((hasDerivAt_id (0 : ℝ)).smul_const (seg 3 ξ j)).const_add (seg 3 x0 i)
  refine ⟨lin _ _ fun τ => (h τ).pos, ?_, lin _ _ fun τ => (h τ).linVel, lin _ _ fun τ => (h τ).angVel, lin _ _ fun τ => (h τ).linAcc,
    lin _ _ fun τ => (h τ).angAcc⟩
  have hd : HasDerivAt (fun τ : ℝ => seg 3 (τ • ξ) iOri) (seg 3 ξ iOri) 0 := by
    simp only [seg_smul]
    simpa using (hasDerivAt_id (0 : ℝ)).smul_const (seg 3 ξ iOri)
  have ht := turnsAt_exp_zero hd (by rw [zero_smul, seg_zero])
  have e : (fun τ => (quatOf (seg 4 (x τ) qOri)).toMat) = fun τ => NormedSpace.exp (hat (seg 3 (τ • ξ) iOri)) * (quatOf (seg 4 x0 qOri)).toMat := by
    funext τ; exact (h τ).ori
  rw [e]
  intro w
  have := ht ((quatOf (seg 4 x0 qOri)).toMat *ᵥ w)
  simpa only [mulVec_mulVec] using this

/-! ## The invariant of the object -/

structure Good (s : Sys R) : Prop where
  a : ∀ dt x, writeA s.aJac dt x = writeA aJac0 dt x
  c : ∀ x, writeC s.cJac x = writeC 0 x
  concat : s.sensor.concat = 0
  mode : s.sensor.mode = false

theorem good_ctor : Good (ctor : Sys R) := ⟨fun _ _ => rfl, fun _ => rfl, rfl, rfl⟩

theorem setState_eq {s : Sys R} (h : Good s) (l : List ℝ) (hl : l.length = 10) (k : Int) :
    Sensor.setState accGyro s.sensor l k = .ok (afterSet accGyro s.sensor l k) ∧ (afterSet accGyro s.sensor l k).state = l ∧
      (afterSet accGyro s.sensor l k).concat = 0 ∧ (afterSet accGyro s.sensor l k).mode = false ∧
      (afterSet accGyro s.sensor l k).storedClean = false ∧ (afterSet accGyro s.sensor l k).storedNoisy = false ∧
      (afterSet accGyro s.sensor l k).noise = s.sensor.noise := by
  have hs : accGyro.stateSize false = 10 := rfl
  refine ⟨?_, ?_, h.concat, h.mode, rfl, rfl, rfl⟩
  · rw [Sensor.setState, tail, h.concat, if_pos (by omega), Res.ok_bind, head, h.mode, hs, if_pos (by omega), Res.ok_bind]
    simp only [afterSet, h.concat, h.mode, hs]
  · show l.take _ = l
    rw [h.mode, hs]
    exact List.take_of_length_le (by omega)

theorem measure_good {s s' : Sys R} (h : Good s) (x : Fin 19 → ℝ) (k : Int) (r r' : R) (y : List ℝ)
    (hm : measureDynamics s x k r = .ok (y, s', r')) : Good s' := by
  obtain ⟨e, _, hc, hmo, h4, h5, _⟩ := setState_eq h (sensorState (quatOf (seg 4 x qOri)) (seg 3 x qLinAcc) (seg 3 x qAngVel)) rfl k
  simp only [measureDynamics, Res.bind_eq_ok] at hm
  obtain ⟨A, hA, ⟨y1, B, r1⟩, hB, hm⟩ := hm
  cases hm
  rw [e] at hA
  obtain rfl : _ = A := by cases hA; rfl
  have key : B.concat = 0 ∧ B.mode = false := by
    have clean : ∀ {A A' : Sensor Bool R}, A.concat = 0 → A.mode = false → computeClean accGyro A = .ok A' → A'.concat = 0 ∧ A'.mode = false := by
      intro A A' h1 h2 h3
      simp only [computeClean, Res.bind_eq_ok] at h3
      obtain ⟨y, _, h3⟩ := h3
      rw [if_neg (by rw [h1]; omega)] at h3
      cases h3
      exact ⟨h1, h2⟩
    generalize afterSet accGyro s.sensor (sensorState (quatOf (seg 4 x qOri)) (seg 3 x qLinAcc) (seg 3 x qAngVel)) k = A at *
    cases hno : A.noise with
    | some n =>
      simp only [Sensor.getMeasurements, hno, h5] at hB
      simp only [Bool.false_eq_true, if_false, Res.bind_eq_ok, computeNoisy] at hB
      obtain ⟨⟨a, b, c⟩, ⟨A', hA', ⟨z, r2⟩, _, hz⟩, hB⟩ := hB
      cases hz
      cases hB
      rw [ensureCleanChecked, h4] at hA'
      simp only [Bool.false_eq_true, if_false] at hA'
      split at hA'
      · exact ⟨(clean hc hmo hA').1, (clean hc hmo hA').2⟩
      · cases hA'
    | none =>
      simp only [Sensor.getMeasurements, hno, Res.bind_eq_ok] at hB
      obtain ⟨A', hA', hB⟩ := hB
      cases hB
      rw [ensureClean, h4] at hA'
      exact clean hc hmo hA'
  exact ⟨h.a, h.c, key.1, key.2⟩

theorem exec_good {s s' : Sys R} (h : Good s) (r r' : R) (op : Op R) (he : exec s r op = .ok (s', r')) : Good s' := by
  cases op with
  | stateDynamics x u k =>
    simp only [exec, Res.bind_eq_ok] at he
    obtain ⟨⟨y, r1⟩, _, he⟩ := he
    cases he
    exact h
  | measureDynamics x u k =>
    simp only [exec, Res.bind_eq_ok] at he
    obtain ⟨⟨y, s1, r1⟩, h1, he⟩ := he
    cases he
    exact measure_good h x k r _ y h1
  | getAMatrix x =>
    cases he
    exact ⟨fun dt y => by simp only [getAMatrix, writeA_writeA, h.a], h.c, h.concat, h.mode⟩
  | getCMatrix x =>
    cases he
    exact ⟨h.a, fun y => by simp only [getCMatrix, writeC_writeC, h.c], h.concat, h.mode⟩
  | setProcessNoise n => cases he; exact ⟨h.a, h.c, h.concat, h.mode⟩
  | setMeasurementNoise n => cases he; exact ⟨h.a, h.c, h.concat, h.mode⟩
  | setSamplingPeriod dt => cases he; exact ⟨h.a, h.c, h.concat, h.mode⟩

theorem run_good {s s' : Sys R} (h : Good s) (r r' : R) (ops : List (Op R)) (he : run s r ops = .ok (s', r')) : Good s' := by
  induction ops generalizing s r with
  | nil => cases he; exact h
  | cons op ops ih =>
    simp only [run, Res.bind_eq_ok] at he
    obtain ⟨⟨s1, r1⟩, h1, he⟩ := he
    exact ih (exec_good h r r1 op h1) r1 he

theorem measure_value {s : Sys R} (h : Good s) (hn : s.sensor.noise = none) (x : Fin 19 → ℝ) (k : Int) (r : R) : ∃ s',
    measureDynamics s x k r = .ok (toL ((quatOf (seg 4 x qOri)).toMatᵀ *ᵥ (seg 3 x qLinAcc + gravity)) ++
      toL ((quatOf (seg 4 x qOri)).toMatᵀ *ᵥ seg 3 x qAngVel), s', r) := by
  obtain ⟨e, hst, hc, hmo, h4, h5, hno⟩ := setState_eq h (sensorState (quatOf (seg 4 x qOri)) (seg 3 x qLinAcc) (seg 3 x qAngVel)) rfl k
  rw [measureDynamics, e, Res.ok_bind]
  generalize afterSet accGyro s.sensor (sensorState (quatOf (seg 4 x qOri)) (seg 3 x qLinAcc) (seg 3 x qAngVel)) k = A at *
  rw [hn] at hno
  have hcl : ensureClean accGyro A = .ok { A with
      clean := (toL ((quatOf (seg 4 x qOri)).toMatᵀ *ᵥ (seg 3 x qLinAcc + gravity)) ++ toL ((quatOf (seg 4 x qOri)).toMatᵀ *ᵥ seg 3 x qAngVel))
      storedClean := true } := by
    rw [ensureClean, h4, computeClean, hmo, hst, hc]
    have r3 : ∀ v : V3, ![v 0, v 1, v 2] = v := by intro v; apply ext3 <;> rfl
    simp [accGyro, readState, sensorState, Res.assert, at3, accelerationMeasure, rotationVelocityMeasure, r3]
  simp only [Sensor.getMeasurements, hno, hcl, Res.ok_bind]
  exact ⟨_, rfl⟩

/-- **C45** For any object, whatever was called before, without measurement noise: when the state moves with tangent vector `ξ`, the measurement
moves with the derivative given by the measurement Jacobian. -/
theorem C45_measurement (past : List (Op R)) (r0 r1 r : R) (s : Sys R) (h : run ctor r0 past = .ok (s, r1)) (hn : s.sensor.noise = none)
    (x : ℝ → Fin 19 → ℝ) (ξ : Fin 18 → ℝ) (t : ℝ) (k : Int) (hx : Moves x ξ t) : ∃ y : ℝ → Fin 6 → ℝ,
    (∀ τ, ∃ s', measureDynamics s (x τ) k r = .ok (List.ofFn (y τ), s', r)) ∧
    HasDerivAt y ((getCMatrix s (x t)).1 *ᵥ ξ) t := by
  have g := run_good good_ctor r0 r1 past h
  refine ⟨fun τ i => (toL ((quatOf (seg 4 (x τ) qOri)).toMatᵀ *ᵥ (seg 3 (x τ) qLinAcc + gravity)) ++
      toL ((quatOf (seg 4 (x τ) qOri)).toMatᵀ *ᵥ seg 3 (x τ) qAngVel)).getD i 0, ?_, ?_⟩
  · intro τ
    obtain ⟨s', hs⟩ := measure_value g hn (x τ) k r
    refine ⟨s', hs.trans ?_⟩
    rfl
  · have e : (getCMatrix s (x t)).1 = writeC 0 (x t) := g.c (x t)
    rw [e]
    obtain ⟨c1, c2⟩ := writeC_mulVec (x t) ξ
    have d1 := hx.ori.transpose_mulVec (hx.linAcc.add_const gravity)
    have d2 := hx.ori.transpose_mulVec hx.angVel
    have a1 : ∀ a b c : V3, a - b ⨯₃ c = a + c ⨯₃ b := by
      intro a b c
      rw [← cross_anticomm b c]; abel
    rw [a1, ← c1] at d1
    rw [a1, ← c2] at d2
    obtain ⟨p0, p1, p2⟩ := hasDerivAt3.1 d1
    obtain ⟨q0, q1, q2⟩ := hasDerivAt3.1 d2
    rw [hasDerivAt_pi]
    intro i
    fin_cases i
    exacts [p0, p1, p2, q0, q1, q2]

/-- **C74** The state Jacobian, when the rotation during the period is above 1e-16: without process noise, when the state (with unit quaternions)
moves with tangent vector `ξ`, the next state moves with the tangent vector given by the state Jacobian, and keeps unit quaternions. -/
theorem C74_state (past : List (Op R)) (r0 r1 r : R) (s : Sys R) (h : run ctor r0 past = .ok (s, r1)) (hn : s.noise = none)
    (x : ℝ → Fin 19 → ℝ) (u : Fin 6 → ℝ) (ξ : Fin 18 → ℝ) (t : ℝ) (hx : Moves x ξ t) (hu : ∀ τ, Unit4 (x τ))
    (hb : 1e-16 < nrm (s.dt • seg 3 (x t) qAngVel + (s.dt * s.dt / 2) • seg 3 (x t) qAngAcc)) : ∃ x' : ℝ → Fin 19 → ℝ,
    (∀ τ, stateDynamics s (x τ) u r = .ok (x' τ, r)) ∧ (∀ τ, Unit4 (x' τ)) ∧ Moves x' ((getAMatrix s (x t)).1 *ᵥ ξ) t := by
  have g := run_good good_ctor r0 r1 past h
  have hq : ∀ τ, (integrateQuatVel (quatOf (seg 4 (x τ) qOri)) (seg 3 (x τ) qAngVel) (seg 3 (x τ) qAngAcc) s.dt).1.normSq = 1 := by
    intro τ
    rw [integrateQuatVel, Quat.normSq_mul, rvq_unit, one_mul]
    exact hu τ
  refine ⟨fun τ => nextState s.dt (x τ) u, fun τ => by rw [stateDynamics, hn]; rfl, fun τ => ?_, ?_⟩
  · show (quatOf _).normSq = 1
    rw [next_ori, quatOf_coeffs, renormalize_unit (hq τ)]
    exact hq τ
  have e : (getAMatrix s (x t)).1 = writeA aJac0 s.dt (x t) := g.a s.dt (x t)
  rw [e]
  obtain ⟨m1, m2, m3, m4, m5, m6⟩ := writeA_mulVec s.dt (x t) ξ _ rfl
  have h5 : (0.5 : ℝ) * s.dt * s.dt = s.dt * s.dt / 2 := by norm_num; ring
  constructor
  · simp only [next_pos, integratePosVel]
    rw [m1]
    have := hx.pos.add ((hx.linVel.const_smul s.dt).add (hx.linAcc.const_smul (0.5 * s.dt * s.dt)))
    convert! this using 1
    rw [h5, add_assoc]
    congr 3
    norm_num; ring
  · rw [m2]
    simp only [next_ori, quatOf_coeffs]
    have e1 : (fun τ => (renormalize (integrateQuatVel (quatOf (seg 4 (x τ) qOri)) (seg 3 (x τ) qAngVel) (seg 3 (x τ) qAngAcc) s.dt).1).toMat) =
        fun τ => rotationVectorToRotationMatrix (s.dt • seg 3 (x τ) qAngVel + (s.dt * s.dt / 2) • seg 3 (x τ) qAngAcc) *
          (quatOf (seg 4 (x τ) qOri)).toMat := by
      funext τ
      rw [renormalize_unit (hq τ), integrateQuatVel, Quat.toMat_mul (rvq_unit _) (hu τ), rvq_toMat, h5]
    rw [e1]
    have hd : HasDerivAt (fun τ => s.dt • seg 3 (x τ) qAngVel + (s.dt * s.dt / 2) • seg 3 (x τ) qAngAcc)
        (s.dt • seg 3 ξ iAngVel + (s.dt * s.dt / 2) • seg 3 ξ iAngAcc) t :=
      (hx.angVel.const_smul s.dt).add (hx.angAcc.const_smul (s.dt * s.dt / 2))
    have := (jacobian_turns hd hb).mul hx.ori (rv_isRot _)
    rw [add_comm]
    exact this
  · simp only [next_linVel, integratePosVel]
    rw [m3]
    exact hx.linVel.add (hx.linAcc.const_smul s.dt)
  · simp only [next_angVel, integrateQuatVel]
    rw [m4]
    exact hx.angVel.add (hx.angAcc.const_smul s.dt)
  · simp only [next_linAcc]
    rw [m5]
    exact hasDerivAt_const t _
  · simp only [next_angAcc]
    rw [m6]
    exact hasDerivAt_const t _

/-- **C74** The Jacobians do not depend on the previous calls. -/
theorem C74_history (past : List (Op R)) (r0 r1 : R) (s : Sys R) (h : run ctor r0 past = .ok (s, r1)) (x : Fin 19 → ℝ) :
    (getAMatrix s x).1 = (getAMatrix { (ctor : Sys R) with dt := s.dt } x).1 ∧ (getCMatrix s x).1 = (getCMatrix (ctor : Sys R) x).1 := by
  have g := run_good good_ctor r0 r1 past h
  exact ⟨g.a s.dt x, g.c x⟩

/-- C45 and C74 are not vacuous: from any state with a unit quaternion and along any tangent vector there is a curve of increments. -/
example (x0 : Fin 19 → ℝ) (hx : Unit4 x0) (ξ : Fin 18 → ℝ) : ∃ x : ℝ → Fin 19 → ℝ, (∀ τ, Unit4 (x τ)) ∧ ∀ τ, Incremented x0 (τ • ξ) (x τ) := by
  have hrot : ∀ τ : ℝ, IsRot (NormedSpace.exp (hat (seg 3 (τ • ξ) iOri)) * (quatOf (seg 4 x0 qOri)).toMat) := fun τ =>
    (exp_isRot _).mul (Quat.toMat_isRot hx)
  have ho : ∀ τ : ℝ, seg 4 (setSeg (stateSum x0 (τ • ξ)) qOri
      (coeffs (Quat.ofMat (NormedSpace.exp (hat (seg 3 (τ • ξ) iOri)) * (quatOf (seg 4 x0 qOri)).toMat)))) qOri =
      coeffs (Quat.ofMat (NormedSpace.exp (hat (seg 3 (τ • ξ) iOri)) * (quatOf (seg 4 x0 qOri)).toMat)) := fun τ =>
    seg_setSeg_same _ _ _ (by decide)
  refine ⟨fun τ => setSeg (stateSum x0 (τ • ξ)) qOri
    (coeffs (Quat.ofMat (NormedSpace.exp (hat (seg 3 (τ • ξ) iOri)) * (quatOf (seg 4 x0 qOri)).toMat))), fun τ => ?_, fun τ => ⟨?_, ?_, ?_, ?_, ?_, ?_⟩⟩
  · show (quatOf _).normSq = 1
    rw [ho, quatOf_coeffs]
    exact (Quat.ofMat_spec (hrot τ)).1
  · rw [seg_setSeg_ne _ _ _ _ (by decide), sum_pos]
  · rw [ho, quatOf_coeffs]
    exact (Quat.ofMat_spec (hrot τ)).2
  · rw [seg_setSeg_ne _ _ _ _ (by decide), sum_linVel]
  · rw [seg_setSeg_ne _ _ _ _ (by decide), sum_angVel]
  · rw [seg_setSeg_ne _ _ _ _ (by decide), sum_linAcc]
  · rw [seg_setSeg_ne _ _ _ _ (by decide), sum_angAcc]

/-! ## `derivateRtvMultiplicative` -/

/-- C45 for `derivateRtvMultiplicative`, as stated: the derivative of `Rᵀ v` when the rotation turns by the increment `δ`, from the left. -/
def C45_rtv_statement : Prop := ∀ (Q : ℝ → M3) (δ v : V3) (t : ℝ), IsRot (Q t) → TurnsAt Q δ t →
  HasDerivAt (fun τ => (Q τ)ᵀ *ᵥ v) (derivateRtvMultiplicative (Q t) v *ᵥ δ) t

/-- **C45** It is the derivative up to the sign: the code returns the derivative for the opposite increment. -/
theorem C45_rtv_partial (Q : ℝ → M3) (δ v : V3) (t : ℝ) (h : TurnsAt Q δ t) :
    HasDerivAt (fun τ => (Q τ)ᵀ *ᵥ v) (derivateRtvMultiplicative (Q t) v *ᵥ (-δ)) t := by
  have := h.transpose_mulVec (hasDerivAt_const t v)
  convert! this using 1
  rw [derivateRtvMultiplicative, ← mulVec_mulVec, skew_hat, hat_mulVec, neg_mulVec, zero_sub, cross_neg, mulVec_neg, neg_neg, mulVec_neg,
    ← mulVec_neg, cross_anticomm]

/-- **C45** The code disagrees: the sign is the opposite one. -/
theorem C45_rtv_false : ¬C45_rtv_statement := by
  intro h
  have hd : HasDerivAt (fun τ : ℝ => τ • ez) ez 0 := by simpa using (hasDerivAt_id (0 : ℝ)).smul_const ez
  have ht := turnsAt_exp_zero hd (zero_smul ℝ ez)
  have hr : IsRot (NormedSpace.exp (hat ((0 : ℝ) • ez))) := exp_isRot _
  have h1 := h _ ez ex 0 hr ht
  have h2 := C45_rtv_partial _ ez ex 0 ht
  have h3 := h1.unique h2
  have h4 := congrFun h3 1
  rw [zero_smul, hat_zero, NormedSpace.exp_zero, derivateRtvMultiplicative] at h4
  simp [mulVec3, mul3, skewSymmetric] at h4
  norm_num at h4

/-! ## C60 -/

/-- **C60** Adding then subtracting gives the increment back, for rotations between 1e-16 and π. -/
theorem C60_imu (x : Fin 19 → ℝ) (d : Fin 18 → ℝ) (hx : Unit4 x) (h0 : 1e-16 < nrm (seg 3 d iOri)) (h1 : nrm (seg 3 d iOri) < Real.pi) :
    stateDifference (stateSum x d) x = d := by
  apply ext_tangent
  all_goals simp only [stateDifference]
  · repeat rw [seg_setSeg_ne _ _ _ _ (by decide)]
    rw [seg_setSeg_same _ _ _ (by decide), sum_pos]; abel
  · repeat rw [seg_setSeg_ne _ _ _ _ (by decide)]
    rw [seg_setSeg_same _ _ _ (by decide), sum_ori, quatOf_coeffs, Quat.mul_assoc, Quat.mul_conj_self hx, Quat.mul_one]
    exact C35_vector _ h0 h1
  · repeat rw [seg_setSeg_ne _ _ _ _ (by decide)]
    rw [seg_setSeg_same _ _ _ (by decide), sum_linVel]; abel
  · repeat rw [seg_setSeg_ne _ _ _ _ (by decide)]
    rw [seg_setSeg_same _ _ _ (by decide), sum_angVel]; abel
  · repeat rw [seg_setSeg_ne _ _ _ _ (by decide)]
    rw [seg_setSeg_same _ _ _ (by decide), sum_linAcc]; abel
  · rw [seg_setSeg_same _ _ _ (by decide), sum_angAcc]; abel

/-- **C60** Rotations below 1e-16 are lost, the rest of the increment is not. -/
theorem C60_imu_small (x : Fin 19 → ℝ) (d : Fin 18 → ℝ) (hx : Unit4 x) (h0 : nrm (seg 3 d iOri) ≤ 1e-16) :
    stateDifference (stateSum x d) x = setSeg d iOri (0 : Fin 3 → ℝ) := by
  apply ext_tangent
  all_goals simp only [stateDifference]
  · repeat rw [seg_setSeg_ne _ _ _ _ (by decide)]
    rw [seg_setSeg_same _ _ _ (by decide), sum_pos]; rw [seg_setSeg_ne _ _ _ _ (by decide)]; abel
  · repeat rw [seg_setSeg_ne _ _ _ _ (by decide)]
    rw [seg_setSeg_same _ _ _ (by decide), seg_setSeg_same _ _ _ (by decide), sum_ori, quatOf_coeffs, Quat.mul_assoc, Quat.mul_conj_self hx, Quat.mul_one]
    exact C35_vector_small _ h0
  · repeat rw [seg_setSeg_ne _ _ _ _ (by decide)]
    rw [seg_setSeg_same _ _ _ (by decide), sum_linVel]; rw [seg_setSeg_ne _ _ _ _ (by decide)]; abel
  · repeat rw [seg_setSeg_ne _ _ _ _ (by decide)]
    rw [seg_setSeg_same _ _ _ (by decide), sum_angVel]; rw [seg_setSeg_ne _ _ _ _ (by decide)]; abel
  · repeat rw [seg_setSeg_ne _ _ _ _ (by decide)]
    rw [seg_setSeg_same _ _ _ (by decide), sum_linAcc]; rw [seg_setSeg_ne _ _ _ _ (by decide)]; abel
  · repeat rw [seg_setSeg_ne _ _ _ _ (by decide)]
    rw [seg_setSeg_same _ _ _ (by decide), sum_angAcc]; rw [seg_setSeg_ne _ _ _ _ (by decide)]; abel

/-- **C60** Adding zero changes nothing. -/
theorem C60_imu_zero (x : Fin 19 → ℝ) : stateSum x 0 = x := by
  apply ext_state
  · rw [sum_pos, seg_zero, add_zero]
  · rw [sum_ori, seg_zero, rvq_zero, Quat.one_mul, coeffs_quatOf]
  · rw [sum_linVel, seg_zero, add_zero]
  · rw [sum_angVel, seg_zero, add_zero]
  · rw [sum_linAcc, seg_zero, add_zero]
  · rw [sum_angAcc, seg_zero, add_zero]

end StateObs.Mltp
