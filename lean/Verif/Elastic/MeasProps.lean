import Verif.Elastic.MeasLemmas
/-! # C91: the measurements that the robot on elastic contacts predicts -/

namespace StateObs.Elastic
open StateObs Matrix Rot Kine Imu
open StateObs.KO (Robot at3)

variable {G : Type}

/-- The input says how the inertial sensor moves in the frame of the robot: the motion `n` at the instant `t`. -/
structure Mounted (u : DVec) (n : Motion) (t : ℝ) : Prop where
  position : n.p t = at3 u 27
  orientation : n.R t = rotationVectorToRotationMatrix (at3 u 30)
  velocity : n.v t = at3 u 33
  angularVelocity : n.ω t = at3 u 36
  acceleration : n.a t = at3 u 39

/-- Everything about a measurement without noise. -/
theorem measure_ok {s s' : Sys G} {x u y : DVec} {k : Int} {g g' : G} (hi : Inv s) (hn : s.sensor.noise = none) (h : s.measureDynamics x u k g = .ok (y, s', g')) :
    ∃ a α s'', ∃ hx : x.size = 35, s.computeAccelerations x u = .ok ((a, α), s'') ∧ (s.withForce = true → s.nb ≤ 3) ∧ g' = g ∧
      y = ofList (clean (sensorRot x u) (sensorAcc x u a α) (sensorVel x u) (others s x hx (rotationVectorToRotationMatrix (at3 x 3)))) := by
  obtain ⟨hx, hu, he⟩ := measureDynamics_sizes h
  obtain ⟨rt, hr, e⟩ := measure_eq hi x u k g hx hu he
  rw [e] at h
  obtain ⟨⟨⟨a, α⟩, s''⟩, h1, h⟩ := Res.bind_eq_ok.1 h
  split_ifs at h with h3
  obtain ⟨t, ht⟩ := readSensor_clean (s := Sys.readEfforts { s with xkY := x, ukY := u, opK := k, rot := rt } (cast x 35 hx)) hi.mode hn
    (R := sensorRot x u) (a := sensorAcc x u a α) (w := sensorVel x u) (others_length s hi x hx _).symm hi.clean k g
  rw [ht] at h
  cases h
  exact ⟨a, α, s'', hx, h1, fun hf => by by_contra hc; exact h3 ⟨hf, by omega⟩, rfl, rfl⟩

theorem measure_live {s : Sys G} {x u : DVec} {k : Int} {g : G} (hi : Inv s) (hn : s.sensor.noise = none) (hx : x.size = 35) (hu : u.size = 48 + 12 * s.nb)
    (he : s.efforts = true) {w : V3 × V3} (ha : s.accelPure (cast x 35 hx) (s.biased (cast x 35 hx) (readInput s.nb (cast u _ hu))) (seg 3 (cast x 35 hx) iAngVel) = .ok w)
    (hf : s.withForce = true → s.nb ≤ 3) : ∃ y s', s.measureDynamics x u k g = .ok (y, s', g) := by
  obtain ⟨rt, -, e⟩ := measure_eq hi x u k g hx hu he
  obtain ⟨rt', -, e'⟩ := computeAccelerations_eq hi.rot x u hx hu
  rw [ha] at e'
  rw [e, e']
  simp only [Res.bind]
  rw [if_neg (by rintro ⟨h1, h2⟩; exact absurd (hf h1) (by omega))]
  obtain ⟨t, ht⟩ := readSensor_clean (s := Sys.readEfforts { s with xkY := x, ukY := u, opK := k, rot := rt } (cast x 35 hx)) hi.mode hn
    (R := sensorRot x u) (a := sensorAcc x u w.1 w.2) (w := sensorVel x u) (others_length s hi x hx _).symm hi.clean k g
  exact ⟨_, _, ht⟩

/-- **C91**, inertial sensor: if the robot moves as the state says with the accelerations of `computeAccelerations`, and the sensor moves in its frame as the input says, then
the first three numbers predicted are the acceleration of the sensor in the world plus gravity, the next three its angular velocity, both in the frame of the sensor. -/
theorem C91_imu (dt : ℝ) (g g1 g2 : G) (ops : List (Op G)) (s s' : Sys G) (x u y : DVec) (k : Int) (hr : run dt g ops = .ok (s, g1)) (hn : s.sensor.noise = none)
    (h : s.measureDynamics x u k g1 = .ok (y, s', g2)) :
    ∃ a α s'', s.computeAccelerations x u = .ok ((a, α), s'') ∧ ∀ (m n : Motion) (t : ℝ), Moves x m t → m.a t = a → m.α t = α → Mounted u n t →
      ∀ (V : ℝ → V3) (A W : V3), Deriv (fun t => m.p t + m.R t *ᵥ n.p t) V → HasDerivAt V A t → TurnsAt (fun t => m.R t * n.R t) W t →
        (m.R t * n.R t) *ᵥ at3 y 0 = A + ![0, 0, 9.8] ∧ (m.R t * n.R t) *ᵥ at3 y 3 = W := by
  obtain ⟨a, α, s'', hx, h1, -, -, rfl⟩ := measure_ok (run_inv hr) hn h
  refine ⟨a, α, s'', h1, ?_⟩
  rintro m n t hm rfl rfl hM V A W hV hA hW
  have hQ : m.R t * n.R t = sensorRot x u := by rw [hm.orientation, hM.orientation]; rfl
  have hRot : IsRot (sensorRot x u) := by rw [← hQ]; exact (m.rot t).mul (n.rot t)
  have y0 : at3 (ofList (clean (sensorRot x u) (sensorAcc x u (m.a t) (m.α t)) (sensorVel x u) (others s x hx (rotationVectorToRotationMatrix (at3 x 3))))) 0 =
      (sensorRot x u)ᵀ *ᵥ (sensorAcc x u (m.a t) (m.α t) + KO.g) := by
    unfold clean
    rw [List.append_assoc]
    exact at3_ofList [] _ _ 0 rfl
  have y3 : at3 (ofList (clean (sensorRot x u) (sensorAcc x u (m.a t) (m.α t)) (sensorVel x u) (others s x hx (rotationVectorToRotationMatrix (at3 x 3))))) 3 =
      (sensorRot x u)ᵀ *ᵥ sensorVel x u := by
    unfold clean
    rw [List.append_assoc]
    exact at3_ofList (Sensor.toL _) _ _ 3 rfl
  rw [hQ, y0, y3, hRot.cancel', hRot.cancel']
  constructor
  · have hv : Deriv (fun t => m.p t + m.R t *ᵥ n.p t) (fun t => m.v t + (m.ω t ⨯₃ (m.R t *ᵥ n.p t) + m.R t *ᵥ n.v t)) :=
      fun t => (m.dp t).add (m.turns.mulVec (n.dp t))
    obtain rfl : V = fun t => m.v t + (m.ω t ⨯₃ (m.R t *ᵥ n.p t) + m.R t *ᵥ n.v t) := by
      funext t
      exact (hV t).unique (hv t)
    have ha := (m.dv t).add ((hasDerivAt_cross (m.dω t) (m.turns.mulVec (n.dp t))).add (m.turns.mulVec (n.dv t)))
    rw [hA.unique ha]
    unfold sensorAcc
    simp only [← hm.orientation, ← hm.angularVelocity, ← hM.position, ← hM.velocity, ← hM.acceleration]
    rw [cross_add, two_smul]
    show _ + KO.g = _ + KO.g
    abel
  · have hw : TurnsAt (fun t => m.R t * n.R t) (m.ω t + m.R t *ᵥ n.ω t) t := TurnsAt.mul (fun w => m.turns t w) (fun w => n.turns t w) (m.rot t)
    have e : ∀ w, W ⨯₃ w = (m.ω t + m.R t *ᵥ n.ω t) ⨯₃ w := by
      intro w
      have := (hW ((m.R t * n.R t)ᵀ *ᵥ w)).unique (hw ((m.R t * n.R t)ᵀ *ᵥ w))
      rwa [((m.rot t).mul (n.rot t)).cancel'] at this
    unfold sensorVel
    rw [← hm.angularVelocity, ← hm.orientation, ← hM.angularVelocity]
    have e0 := e ![1, 0, 0]
    have e1 := e ![0, 1, 0]
    generalize m.ω t + m.R t *ᵥ n.ω t = w' at e0 e1
    rw [cross_apply, cross_apply] at e0 e1
    have a1 := congrFun e0 1
    have a2 := congrFun e0 2
    have a3 := congrFun e1 0
    simp at a1 a2 a3
    apply ext3
    · have := congrFun e1 2
      simp at this
      exact this.symm
    · exact a2.symm
    · exact a1.symm

/-- **C91**, sizes: the measurement has six numbers for the inertial sensor, six per contact if forces are measured, six for the absolute position. -/
theorem C91_size (dt : ℝ) (g g1 g2 : G) (ops : List (Op G)) (s s' : Sys G) (x u y : DVec) (k : Int) (hr : run dt g ops = .ok (s, g1)) (hn : s.sensor.noise = none)
    (h : s.measureDynamics x u k g1 = .ok (y, s', g2)) : y.size = 6 + (if s.withForce then 6 * s.nb else 0) + (if s.withAbs then 6 else 0) ∧ y.size = s.measSize := by
  have hi := run_inv hr
  obtain ⟨a, α, s'', hx, h1, -, -, rfl⟩ := measure_ok hi hn h
  have hl := others_length s hi x hx (rotationVectorToRotationMatrix (at3 x 3))
  have hm := hi.meas
  have hc := hi.concat
  have e : (ofList (clean (sensorRot x u) (sensorAcc x u a α) (sensorVel x u) (others s x hx (rotationVectorToRotationMatrix (at3 x 3))))).size =
      6 + (others s x hx (rotationVectorToRotationMatrix (at3 x 3))).length := by
    rw [ofList_size]
    unfold clean
    simp [Sensor.toL]
    omega
  rw [e, hl]
  split_ifs at hm ⊢ <;> omega

/-- **C91**, forces: if forces are measured, the wrench predicted for a contact is the one at its place in the state. -/
theorem C91_forces (dt : ℝ) (g g1 g2 : G) (ops : List (Op G)) (s s' : Sys G) (x u y : DVec) (k : Int) (hr : run dt g ops = .ok (s, g1)) (hn : s.sensor.noise = none)
    (h : s.measureDynamics x u k g1 = .ok (y, s', g2)) (hf : s.withForce = true) (i : ℕ) (hin : i < s.nb) :
    at3 y (6 + 6 * i) = at3 x (12 + 6 * i) ∧ at3 y (6 + 6 * i + 3) = at3 x (12 + 6 * i + 3) := by
  obtain ⟨a, α, s'', hx, h1, -, -, rfl⟩ := measure_ok (run_inv hr) hn h
  have hw : others s x hx (rotationVectorToRotationMatrix (at3 x 3)) = wrenches x 0 i ++ (Sensor.toL (at3 x (12 + 6 * i)) ++ (Sensor.toL (at3 x (12 + 6 * i + 3)) ++
      (wrenches x (i + 1) (s.nb - i - 1) ++ if s.withAbs then absolutePose (cast x 35 hx) (rotationVectorToRotationMatrix (at3 x 3)) else []))) := by
    unfold others
    rw [if_pos hf]
    have e1 : wrenches x 0 s.nb = wrenches x 0 i ++ wrenches x i (s.nb - i) := by
      have := wrenches_split x 0 i (s.nb - i)
      rwa [Nat.add_sub_cancel' hin.le, Nat.zero_add] at this
    have e2 : wrenches x i (s.nb - i) = wrenches x i 1 ++ wrenches x (i + 1) (s.nb - i - 1) := by
      have := wrenches_split x i 1 (s.nb - i - 1)
      rwa [show 1 + (s.nb - i - 1) = s.nb - i by omega] at this
    have e3 : wrenches x i 1 = Sensor.toL (at3 x (12 + 6 * i)) ++ Sensor.toL (at3 x (12 + 6 * i + 3)) := by simp [wrenches]
    rw [e1, e2, e3]
    simp only [List.append_assoc]
  unfold clean
  rw [hw]
  constructor
  · rw [← List.append_assoc]
    refine at3_ofList _ _ _ _ ?_
    simp [Sensor.toL, wrenches_length]
    omega
  · rw [← List.append_assoc, ← List.append_assoc]
    refine at3_ofList _ _ _ _ ?_
    simp [Sensor.toL, wrenches_length]
    omega

/-- **C91**, absolute position: if it is measured, the last six numbers are the pose of the robot moved by the drift, a translation on the ground and a rotation about the vertical:
the position, and the rotation vector of the orientation. -/
theorem C91_absolute (dt : ℝ) (g g1 g2 : G) (ops : List (Op G)) (s s' : Sys G) (x u y : DVec) (k : Int) (hr : run dt g ops = .ok (s, g1)) (hn : s.sensor.noise = none)
    (h : s.measureDynamics x u k g1 = .ok (y, s', g2)) (ha : s.withAbs = true) (D : M3)
    (hD : D = !![Real.cos (at1 x 34), -Real.sin (at1 x 34), 0; Real.sin (at1 x 34), Real.cos (at1 x 34), 0; 0, 0, 1]) :
    at3 y (y.size - 6) = D *ᵥ at3 x 0 + ![at1 x 32, at1 x 33, 0] ∧ NormedSpace.exp (hat (at3 y (y.size - 3))) = D * rotationVectorToRotationMatrix (at3 x 3) ∧
      nrm (at3 y (y.size - 3)) ≤ Real.pi := by
  obtain ⟨a, α, s'', hx, h1, -, -, rfl⟩ := measure_ok (run_inv hr) hn h
  set R := rotationVectorToRotationMatrix (at3 x 3) with hRd
  have hd : ∀ j : Fin 3, (seg 3 (cast x 35 hx) iDrift : V3) j = at1 x (32 + j) := by
    intro j
    rw [seg3_cast]
    unfold at3 at1
    rfl
  have hDd : driftRotation ((seg 3 (cast x 35 hx) iDrift : V3) 2) = D := by rw [hd, hD]; rfl
  have hDr : IsRot D := by
    rw [hD]
    constructor
    · ext i j
      fin_cases i <;> fin_cases j <;> simp [mul_apply, Fin.sum_univ_succ] <;> nlinarith [Real.sin_sq_add_cos_sq (at1 x 34)]
    · rw [det_fin_three]
      simp
      nlinarith [Real.sin_sq_add_cos_sq (at1 x 34)]
  have hRr : IsRot R := (C34_rotation _).1
  have hp : absolutePose (cast x 35 hx) R = Sensor.toL (D *ᵥ at3 x 0 + ![at1 x 32, at1 x 33, 0]) ++ Sensor.toL (rotationMatrixToRotationVector (D * R)) := by
    unfold absolutePose
    simp only [hDd]
    simp only [hd, seg3_cast]
    rw [add_comm]
    rfl
  have ho : others s x hx R = (if s.withForce then wrenches x 0 s.nb else []) ++ (Sensor.toL (D *ᵥ at3 x 0 + ![at1 x 32, at1 x 33, 0]) ++
      Sensor.toL (rotationMatrixToRotationVector (D * R))) := by
    unfold others
    rw [if_pos ha, hp]
  rw [ho]
  generalize (if s.withForce then wrenches x 0 s.nb else []) = F
  have e0 : ∀ (P Q : V3) (A : List ℝ), at3 (ofList (A ++ (F ++ (Sensor.toL P ++ Sensor.toL Q)))) ((ofList (A ++ (F ++ (Sensor.toL P ++ Sensor.toL Q)))).size - 6) = P := by
    intro P Q A
    rw [← List.append_assoc]
    refine at3_ofList _ _ _ _ ?_
    rw [ofList_size]
    simp [Sensor.toL]
    omega
  have e3 : ∀ (P Q : V3) (A : List ℝ), at3 (ofList (A ++ (F ++ (Sensor.toL P ++ Sensor.toL Q)))) ((ofList (A ++ (F ++ (Sensor.toL P ++ Sensor.toL Q)))).size - 3) = Q := by
    intro P Q A
    rw [← List.append_assoc, ← List.append_assoc, ← List.append_nil (Sensor.toL Q)]
    refine at3_ofList _ _ _ _ ?_
    rw [ofList_size]
    simp [Sensor.toL]
    omega
  have h35 := C35_matrix (D * R) (hDr.mul hRr)
  unfold clean
  rw [e0, e3]
  exact ⟨rfl, h35.1, h35.2.1⟩

/-- **C91**, return: after a call that computes the accelerations (or any other that reads a state), a measurement of the same state is predicted, if there is no noise on the
sensor and at most three forces are measured. -/
theorem C91_return (dt : ℝ) (g g1 : G) (ops : List (Op G)) (s s' : Sys G) (x u : DVec) (k : Int) (w : V3 × V3) (hr : run dt g ops = .ok (s, g1)) (hn : s.sensor.noise = none)
    (h : s.computeAccelerations x u = .ok (w, s')) (hf : s.withForce = true → s.nb ≤ 3) : ∃ y s'', s'.measureDynamics x u k g1 = .ok (y, s'', g1) := by
  have hi := run_inv hr
  obtain ⟨hx, hu⟩ := computeAccelerations_sizes h
  obtain ⟨rt, hr, e⟩ := computeAccelerations_eq hi.rot x u hx hu
  rw [e] at h
  obtain ⟨p, hp, h⟩ := Res.bind_eq_ok.1 h
  obtain rfl : Sys.readEfforts { s with rot := rt } (cast x 35 hx) = s' := by cases h; rfl
  have hS : Same (Sys.readEfforts { s with rot := rt } (cast x 35 hx)) s := by constructor <;> rfl
  exact measure_live (Eff.inv hi ⟨hS, hr, hi.clean⟩) hn hx hu rfl ((accelPure_congr hS _ _ _).trans hp) hf

/-- **C91**, first call: but on a new system, whatever has been set, no measurement is predicted before a call that computes from a state. -/
theorem C91_first_false (dt : ℝ) (g : G) (x u : DVec) (k : Int) : ∃ s, run dt g exOps = .ok (s, g) ∧ ¬ ∃ r, s.measureDynamics x u k g = .ok r := by
  refine ⟨_, ex_run dt g, ?_⟩
  rintro ⟨⟨y, s', g'⟩, h⟩
  have := (measureDynamics_sizes h).2.2
  cases this

/-- **C91**, noise: with a noise on the sensor and nothing but the inertial sensor, what is returned is what the noise makes of the measurement without noise. -/
theorem C91_noise (dt : ℝ) (g g1 g2 : G) (ops : List (Op G)) (s s' : Sys G) (x u y : DVec) (k : Int) (hr : run dt g ops = .ok (s, g1)) (n : Sensor.Noise G)
    (hn : s.sensor.noise = some n) (h : s.measureDynamics x u k g1 = .ok (y, s', g2)) :
    ∃ t t' y0 y1, exec s g1 (.setMeasurementNoise none) = .ok (t, g1) ∧ t.measureDynamics x u k g1 = .ok (ofList y0, t', g1) ∧ n g1 y0 = .ok (y1, g2) ∧ y = ofList y1 := by
  have hi := run_inv hr
  obtain ⟨hx, hu, he⟩ := measureDynamics_sizes h
  obtain ⟨rt, -, e⟩ := measure_eq hi x u k g1 hx hu he
  rw [e] at h
  obtain ⟨⟨⟨a, α⟩, s''⟩, h1, h⟩ := Res.bind_eq_ok.1 h
  split_ifs at h with h3
  rw [readSensor_noisy (s := Sys.readEfforts { s with xkY := x, ukY := u, opK := k, rot := rt } (cast x 35 hx)) hi.mode hn (R := sensorRot x u) (a := sensorAcc x u a α)
    (w := sensorVel x u) (others_length s hi x hx _).symm hi.clean k g1] at h
  split_ifs at h with h0
  obtain ⟨⟨y1, g3⟩, h4, h⟩ := Res.bind_eq_ok.1 h
  cases h
  set t : Sys G := { s with sensor := Sensor.setNoise s.sensor none } with ht
  have hS : Same s { t with sensor := { t.sensor with noise := s.sensor.noise } } := by constructor <;> rfl
  have hit : Inv t := ⟨hi.mass, hi.rot, hi.meas, hi.concat, hi.mode, hi.clean⟩
  obtain ⟨rt', -, e'⟩ := computeAccelerations_eq hi.rot x u hx hu
  rw [e'] at h1
  obtain ⟨p, hp, h1⟩ := Res.bind_eq_ok.1 h1
  obtain ⟨y0, t', h5⟩ := measure_live (k := k) (g := g1) (s := t) hit rfl hx hu he (w := p) hp fun hf => by
    by_contra hc
    exact h3 ⟨hf, by change ¬ s.nb ≤ 3 at hc; omega⟩
  obtain ⟨b, β, t'', hx', h6, -, -, h7⟩ := measure_ok hit rfl h5
  obtain ⟨rt2, -, e2⟩ := computeAccelerations_eq hit.rot x u hx hu
  have h8 : t.computeAccelerations x u = .ok (p, Sys.readEfforts { t with rot := rt2 } (cast x 35 hx)) := by
    rw [e2]
    exact (congrArg (fun r => Res.bind r _) hp).trans rfl
  rw [h8] at h6
  cases h6
  cases h1
  refine ⟨t, t', clean (sensorRot x u) (sensorAcc x u a α) (sensorVel x u) [], y1, rfl, ?_, h4, rfl⟩
  rw [h5, h7]
  congr

/-- **C91**, noise: with a noise on the sensor and forces or the absolute position measured, no measurement is ever predicted. -/
theorem C91_noise_false (dt : ℝ) (g g1 : G) (ops : List (Op G)) (s : Sys G) (x u : DVec) (k : Int) (hr : run dt g ops = .ok (s, g1)) (hn : s.sensor.noise ≠ none)
    (hm : 6 < s.measSize) : ¬ ∃ r, s.measureDynamics x u k g1 = .ok r := by
  rintro ⟨⟨y, s', g2⟩, h⟩
  have hi := run_inv hr
  obtain ⟨n, hn⟩ := Option.ne_none_iff_exists'.1 hn
  obtain ⟨hx, hu, he⟩ := measureDynamics_sizes h
  obtain ⟨rt, -, e⟩ := measure_eq hi x u k g1 hx hu he
  rw [e] at h
  obtain ⟨⟨⟨a, α⟩, s''⟩, h1, h⟩ := Res.bind_eq_ok.1 h
  split_ifs at h with h3
  rw [readSensor_noisy (s := Sys.readEfforts { s with xkY := x, ukY := u, opK := k, rot := rt } (cast x 35 hx)) hi.mode hn (R := sensorRot x u) (a := sensorAcc x u a α)
    (w := sensorVel x u) (others_length s hi x hx _).symm hi.clean k g1] at h
  split_ifs at h with h0
  have hl := others_length s hi x hx (rotationVectorToRotationMatrix (at3 x 3))
  rw [h0, hi.concat] at hl
  simp at hl
  omega

/-- **C91**, more contacts: with four forces measured or more, no measurement is predicted. -/
theorem C91_four_contacts_false (dt : ℝ) (g g1 : G) (ops : List (Op G)) (s : Sys G) (x u : DVec) (k : Int) (hr : run dt g ops = .ok (s, g1)) (hf : s.withForce = true)
    (hm : 3 < s.nb) : ¬ ∃ r, s.measureDynamics x u k g1 = .ok r := by
  rintro ⟨⟨y, s', g2⟩, h⟩
  have hi := run_inv hr
  obtain ⟨hx, hu, he⟩ := measureDynamics_sizes h
  obtain ⟨rt, -, e⟩ := measure_eq hi x u k g1 hx hu he
  rw [e] at h
  obtain ⟨⟨⟨a, α⟩, s''⟩, h1, h⟩ := Res.bind_eq_ok.1 h
  rw [if_pos ⟨hf, hm⟩] at h
  cases h

/-- **C91**, third contact: with three ropes, the wrench predicted for the third one is the force that is not modelled. -/
theorem C91_third_contact_false (dt : ℝ) (g g1 g2 : G) (ops : List (Op G)) (s s' : Sys G) (x u y : DVec) (k : Int) (hr : run dt g ops = .ok (s, g1))
    (hn : s.sensor.noise = none) (h : s.measureDynamics x u k g1 = .ok (y, s', g2)) (hf : s.withForce = true) (hin : 2 < s.nb) : at3 y 18 = at3 x 24 ∧ at3 y 21 = at3 x 27 :=
  C91_forces dt g g1 g2 ops s s' x u y k hr hn h hf 2 hin

/-- The same robot with these sensors. -/
noncomputable def exMeasOps : List (Op G) := exOps ++ [.setWithForceMeasurements true, .setWithAbsolutePosition true]

noncomputable def exMeasSys (dt : ℝ) : Sys G := Sys.updateMeasurementSize { (exSys dt : Sys G) with withForce := true, withAbs := true }

theorem exMeas_run (dt : ℝ) (g : G) : run dt g exMeasOps = .ok (exMeasSys dt, g) := rfl

/-- **C91**, a case: the robot that an elastic contact pushes upwards, with forces and the absolute position; its measurement is predicted. -/
theorem C91_example (dt : ℝ) (g : G) (k : Int) : ∃ s y s', run dt g (exMeasOps ++ [.computeAccelerations exState exInput]) = .ok (s, g) ∧
    s.sensor.noise = none ∧ s.withForce = true ∧ s.withAbs = true ∧ s.nb = 1 ∧ s.measureDynamics exState exInput k g = .ok (y, s', g) := by
  obtain ⟨a, α, s', h⟩ := C87_return dt g g exMeasOps (exMeasSys dt) exState exInput (exMeas_run dt g) rfl rfl (by show (2 : ℝ) ≠ 0; norm_num) (fun _ => by show 1 ≤ 2; norm_num) (ex_posDef (G := G) dt)
  obtain ⟨y, s'', h2⟩ := C91_return dt g g exMeasOps (exMeasSys dt) s' exState exInput k (a, α) (exMeas_run dt g) rfl h fun _ => by show 1 ≤ 3; norm_num
  have hr : run dt g (exMeasOps ++ [.computeAccelerations exState exInput]) = .ok (s', g) := by
    unfold run
    rw [List.foldlM_append]
    have := exMeas_run dt g
    unfold run at this
    rw [this]
    simp only [List.foldlM_cons, List.foldlM_nil, exec, Res.ok_bind, h]
    rfl
  obtain ⟨rt, -, e⟩ := computeAccelerations_eq (run_inv (exMeas_run dt g)).rot exState exInput rfl rfl
  rw [e] at h
  obtain ⟨p, -, h⟩ := Res.bind_eq_ok.1 h
  obtain rfl : _ = s' := by cases h; rfl
  exact ⟨_, y, s'', hr, rfl, rfl, rfl, rfl, h2⟩

end StateObs.Elastic
