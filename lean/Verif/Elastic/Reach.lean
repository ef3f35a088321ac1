import Verif.Elastic.Inv
/-! # What holds after any calls on the robot on elastic contacts -/

namespace StateObs.Elastic
open StateObs Matrix Rot Kine Imu Sensor

variable {G : Type}

theorem Same.symm {s t : Sys G} (h : Same s t) : Same t s := by
  cases h
  constructor <;> (symm; assumption)

theorem Same.trans {s t w : Sys G} (h : Same s t) (h' : Same t w) : Same s w := by
  obtain ⟨a1, a2, a3, a4, a5, a6, a7, a8, a9, a10, a11, a12, a13, a14, a15, a16, a17, a18, a19, a20, a21, a22, a23, a24⟩ := h
  obtain ⟨b1, b2, b3, b4, b5, b6, b7, b8, b9, b10, b11, b12, b13, b14, b15, b16, b17, b18, b19, b20, b21, b22, b23, b24⟩ := h'
  exact ⟨a1.trans b1, a2.trans b2, a3.trans b3, a4.trans b4, a5.trans b5, a6.trans b6, a7.trans b7, a8.trans b8, a9.trans b9, a10.trans b10, a11.trans b11,
    a12.trans b12, a13.trans b13, a14.trans b14, a15.trans b15, a16.trans b16, a17.trans b17, a18.trans b18, a19.trans b19, a20.trans b20, a21.trans b21,
    a22.trans b22, a23.trans b23, a24.trans b24⟩

/-- What holds after any calls. -/
structure Inv (s : Sys G) : Prop where
  mass : s.massInv = 1 / s.mass
  rot : RotOK s.rot
  meas : s.measSize = 6 + (if s.withForce then s.nb * 6 else 0) + (if s.withAbs then 6 else 0)
  concat : s.sensor.concat = s.measSize - 6
  mode : s.sensor.mode = true
  clean : 0 < s.sensor.concat → s.sensor.clean.length = 6 + s.sensor.concat

/-- What a computation leaves. -/
structure Eff (s s' : Sys G) : Prop where
  same : Same s' s
  rot : RotOK s'.rot
  clean : 0 < s'.sensor.concat → s'.sensor.clean.length = 6 + s'.sensor.concat

theorem Eff.inv {s s' : Sys G} (h : Inv s) (e : Eff s s') : Inv s' where
  mass := by rw [e.same.massInv, e.same.mass, h.mass]
  rot := e.rot
  meas := by rw [e.same.measSize, e.same.withForce, e.same.nb, e.same.withAbs, h.meas]
  concat := by rw [e.same.concat, e.same.measSize, h.concat]
  mode := by rw [e.same.mode, h.mode]
  clean := e.clean

theorem Eff.trans {s t w : Sys G} (e : Eff s t) (e' : Eff t w) : Eff s w := ⟨e'.same.trans e.same, e'.rot, e'.clean⟩

theorem Inv.eff {s : Sys G} (h : Inv s) : Eff s s := ⟨.refl s, h.rot, h.clean⟩

/-! ## The sensor -/

theorem computeClean_eff {s s' : Sensor Bool G} (hc : 0 < s.concat → s.clean.length = 6 + s.concat) (h : computeClean accGyro s = .ok s') :
    s'.mode = s.mode ∧ s'.noise = s.noise ∧ s'.concat = s.concat ∧ (0 < s'.concat → s'.clean.length = 6 + s'.concat) := by
  unfold computeClean at h
  simp only [Res.bind_eq_ok] at h
  obtain ⟨m, -, h⟩ := h
  split_ifs at h with h0
  · simp only [Res.bind_eq_ok] at h
    obtain ⟨u, hu, h⟩ := h
    cases h
    refine ⟨rfl, rfl, rfl, fun _ => ?_⟩
    by_cases hl : s.clean.length = m.length + s.direct.length
    · simp only [List.length_append]
      rw [← hl, hc h0]
    · rw [decide_eq_false hl] at hu
      cases hu
  · cases h
    exact ⟨rfl, rfl, rfl, fun hp => absurd hp h0⟩

theorem getMeasurements_eff {s s' : Sensor Bool G} {g g' : G} {y : List ℝ} (hc : 0 < s.concat → s.clean.length = 6 + s.concat)
    (h : getMeasurements accGyro s g true = .ok (y, s', g')) :
    s'.mode = s.mode ∧ s'.noise = s.noise ∧ s'.concat = s.concat ∧ (0 < s'.concat → s'.clean.length = 6 + s'.concat) := by
  unfold getMeasurements at h
  cases hn : s.noise with
  | none =>
    simp only [hn, Res.bind_eq_ok] at h
    obtain ⟨t, ht, h⟩ := h
    cases h
    unfold ensureClean at ht
    split_ifs at ht with h1
    · cases ht
      exact ⟨rfl, hn, rfl, hc⟩
    · obtain ⟨a, b, c, d⟩ := computeClean_eff hc ht
      exact ⟨a, b.trans hn, c, d⟩
  | some n =>
    simp only [hn] at h
    split_ifs at h with h1
    · cases h
      exact ⟨rfl, hn, rfl, hc⟩
    · simp only [Res.bind_eq_ok, computeNoisy, ensureCleanChecked] at h
      obtain ⟨⟨v, t, r⟩, ⟨t', ht', ⟨v', r'⟩, -, h2⟩, h⟩ := h
      cases h2
      cases h
      split_ifs at ht' with h3 h4
      · cases ht'
        exact ⟨rfl, hn, rfl, hc⟩
      · obtain ⟨a, b, c, d⟩ := computeClean_eff hc ht'
        exact ⟨a, b.trans hn, c, d⟩

theorem readSensor_eff {s s' : Sys G} {l : List ℝ} {k : Int} {g g' : G} {y : DVec} (hr : RotOK s.rot)
    (hc : 0 < s.sensor.concat → s.sensor.clean.length = 6 + s.sensor.concat) (h : s.readSensor l k g = .ok (y, s', g')) :
    Eff s s' ∧ s' = { s with sensor := s'.sensor, yk := y } := by
  unfold Sys.readSensor at h
  simp only [Res.bind_eq_ok] at h
  obtain ⟨t, ht, ⟨y', t', g''⟩, hg, h⟩ := h
  unfold Sensor.setState at ht
  simp only [Res.bind_eq_ok] at ht
  obtain ⟨d, -, hd, -, ht⟩ := ht
  cases ht
  obtain ⟨a, b, c, e⟩ := getMeasurements_eff (by exact hc) hg
  cases h
  refine ⟨⟨?_, hr, e⟩, rfl⟩
  constructor <;> first | rfl | assumption

/-! ## The computations -/

theorem stateDynamics_eff {s s' : Sys G} {x u y : DVec} {g g' : G} (h : Inv s) (e : s.stateDynamics x u g = .ok (y, s', g')) : Eff s s' := by
  by_cases hx : x.size = 35
  · by_cases hu : u.size = 48 + 12 * s.nb
    · obtain ⟨rt, hr, e'⟩ := stateDynamics_eq h.rot x u g hx hu
      rw [e'] at e
      cases hp : s.stepPure (cast x 35 hx) (s.biased (cast x 35 hx) (readInput s.nb (cast u _ hu))) with
      | ok w =>
        rw [hp] at e
        simp only [Res.bind, Sys.finish] at e
        split at e
        · simp only [Res.bind_eq_ok] at e
          obtain ⟨⟨z, g1⟩, -, e⟩ := e
          cases e
          exact ⟨by constructor <;> rfl, hr, h.clean⟩
        · cases e
          exact ⟨by constructor <;> rfl, hr, h.clean⟩
      | _ => rw [hp] at e; cases e
    · unfold Sys.stateDynamics at e
      rw [dif_pos hx, dif_neg hu] at e
      cases e
  · unfold Sys.stateDynamics at e
    rw [dif_neg hx] at e
    cases e

theorem measureDynamics_sizes {s s' : Sys G} {x u y : DVec} {k : Int} {g g' : G} (e : s.measureDynamics x u k g = .ok (y, s', g')) :
    x.size = 35 ∧ u.size = 48 + 12 * s.nb ∧ s.efforts = true := by
  unfold Sys.measureDynamics at e
  split_ifs at e with hx hu
  refine ⟨hx, hu, ?_⟩
  by_contra he
  rw [Bool.not_eq_true] at he
  have hs : Res.assert s.efforts = .assertFail := by rw [he]; rfl
  simp only [hs, Res.assertFail_bind] at e
  cases e

theorem measureDynamics_eff {s s' : Sys G} {x u y : DVec} {k : Int} {g g' : G} (h : Inv s) (e : s.measureDynamics x u k g = .ok (y, s', g')) :
    Eff s s' ∧ s'.efforts = true ∧ s'.xkY = x ∧ s'.ukY = u ∧ s'.opK = k ∧ s'.yk = y := by
  obtain ⟨hx, hu, he⟩ := measureDynamics_sizes e
  obtain ⟨rt, hr, e'⟩ := measureDynamics_eq h.rot x u k g hx hu he
  rw [e'] at e
  cases hp : s.measurePure (cast x 35 hx) (s.biased (cast x 35 hx) (readInput s.nb (cast u _ hu))) with
  | ok w =>
    rw [hp] at e
    simp only [Res.bind] at e
    obtain ⟨e1, e2⟩ := readSensor_eff (s := Sys.readEfforts { s with xkY := x, ukY := u, opK := k, rot := rt } (cast x 35 hx)) hr h.clean e
    refine ⟨⟨e1.same.trans (by constructor <;> rfl), e1.rot, e1.clean⟩, ?_, ?_, ?_, ?_, ?_⟩ <;> (rw [e2]; try rfl)
  | _ => rw [hp] at e; cases e

theorem fdState_eff {s s' : Sys G} {x c : Fin 35 → ℝ} {y : DVec} {i : Fin 35} {g g' : G} (h : Inv s) (e : s.fdState x y i g = .ok (c, s', g')) : Eff s s' := by
  unfold Sys.fdState at e
  split_ifs at e with hi
  simp only [Res.bind_eq_ok] at e
  obtain ⟨⟨z, s1, g1⟩, e1, e⟩ := e
  split_ifs at e with hz hd
  cases e
  exact stateDynamics_eff h e1

theorem stateColumns_eff {x : Fin 35 → ℝ} {y : DVec} : ∀ {l : List (Fin 35)} {s s' : Sys G} {g g' : G} {J}, Inv s →
    Sys.stateColumns x y l s g = .ok (J, s', g') → Eff s s'
  | [], s, s', g, g', J, h, e => by cases e; exact h.eff
  | i :: l, s, s', g, g', J, h, e => by
    unfold Sys.stateColumns at e
    simp only [Res.bind_eq_ok] at e
    obtain ⟨⟨c, s1, g1⟩, e1, ⟨cs, s2, g2⟩, e2, e⟩ := e
    cases e
    have h1 : Eff s s1 := by
      unfold Sys.stateColumn at e1
      split_ifs at e1 with ha
      · exact fdState_eff h e1
      · cases e1; exact h.eff
    exact h1.trans (stateColumns_eff (h1.inv h) e2)

theorem stateDynamicsJacobian_eff {s s' : Sys G} {g g' : G} {J} (h : Inv s) (e : s.stateDynamicsJacobian g = .ok (J, s', g')) : Eff s s' := by
  unfold Sys.stateDynamicsJacobian at e
  split_ifs at e with hx
  simp only [Res.bind_eq_ok] at e
  obtain ⟨⟨J1, s1, g1⟩, e1, e⟩ := e
  cases e
  have h0 : Inv { s with opXk1 := s.xk1 } := by cases h; constructor <;> assumption
  have h1 := stateColumns_eff h0 e1
  refine ⟨?_, h1.rot, h1.clean⟩
  have := h1.same
  cases this
  constructor <;> assumption

theorem fdMeasure_eff {s s' : Sys G} {x : Fin 35 → ℝ} {y : DVec} {c} {i : Fin 35} {g g' : G} (h : Inv s) (e : s.fdMeasure x y i g = .ok (c, s', g')) : Eff s s' := by
  unfold Sys.fdMeasure at e
  split_ifs at e with hi
  simp only [Res.bind_eq_ok] at e
  obtain ⟨⟨z, s1, g1⟩, e1, e⟩ := e
  split_ifs at e with hz hd
  cases e
  exact (measureDynamics_eff h e1).1

theorem measureColumns_eff {x : Fin 35 → ℝ} {y : DVec} : ∀ {l : List (Fin 35)} {s s' : Sys G} {g g' : G} {J}, Inv s →
    Sys.measureColumns x y l s g = .ok (J, s', g') → Eff s s'
  | [], s, s', g, g', J, h, e => by cases e; exact h.eff
  | i :: l, s, s', g, g', J, h, e => by
    unfold Sys.measureColumns at e
    split_ifs at e with ha
    · simp only [Res.bind_eq_ok] at e
      obtain ⟨⟨c, s1, g1⟩, e1, ⟨cs, s2, g2⟩, e2, e⟩ := e
      cases e
      have h1 := fdMeasure_eff h e1
      exact h1.trans (measureColumns_eff (h1.inv h) e2)
    · simp only [Res.bind_eq_ok] at e
      obtain ⟨⟨cs, s2, g2⟩, e2, e⟩ := e
      cases e
      exact measureColumns_eff h e2

theorem measureDynamicsJacobian_eff {s s' : Sys G} {g g' : G} {J} (h : Inv s) (e : s.measureDynamicsJacobian g = .ok (J, s', g')) : Eff s s' := by
  unfold Sys.measureDynamicsJacobian at e
  split_ifs at e with hx
  simp only [Res.bind_eq_ok] at e
  obtain ⟨⟨J1, s1, g1⟩, e1, e⟩ := e
  cases e
  have h1 := measureColumns_eff h e1
  refine ⟨?_, h1.rot, h1.clean⟩
  have := h1.same
  cases this
  constructor <;> assumption

theorem computeAccelerations_eq {s : Sys G} (h : RotOK s.rot) (x u : DVec) (hx : x.size = 35) (hu : u.size = 48 + 12 * s.nb) :
    ∃ rt, RotOK rt ∧ s.computeAccelerations x u =
      (s.accelPure (cast x 35 hx) (s.biased (cast x 35 hx) (readInput s.nb (cast u _ hu))) (seg 3 (cast x 35 hx) iAngVel)).bind fun a =>
        .ok (a, Sys.readEfforts { s with rot := rt } (cast x 35 hx)) := by
  obtain ⟨rt, e, hr⟩ := rotation_eq h (seg 3 (cast x 35 hx) iOri) 0
  refine ⟨rt, hr, ?_⟩
  unfold Sys.computeAccelerations
  rw [dif_pos hx, dif_pos hu]
  unfold cast at e
  simp only [e]
  rfl

theorem computeAccelerations_sizes {s : Sys G} {x u : DVec} {r} (e : s.computeAccelerations x u = .ok r) : x.size = 35 ∧ u.size = 48 + 12 * s.nb := by
  unfold Sys.computeAccelerations at e
  split_ifs at e with hx hu
  exact ⟨hx, hu⟩

theorem momentaForces_eq {s : Sys G} (h : RotOK s.rot) (x u : DVec) (hx : x.size = 35) (hu : u.size = 48 + 12 * s.nb) :
    ∃ rt, RotOK rt ∧ s.momentaDotFromForces x u = (contactWrench s.model (rotationVectorToRotationMatrix (seg 3 (cast x 35 hx) iOri)) (seg 3 (cast x 35 hx) iPos)
        (s.biased (cast x 35 hx) (readInput s.nb (cast u _ hu))).contacts (s.readEfforts (cast x 35 hx)).fc (s.readEfforts (cast x 35 hx)).tc
        (seg 3 (cast x 35 hx) iUnmodeled) (seg 3 (cast x 35 hx) (iUnmodeled + 3))
        (s.biased (cast x 35 hx) (readInput s.nb (cast u _ hu))).addForce (s.biased (cast x 35 hx) (readInput s.nb (cast u _ hu))).addMoment).bind fun w =>
        .ok ((w.1 - hrp2m • gravity, w.2 - skewSymmetric (rotationVectorToRotationMatrix (seg 3 (cast x 35 hx) iOri) *ᵥ
          (s.biased (cast x 35 hx) (readInput s.nb (cast u _ hu))).com + seg 3 (cast x 35 hx) iPos) *ᵥ (hrp2m • gravity)),
          Sys.readEfforts { s with rot := rt } (cast x 35 hx)) := by
  obtain ⟨rt, e, hr⟩ := rotation_eq h (seg 3 (cast x 35 hx) iOri) 0
  refine ⟨rt, hr, ?_⟩
  unfold Sys.momentaDotFromForces
  rw [dif_pos hx, dif_pos hu]
  unfold cast at e
  simp only [e]
  rfl

theorem momentaForces_sizes {s : Sys G} {x u : DVec} {r} (e : s.momentaDotFromForces x u = .ok r) : x.size = 35 ∧ u.size = 48 + 12 * s.nb := by
  unfold Sys.momentaDotFromForces at e
  split_ifs at e with hx hu
  exact ⟨hx, hu⟩

theorem momentaKine_eq {s : Sys G} (h : RotOK s.rot) (x u : DVec) (hx : x.size = 35) (hu : u.size = 48 + 12 * s.nb) :
    ∃ rt, RotOK rt ∧ s.momentaDotFromKinematics x u =
      (s.accelPure (cast x 35 hx) (s.biased (cast x 35 hx) (readInput s.nb (cast u _ hu))) (seg 3 (cast x 35 hx) iLinVel)).bind fun a =>
        .ok (momentaDot (s.biased (cast x 35 hx) (readInput s.nb (cast u _ hu))) (rotationVectorToRotationMatrix (seg 3 (cast x 35 hx) iOri))
          (seg 3 (cast x 35 hx) iPos) (seg 3 (cast x 35 hx) iAngVel) a.1 a.2, Sys.readEfforts { s with rot := rt } (cast x 35 hx)) := by
  obtain ⟨rt, e, hr⟩ := rotation_eq h (seg 3 (cast x 35 hx) iOri) 0
  refine ⟨rt, hr, ?_⟩
  unfold Sys.momentaDotFromKinematics
  rw [dif_pos hx, dif_pos hu]
  unfold cast at e
  simp only [e]
  rfl

theorem momentaKine_sizes {s : Sys G} {x u : DVec} {r} (e : s.momentaDotFromKinematics x u = .ok r) : x.size = 35 ∧ u.size = 48 + 12 * s.nb := by
  unfold Sys.momentaDotFromKinematics at e
  split_ifs at e with hx hu
  exact ⟨hx, hu⟩

theorem forcesAndMoments_eq {s : Sys G} (h : RotOK s.rot) (x u : DVec) (hx : x.size = 35) (hu : u.size = 48 + 12 * s.nb) :
    ∃ rt, RotOK rt ∧ s.forcesAndMoments x u = (s.forcesPure (readInput s.nb (cast u _ hu)).contacts (seg 3 (cast x 35 hx) iPos) (seg 3 (cast x 35 hx) iLinVel) (seg 3 (cast x 35 hx) iOri)
        (rotationVectorToRotationMatrix (seg 3 (cast x 35 hx) iOri)) (seg 3 (cast x 35 hx) iAngVel)).bind fun w =>
          (Sys.getForces { s with fc := w.1, tc := w.2, rot := rt }).bind fun l => .ok (l, { s with fc := w.1, tc := w.2, rot := rt }) := by
  obtain ⟨rt, e, hr⟩ := rotation_eq h (seg 3 (cast x 35 hx) iOri) 0
  obtain ⟨rt', hr', ef⟩ := forces_eq (s := { s with rot := rt }) hr (readInput s.nb (cast u _ hu)).contacts (seg 3 (cast x 35 hx) iPos) (seg 3 (cast x 35 hx) iLinVel) (seg 3 (cast x 35 hx) iOri)
        (rotationVectorToRotationMatrix (seg 3 (cast x 35 hx) iOri)) (seg 3 (cast x 35 hx) iAngVel)
  refine ⟨rt', hr', ?_⟩
  unfold Sys.forcesAndMoments
  rw [dif_pos hx, dif_pos hu]
  unfold cast at e ef ⊢
  simp only [e]
  have eg : ∀ cs p v θ R ω, Sys.forcesPure { s with rot := rt } cs p v θ R ω = s.forcesPure cs p v θ R ω := 
    fun _ _ _ _ _ _ => forcesPure_congr (by constructor <;> rfl) _ _ _ _ _ _
  rw [eg] at ef
  refine (congrArg (fun r => Res.bind r _) ef).trans ?_
  cases s.forcesPure _ _ _ _ _ _ <;> rfl

theorem forcesAndMoments_sizes {s : Sys G} {x u : DVec} {r} (e : s.forcesAndMoments x u = .ok r) : x.size = 35 ∧ u.size = 48 + 12 * s.nb := by
  unfold Sys.forcesAndMoments at e
  split_ifs at e with hx hu
  exact ⟨hx, hu⟩

/-! ## Any calls -/

theorem ctor_inv (dt : ℝ) : Inv (ctor dt : Sys G) where
  mass := rfl
  rot := fun _ => rv_zero.symm
  meas := rfl
  concat := rfl
  mode := rfl
  clean := fun h => absurd h (by simp [ctor, Sensor.setMatrixMode, Sensor.ctor])

theorem update_inv {s : Sys G} (hm : s.massInv = 1 / s.mass) (hr : RotOK s.rot) (hmode : s.sensor.mode = true) : Inv s.updateMeasurementSize where
  mass := hm
  rot := hr
  meas := rfl
  concat := rfl
  mode := hmode
  clean := fun _ => by simp [Sys.updateMeasurementSize, Sensor.concatenateWithInput, accGyro]

theorem exec_inv {s s' : Sys G} {g g' : G} (op : Op G) (h : Inv s) (e : exec s g op = .ok (s', g')) : Inv s' := by
  cases op <;> simp only [exec, Res.bind_eq_ok] at e
  case stateDynamics x u =>
    obtain ⟨⟨y, s1, g1⟩, e1, e⟩ := e
    cases e
    exact (stateDynamics_eff h e1).inv h
  case measureDynamics x u k =>
    obtain ⟨⟨y, s1, g1⟩, e1, e⟩ := e
    cases e
    exact (measureDynamics_eff h e1).1.inv h
  case stateDynamicsJacobian =>
    obtain ⟨⟨y, s1, g1⟩, e1, e⟩ := e
    cases e
    exact (stateDynamicsJacobian_eff h e1).inv h
  case measureDynamicsJacobian =>
    obtain ⟨⟨y, s1, g1⟩, e1, e⟩ := e
    cases e
    exact (measureDynamicsJacobian_eff h e1).inv h
  case computeAccelerations x u =>
    obtain ⟨⟨y, s1⟩, e1, e⟩ := e
    cases e
    obtain ⟨hx, hu⟩ := computeAccelerations_sizes e1
    obtain ⟨rt, hr, e2⟩ := computeAccelerations_eq h.rot x u hx hu
    rw [e2] at e1
    obtain ⟨a, -, e1⟩ := Res.bind_eq_ok.1 e1
    cases e1
    exact ⟨h.mass, hr, h.meas, h.concat, h.mode, h.clean⟩
  case momentaDotFromForces x u =>
    obtain ⟨⟨y, s1⟩, e1, e⟩ := e
    cases e
    obtain ⟨hx, hu⟩ := momentaForces_sizes e1
    obtain ⟨rt, hr, e2⟩ := momentaForces_eq h.rot x u hx hu
    rw [e2] at e1
    obtain ⟨a, -, e1⟩ := Res.bind_eq_ok.1 e1
    cases e1
    exact ⟨h.mass, hr, h.meas, h.concat, h.mode, h.clean⟩
  case momentaDotFromKinematics x u =>
    obtain ⟨⟨y, s1⟩, e1, e⟩ := e
    cases e
    obtain ⟨hx, hu⟩ := momentaKine_sizes e1
    obtain ⟨rt, hr, e2⟩ := momentaKine_eq h.rot x u hx hu
    rw [e2] at e1
    obtain ⟨a, -, e1⟩ := Res.bind_eq_ok.1 e1
    cases e1
    exact ⟨h.mass, hr, h.meas, h.concat, h.mode, h.clean⟩
  case forcesAndMoments x u =>
    obtain ⟨⟨y, s1⟩, e1, e⟩ := e
    cases e
    obtain ⟨hx, hu⟩ := forcesAndMoments_sizes e1
    obtain ⟨rt, hr, e2⟩ := forcesAndMoments_eq h.rot x u hx hu
    rw [e2] at e1
    obtain ⟨a, -, e1⟩ := Res.bind_eq_ok.1 e1
    obtain ⟨l, -, e1⟩ := Res.bind_eq_ok.1 e1
    cases e1
    exact ⟨h.mass, hr, h.meas, h.concat, h.mode, h.clean⟩
  case setContactsNumber n => cases e; exact update_inv h.mass h.rot h.mode
  case setWithForceMeasurements b => cases e; exact update_inv h.mass h.rot h.mode
  case setWithAbsolutePosition b => cases e; exact update_inv h.mass h.rot h.mode
  case setRobotMass m => cases e; exact ⟨rfl, h.rot, h.meas, h.concat, h.mode, h.clean⟩
  all_goals (cases e; exact ⟨h.mass, h.rot, h.meas, h.concat, h.mode, h.clean⟩)

theorem fold_inv : ∀ {ops : List (Op G)} {s s' : Sys G} {g g' : G}, Inv s → ops.foldlM (fun p op => exec p.1 p.2 op) (s, g) = .ok (s', g') → Inv s'
  | [], s, s', g, g', h, e => by cases e; exact h
  | op :: ops, s, s', g, g', h, e => by
    simp only [List.foldlM_cons, Res.bind_eq_ok] at e
    obtain ⟨⟨s1, g1⟩, e1, e2⟩ := e
    exact fold_inv (exec_inv op h e1) e2

theorem run_inv {dt : ℝ} {g g' : G} {ops : List (Op G)} {s : Sys G} (h : run dt g ops = .ok (s, g')) : Inv s := fold_inv (ctor_inv dt) h

end StateObs.Elastic
