import Verif.KO.SensorLemmas
import Verif.KO.PredictProps
import Verif.KO.MeasProps
import Verif.Kin.ProdProps
/-!
# C108: the measurements that the kinetics observer predicts
-/

namespace StateObs.KO
open StateObs Matrix Rot Kine KF
open Observer

variable {nc ni : ℕ} {o o' oy : Observer} {c : Client} {x x' yb : DVec}

/-! ## Lemmas -/

theorem built_congr {y : DVec} {cov : DMat} (hb : o.buildMeasurement = .ok (oy, y, cov)) : (∀ w, oy.addUnmodeledAndContactWrench x w = o.addUnmodeledAndContactWrench x w) ∧
    oy.addForce = o.addForce ∧ oy.addTorque = o.addTorque ∧ oy.body = o.body ∧ oy.mass = o.mass ∧ oy.kData = o.kData ∧ oy.abs.time = o.abs.time := by
  obtain ⟨imus, contacts, abs, a, b, rfl, f1, f2, f3⟩ := buildMeasurement_ok hb
  refine ⟨fun w => ?_, rfl, rfl, rfl, rfl, rfl, f3⟩
  unfold addUnmodeledAndContactWrench
  congr 1; funext i
  congr 1; funext f
  congr 1; funext j
  congr 1; funext t
  exact addWrench_congr f2

theorem built_tiles {y : DVec} {cov : DMat} (hb : o.buildMeasurement = .ok (oy, y, cov)) :
    ∃ s e, TiledI o.kData oy.imus 0 s ∧ TiledC oy.contacts s e ∧ (∀ c ∈ o.contacts, c.isSet = true → c.time = o.kData) := by
  simp only [buildMeasurement, Res.bind_eq_ok] at hb
  obtain ⟨_, h0, n', -, i, p1, c, p2, a, p3, y', -, p4⟩ := hb
  cases p4
  refine ⟨_, _, packIMUs_tiled p1, packContacts_tiled p2, fun c hc hs => ?_⟩
  have := List.all_eq_true.1 (Res.assert_ok h0) c hc
  simpa [hs] using this

theorem motion_unique {P Q : Motion} (hR : ∀ t, P.R t = Q.R t) (hp : ∀ t, P.p t = Q.p t) (t : ℝ) : P.a t = Q.a t ∧ P.ω t = Q.ω t := by
  have ep : P.p = Q.p := funext hp
  have eR : P.R = Q.R := funext hR
  have ev : P.v = Q.v := funext fun t => (P.dp t).unique (by rw [ep]; exact Q.dp t)
  refine ⟨(P.dv t).unique (by rw [ev]; exact Q.dv t), ?_⟩
  have key : ∀ u, P.ω t ⨯₃ u = Q.ω t ⨯₃ u := fun u => by
    have h1 := P.turns t ((P.R t)ᵀ *ᵥ u)
    have h2 := Q.turns t ((P.R t)ᵀ *ᵥ u)
    rw [← eR] at h2
    have h3 := h1.unique h2
    rwa [mulVec_mulVec, mul_eq_one_comm.1 (P.rot t).1, one_mulVec] at h3
  have k0 := key ![1, 0, 0]
  have k1 := key ![0, 1, 0]
  have a1 := congrFun k0 1
  have a2 := congrFun k0 2
  have a3 := congrFun k1 2
  simp [cross_apply] at a1 a2 a3
  apply ext3 <;> assumption

theorem composed {M N P : Motion} (hP : ∀ t, P.R t = M.R t * N.R t ∧ P.p t = M.p t + M.R t *ᵥ N.p t) (t : ℝ) :
    P.a t = M.R t *ᵥ N.a t + M.α t ⨯₃ (M.R t *ᵥ N.p t) + M.ω t ⨯₃ (M.ω t ⨯₃ (M.R t *ᵥ N.p t) + M.R t *ᵥ N.v t + M.R t *ᵥ N.v t) + M.a t ∧
    P.ω t = M.R t *ᵥ N.ω t + M.ω t := by
  obtain ⟨Q, h1, h2⟩ := Kin.C48_product M N
  have hv : ∀ M : Motion, ∃ k : Kin, k.Has (M.at t) := fun M =>
    ⟨⟨⟨true, some (M.p t)⟩, ⟨⟨false, none⟩, ⟨true, some (M.R t)⟩⟩, ⟨true, some (M.v t)⟩, ⟨true, some (M.ω t)⟩, ⟨true, some (M.a t)⟩, ⟨true, some (M.α t)⟩⟩, rfl, Ori.rep_m (M.rot t), rfl, rfl, rfl, rfl⟩
  obtain ⟨k1, hk1⟩ := hv M
  obtain ⟨k2, hk2⟩ := hv N
  obtain ⟨k, _, _, e, hk, -⟩ := h2 t k1 k2 hk1 hk2
  obtain ⟨g, _, _, eg, hg, -⟩ := Kin.product_spec (k := Kin.new) hk1 hk2 rfl (Or.inl rfl)
  rw [Kin.product, eg] at e
  cases e
  have hv := hk.inj hg
  obtain ⟨a1, a2⟩ := motion_unique (P := P) (Q := Q) (fun t => by rw [(hP t).1, (h1 t).1]) (fun t => by rw [(hP t).2, (h1 t).2]) t
  rw [a1, a2]
  exact ⟨Option.some.inj (congrArg Value.linAcc hv), Option.some.inj (congrArg Value.angVel hv)⟩

theorem imuReadings_congr {f : ℕ → List ℝ} {k : Int} : ∀ {L L' : List IMU} {n : ℕ}, List.Forall₂ (fun m m' => ∃ j, m' = { m with measIndex := j }) L L' →
    imuReadings f k n L' = imuReadings f k n L
  | _, _, _, .nil => rfl
  | _, _, n, .cons ⟨j, hj⟩ t => by subst hj; unfold imuReadings; rw [imuReadings_congr t]
theorem contactReadings_congr {f : ℕ → List ℝ} : ∀ {L L' : List Contact} {n : ℕ}, List.Forall₂ (fun m m' => ∃ j, m' = { m with measIndex := j }) L L' →
    contactReadings f n L' = contactReadings f n L
  | _, _, _, .nil => rfl
  | _, _, n, .cons ⟨j, hj⟩ t => by subst hj; unfold contactReadings; rw [contactReadings_congr t]

/-- After the first half of an estimation, the sensors have their places. -/
theorem built_packed {y : DVec} {cov : DMat} (hi : Inv nc ni o) (hc : CanUpdate nc ni o) (hb : o.buildMeasurement = .ok (oy, y, cov)) :
    Ready nc ni oy ∧ Packed oy y.size := by
  obtain ⟨-, -, hys, hms, -, -⟩ := buildMeasurement_holds hb
  have hys := hys.trans hms
  rw [if_neg hc.abs, Nat.add_zero] at hys
  have hb' := hb
  simp only [buildMeasurement, Res.bind_eq_ok] at hb'
  obtain ⟨_, -, n', -, i, p1, c, p2, a, p3, y', -, p4⟩ := hb'
  rw [packPose, if_neg hc.abs] at p3
  cases p3
  have t1 := packIMUs_tiled p1
  have t2 := packContacts_tiled p2
  have f1 := packIMUs_forall p1
  have f2 := packContacts_forall p2
  obtain ⟨g1, g2⟩ := packIMUs_holds (l := []) (bl := []) ⟨Buf.Holds.new n'.1, rfl, CovHolds.zero n'.2, rfl, rfl⟩ p1
  obtain ⟨g3, g4⟩ := packContacts_holds g1 p2
  cases p4
  refine ⟨hc.ready.congr rfl rfl f1.length_eq.symm (fun c' h' => forall₂_mem f2 c' h') rfl rfl, hc.run, hc.abs, ?_, ?_, ⟨i.2.cur, t1, ?_⟩, ?_, ?_⟩
  · have cnt : i.1.countP (fun m => decide (m.time = o.kData)) = o.imus.countP (fun m => decide (m.time = o.kData)) :=
      forall₂_countP (fun m m' h => by obtain ⟨j, rfl⟩ := h; rfl) f1
    show 6 * i.1.countP (fun m => decide (m.time = o.kData)) + o.nReal.toNat * 6 = _
    rw [cnt, hc.nReal, hys]
    omega
  · show 0 ≤ o.nReal
    rw [hc.nReal]; omega
  · have h6 := g3.cur
    rw [List.length_append, g4, List.nil_append, g2] at h6
    have : c.2.cur = y.size := by rw [hys]; omega
    rw [← this]
    exact t2
  · intro m hm ht
    obtain ⟨m0, h0, j, rfl⟩ := forall₂_mem f1 m hm
    exact (hc.imus m0 h0 ht).kin
  · intro m hm ht
    obtain ⟨m0, h0, j, rfl⟩ := forall₂_mem f2 m hm
    have hs := hi.2.conSensor m0 h0 ht
    exact ⟨hs, hc.contacts m0 h0 hs⟩

/-! ## Properties -/

/-- **C108**, what is computed: the measurement predicted for a state vector is, for each IMU of the iteration, the acceleration of its origin and the gravity, and then its
angular velocity, in its frame; and for each contact with a sensor, the wrench of the contact in the state vector. They are in the order of the numbers, as the signals (C85).
The biases of the gyrometers are not added. -/
theorem C108_computed_partial {ops : List Op} {y : DVec} {cov : DMat} {r : Moving6} {l : ℕ → Mounted} (h : Reachable nc ni ops o) (hp : o.abs.time ≠ o.kData)
    (hb : o.buildMeasurement = .ok (oy, y, cov)) (hm : oy.measureDynamics x o.kData = .ok yb) (hq : (stateOri x).normSq = 1) (hr : RobotIn o x r)
    (hl : ∀ (i : ℕ) (m : IMU), o.imus[i]? = some m → m.time = o.kData → m.MountedAt (l i)) : Readings ni o x r l (fun i => gyrometer r (l i)) yb := by
  obtain ⟨w1, w2, w3, w4, w5, w6, w7⟩ := built_congr (x := x) hb
  obtain ⟨s, e, t1, t2, t3⟩ := built_tiles hb
  have hi := inv_reachable h
  have hiy := (inv_buildMeasurement hi hb).1
  obtain ⟨imus, contacts, abs, a, b, hoy, f1, f2, f3⟩ := buildMeasurement_ok hb
  have eI : oy.imus = imus := by rw [hoy]
  have eC : oy.contacts = contacts := by rw [hoy]
  simp only [measureDynamics, Res.bind_eq_ok] at hm
  obtain ⟨n, hn, k, ek, ⟨b1, k1⟩, e1, b2, e2, b3, e3, ed⟩ := hm
  have hk := stateKine_value hq hr w1 w2 w3 w4 w5 ek
  obtain ⟨p1, p2, p3⟩ := measureIMUs_value (o := oy) (n := 0) (l := l) (Buf.Holds.new n) hk (by rw [w6]; exact t1) (fun i m h1 h2 => by
    rw [eI] at h1
    obtain ⟨m0, h3, j, rfl⟩ := forall₂_get f1 i m h1
    rw [Nat.zero_add]
    exact hl i m0 h3 (by rw [← w6]; exact h2)) e1
  obtain ⟨p4, p5⟩ := measureContacts_value (o := oy) (ni := ni) (n := 0) p1 (by rw [p2]; exact t2) (fun i c h1 h2 => by
    have hs := hiy.2.conSensor c (List.mem_of_getElem? h1) h2
    refine ⟨hs, ?_, ?_⟩
    · rw [eC] at h1
      obtain ⟨c0, h3, j, rfl⟩ := forall₂_get f2 i c h1
      rw [w6]
      exact t3 c0 (List.mem_of_getElem? h3) hs
    · rw [Nat.zero_add]
      exact (contact_index hiy h1 hs).1) e2
  rw [measurePose, if_neg (by rw [w7]; exact hp)] at e3
  cases e3
  obtain ⟨-, -, hd⟩ := p4.done ed
  rw [Readings, hd, List.nil_append, w6, eI, eC, imuReadings_congr f1, contactReadings_congr f2]

/-- **C108** The acceleration of the specification is the one of the origin of the frame of the sensor, and the angular velocity its angular velocity: for every motion of
the robot, and of the sensor in the robot, with the given kinematics, the accelerometer measures the second derivative of the position of the sensor and the gravity, and the
gyrometer its angular velocity, in the frame of the sensor. -/
theorem C108_physics {M N P : Motion} (hP : ∀ t, P.R t = M.R t * N.R t ∧ P.p t = M.p t + M.R t *ᵥ N.p t) (t : ℝ) :
    accelerometer ⟨M.p t, M.R t, M.v t, M.ω t, M.a t, M.α t⟩ ⟨N.p t, N.R t, N.v t, N.ω t, N.a t⟩ = (P.R t)ᵀ *ᵥ (P.a t + ![0, 0, 9.8]) ∧
    gyrometer ⟨M.p t, M.R t, M.v t, M.ω t, M.a t, M.α t⟩ ⟨N.p t, N.R t, N.v t, N.ω t, N.a t⟩ = (P.R t)ᵀ *ᵥ P.ω t := by
  obtain ⟨h1, h2⟩ := composed hP t
  constructor
  · rw [accelerometer, originAcc, h1, (hP t).1]
    congr 2
    rw [two_smul]
    simp only [cross_add]
    abel
  · rw [gyrometer, h2, (hP t).1, add_comm]

/-- **C108** A client that can make an estimation gets, for every state vector with a unit quaternion, a predicted measurement of the size of the signals. -/
theorem C108_returns (h : Predicts nc ni c o) (hp : c.pending = true) (hs : c.state = true) (hc : c.contacts ⊆ c.moved) (hx : Client.StateVector nc ni x) :
    ∃ oy y cov yb, o.buildMeasurement = .ok (oy, y, cov) ∧ oy.measureDynamics x o.kData = .ok yb ∧ yb.size = y.size ∧ o.abs.time ≠ o.kData ∧ (∃ r, RobotIn o x r) ∧
      ∃ l : ℕ → Mounted, ∀ (i : ℕ) (m : IMU), o.imus[i]? = some m → m.time = o.kData → m.MountedAt (l i) := by
  obtain ⟨hi, hr, hsim⟩ := h.ready
  have hg := stateVector_good hx
  have hrun := hsim.pending.1 hp
  have hall : ∀ k ∈ o.contacts, k.isSet = true → k.time = o.kData := by
    intro k hk hks
    obtain ⟨i, hi⟩ := List.mem_iff_getElem?.1 hk
    exact hsim.moved hp i k hi (hc ((hsim.contacts i k hi).1 hks))
  have hcu := hsim.fed.canUpdate hr.body (hsim.state hs).1 hrun hall
  obtain ⟨oy, y, cov, hb⟩ := buildMeasurement_live hcu
  obtain ⟨hry, hpk⟩ := built_packed hi hcu hb
  obtain ⟨yb, e, hz⟩ := measureDynamics_live hry hpk hg
  rw [(built_congr (x := x) hb).2.2.2.2.2.1] at e
  refine ⟨oy, y, cov, yb, hb, e, hz, hcu.abs, ?_, ?_⟩
  · obtain ⟨ek, e1⟩ := setStateVector_eq hi hg.size
    obtain ⟨W, ew⟩ := addWrench_live hr hg.size (o.addForce, o.addTorque)
    obtain ⟨⟨xa, ha⟩, ⟨xb, hb⟩⟩ := hsim.acc
    have hq : (stateOri x).normSq = 1 := by
      have := hg.quat
      simp only [UnitAt] at this
      show Quat.normSq ⟨at1 x 6, at1 x 3, at1 x 4, at1 x 5⟩ = 1
      simp only [Quat.normSq]
      linarith
    have hk : (loaded o.stateKin x).Has ⟨some (at3 x 0), some (stateOri x).toMat, some (at3 x 7), some (at3 x 10), xa, xb⟩ := ⟨rfl, Ori.rep_q (q := stateOri x) hq rfl, rfl, rfl, ha, hb⟩
    obtain ⟨b, hbd, hm, hd⟩ := hr.body
    obtain ⟨a, α, k', ec, hk'⟩ := computeAccelerations_live (F := W.1) (M := W.2) hk hbd hm hd
    refine ⟨⟨at3 x 0, (stateOri x).toMat, at3 x 7, at3 x 10, a, α⟩, _,
      { o with x := x, ekf := ek, stateKin := { k' with linAcc := k'.linAcc.assign a, angAcc := k'.angAcc.assign α } }, e1, ?_, ⟨hk'.pos, hk'.ori, hk'.linVel, hk'.angVel, rfl, rfl⟩⟩
    have ew' : addUnmodeledAndContactWrench { o with x := x, ekf := ek, stateKin := loaded o.stateKin x } x (o.addForce, o.addTorque) = .ok W := ew
    have ec' : computeAccelerations { o with x := x, ekf := ek, stateKin := loaded o.stateKin x } (loaded o.stateKin x) W.1 W.2 = .ok (a, α, k') := ec
    simp only [estimateAccelerations, ew', Res.ok_bind, ec']
  · have : ∀ i : ℕ, ∃ l : Mounted, ∀ m : IMU, o.imus[i]? = some m → m.time = o.kData → m.MountedAt l := by
      intro i
      by_cases hh : ∃ m, o.imus[i]? = some m ∧ m.time = o.kData
      · obtain ⟨m, h1, h2⟩ := hh
        obtain ⟨p, R, v, w, a, y, hk⟩ := (hcu.imus m (List.mem_of_getElem? h1) h2).kin
        refine ⟨⟨p, R, v, w, a⟩, fun m' h3 _ => ?_⟩
        rw [h1] at h3
        cases h3
        exact ⟨y, hk⟩
      · exact ⟨⟨0, 0, 0, 0, 0⟩, fun m h1 h2 => absurd ⟨m, h1, h2⟩ hh⟩
    choose l hl using this
    exact ⟨l, hl⟩

/-! ## Cases -/

/-- A client in the middle of an iteration, with an IMU, a contact and any state vector. -/
theorem C108_example (hnc : 0 < nc) (hni : 0 < ni) (a g : V3) : ∃ c o m, Predicts nc ni c o ∧ c.pending = true ∧ c.state = true ∧ c.contacts ⊆ c.moved ∧ o.imus[0]? = some m ∧
    m.time = o.kData := by
  obtain ⟨c0, r0, s0, h1, h2, h3, h4, h5, h6, h7⟩ := example_between (nc := nc) hnc hni 0
  have hf : c0.feed = { c0 with pending := true, given := ∅, moved := ∅ } := by
    unfold Client.feed
    split_ifs with hp
    · cases c0; simp_all
    · rfl
  obtain ⟨c, hr, p1, p2, p3, p4, p5, p6⟩ : ∃ c, Client.Run nc ni c0 [.setIMU a g none atRest 0, .updateContactWithNoSensor atRest 0] c ∧ c.pending = true ∧ c.state = true ∧
      c.contacts ⊆ c.moved ∧ 0 ∈ c.given ∧ c.Dynamics ∧ c.ContactsKnown := by
    refine ⟨_, .cons (.imu _ _ _ _ 0 _ hni ?_ atRest_has (by simp) (by simp) (by simp) (by simp))
      (.cons (.contact _ 0 _ ?_ atRest_has (by simp) (by simp) (Or.inl (by simp))) (.nil _)), ?_, ?_, ?_, ?_, ?_, ?_⟩
    · simp [hf]
    · simp [hf, h2]
    · simp [hf, feed_mk]
    · simp [hf, feed_mk, h1]
    · simp [hf, feed_mk, h2]
    · simp [hf, feed_mk]
    · exact ⟨by simp [hf, feed_mk, h7], 0, by simp [hf, feed_mk, h5], by simp [hf, feed_mk, h6, h7, effective_zero]⟩
    · intro n hn
      simp only [hf, feed_mk, h2, Finset.mem_singleton] at hn
      exact Or.inr ⟨by simp [hf, feed_mk], by simp [hf, feed_mk, hn]⟩
  obtain ⟨o0, h⟩ := (C53_constructible nc ni).2 hni
  obtain ⟨o, e, hs⟩ := (Sim.new h).run (r0.append hr)
  have hlen : 0 < o.imus.length := by rw [hs.fed.inv.2.imuLen]; exact hni
  refine ⟨c, o, o.imus[0], ⟨⟨o0, _, h, r0.append hr, e⟩, p5, p6⟩, p1, p2, p3, List.getElem?_eq_getElem hlen, ?_⟩
  exact (hs.given p1 0 _ (List.getElem?_eq_getElem hlen)).2 p4

/-- A state vector with a bias. -/
def biasedState (nc ni : ℕ) : DVec := ⟨19 + ni * 3 + nc * 13, fun i => if i.1 = 6 ∨ i.1 = 13 then 1 else 0⟩

theorem biasedState_ok : Client.StateVector nc ni (biasedState nc ni) := ⟨fun i => if i = 6 ∨ i = 13 then 1 else 0, rfl, by simp⟩

/-- **C108** as it is expected does not hold: the predicted signals of the gyrometers are without the biases of the state vector. -/
theorem C108_false : ¬C108_statement := by
  intro hst
  obtain ⟨c, o, m, hp, h1, h2, h3, hm, ht⟩ := C108_example (nc := 1) (ni := 1) one_pos one_pos 0 0
  obtain ⟨oy, y, cov, yb, hb, e, -, ha, ⟨r, hr⟩, l, hl⟩ := C108_returns hp h1 h2 h3 biasedState_ok
  obtain ⟨hi, -, hsim⟩ := hp.ready
  obtain ⟨⟨o0, ops, g1, -, g2⟩, -, -⟩ := hp
  have hre : Reachable 1 1 ops o := ⟨o0, g1, g2⟩
  have hq : (stateOri (biasedState 1 1)).normSq = 1 := by
    simp [stateOri, entry, biasedState, Quat.normSq]
  have r1 := hst 1 1 ops o oy y cov (biasedState 1 1) yb r l hre (hsim.pending.1 h1) ha hb e hq hr hl
  have r2 := C108_computed_partial hre ha hb e hq hr hl
  rw [Readings] at r1 r2
  obtain ⟨m0, L, hL⟩ : ∃ m0 L, o.imus = m0 :: L := by
    cases hh : o.imus with
    | nil => rw [hh] at hm; cases hm
    | cons a b => exact ⟨a, b, rfl⟩
  rw [hL] at hm
  obtain rfl : m0 = m := Option.some.inj hm
  rw [hL] at r1 r2
  rw [r2] at r1
  simp only [imuReadings, if_pos ht, List.append_assoc] at r1
  obtain ⟨-, r1⟩ := List.append_inj r1 (by simp)
  obtain ⟨r1, -⟩ := List.append_inj r1 (by simp)
  have r3 := congrFun (List.ofFn_injective r1) 0
  have : stateBias 0 (biasedState 1 1) 0 = 1 := by simp [stateBias, at3, biasedState]
  simp only [Pi.add_apply, this] at r3
  linarith

end StateObs.KO
