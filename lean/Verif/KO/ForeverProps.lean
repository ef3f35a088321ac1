import Verif.KO.StillProps
/-!
# Property C148: a robot that stands still, any number of estimations
-/

namespace StateObs.KO
open StateObs Matrix Rot Kine KF
open Observer

variable {nc ni : ℕ} {o o' o1 o2 oy : Observer} {c c' c1 c2 : Client} {x x' : DVec}

/-! ## Specification -/

/-- A call of the client of a robot that stands still: the data of an IMU that does not move and measures the gravity, the kinematics of a contact that has not moved, or an estimation. -/
inductive StillCall (o : Observer) (x : DVec) : Op → Prop where
  | imu (a : V3) (cov : Option (M3 × M3)) (k : Kin) (n : ℕ) (p : V3) (R : M3) (y : Option V3) (hk : k.Has ⟨some p, some R, some 0, some 0, some 0, y⟩)
      (ha : a = ((stateOri x).toMat * R)ᵀ *ᵥ ![0, 0, 9.8]) : StillCall o x (.setIMU a 0 cov k n)
  | contact (k : Kin) (n : ℕ) (vi : Visco) (l : Placed) (a b : Option V3) (hl : ContactIs o n vi l) (hk : k.Has ⟨some l.p, some l.R, some 0, some 0, a, b⟩) :
      StillCall o x (.updateContactWithNoSensor k n)
  | update : StillCall o x .update

/-- Any number of such calls, that the client may make. -/
inductive StillRun (nc ni : ℕ) (x : DVec) (c : Client) (o : Observer) : Client → Observer → Prop where
  | refl : StillRun nc ni x c o c o
  | step {c1 o1 op c2 o2} (h : StillRun nc ni x c o c1 o1) (h1 : StillCall o1 x op) (h2 : Client.Step nc ni c1 op c2) (h3 : Op.exec o1 op = .ok o2) : StillRun nc ni x c o c2 o2

/-! ## Lemmas -/

/-- The accelerations of `Resting`, without the calls. -/
def AtRest (o : Observer) (x : DVec) : Prop := ∃ W b, o.addUnmodeledAndContactWrench x (o.addForce, o.addTorque) = .ok W ∧ o.body = .ok b ∧ stateLinVel x = 0 ∧ stateAngVel x = 0 ∧
  (stateOri x).toMat *ᵥ localAngAcc b o.mass ((stateOri x).toMatᵀ *ᵥ stateAngVel x) W.1 W.2 = 0 ∧
  (stateOri x).toMat *ᵥ ((1 / o.mass) • W.1 - b.comdd - corioCentri b ((stateOri x).toMatᵀ *ᵥ stateAngVel x) + b.com ⨯₃ ((stateOri x).toMatᵀ *ᵥ 0)) - gravity = 0

theorem atRest_of (hr : Ready nc ni o) (hx : Client.StateVector nc ni x) (h : Resting o x) : AtRest o x := by
  obtain ⟨W, b, ew, eb, -, -, r3, r4, r5, r6⟩ := robotIn_value hr hx h
  exact ⟨W, b, ew, eb, r3.symm, r4.symm, r5.symm, r6.symm⟩

theorem resting_of (hr : Ready nc ni o) (hx : Client.StateVector nc ni x) (h : AtRest o x) {r : Moving6} (hrr : RobotIn o x r) : Resting o x := by
  obtain ⟨W, b, ew, eb, r1, r2, r3, r4, r5, r6⟩ := robotIn_value hr hx hrr
  obtain ⟨W', b', ew', eb', d3, d4, d5, d6⟩ := h
  obtain rfl := Res.ok.inj (ew'.symm.trans ew)
  obtain rfl := Res.ok.inj (eb'.symm.trans eb)
  rw [d5] at r5
  rw [r5, d6] at r6
  rw [d3] at r3
  rw [d4] at r4
  obtain ⟨_, _, _, _, _, _⟩ := r
  dsimp only at r1 r2 r3 r4 r5 r6
  subst r1 r2 r3 r4 r5 r6
  exact hrr

theorem AtRest.congr (h : AtRest o x) (hw : ∀ w, o'.addUnmodeledAndContactWrench x w = o.addUnmodeledAndContactWrench x w)
    (hf : o'.addForce = o.addForce) (ht : o'.addTorque = o.addTorque) (hb : o'.body = o.body) (hm : o'.mass = o.mass) : AtRest o' x := by
  obtain ⟨W, b, d1, d2, d3⟩ := h
  exact ⟨W, b, by rw [hw, hf, ht]; exact d1, by rw [hb]; exact d2, by rw [hm]; exact d3⟩

theorem forall₂_set {α β : Type} {R : α → β → Prop} {a a' : α} (ha : ∀ b, R a b → R a' b) : ∀ {l : List α} {l' : List β}, List.Forall₂ R l l' → ∀ n, l[n]? = some a →
    List.Forall₂ R (l.set n a') l'
  | _, _, .nil, n, h => by simp at h
  | _, _, .cons h t, 0, e => by
    simp at e
    subst e
    exact .cons (ha _ h) t
  | _, _, .cons h t, n + 1, e => .cons h (forall₂_set ha t n (by simpa using e))

theorem wrench_value {w W : V3 × V3} {ws : List (V3 × V3)} (h : List.Forall₂ (fun c w => Contact.Applies c x w) o.contacts ws) (e : o.addUnmodeledAndContactWrench x w = .ok W) :
    W = (w.1 + at3 x (13 + 3 * o.maxIMU), w.2 + at3 x (16 + 3 * o.maxIMU)) + ((ws.map Prod.fst).sum, (ws.map Prod.snd).sum) := by
  unfold addUnmodeledAndContactWrench at e
  simp only [Res.bind_eq_ok, unmodeledTorqueIndex, unmodeledWrenchIndex] at e
  obtain ⟨i, ⟨i0, hi0, hi⟩, f, hf, j, ⟨i1, ⟨i2, hi2, hi1⟩, hj⟩, τ, hτ, e⟩ := e
  rw [gyroBiasIndex_eq] at hi0 hi2
  cases hi
  cases hi1
  cases hj
  obtain ⟨-, rfl⟩ := hi0
  obtain ⟨-, rfl⟩ := hi2
  rw [foldl_wrench h e, seg3_eq hf, seg3_eq hτ]
  have : (13 + 3 * 0 + 3 * o.maxIMU) = 13 + 3 * o.maxIMU := by omega
  have h2 : (13 + 3 * 0 + 3 * o.maxIMU + 3) = 16 + 3 * o.maxIMU := by omega
  rw [h2, this]

theorem applies_exist (hr : Ready nc ni o) : ∃ ws, List.Forall₂ (fun c w => Contact.Applies c x w) o.contacts ws := by
  have : ∀ k ∈ o.contacts, ∃ t, Contact.Applies k x t := by
    intro k hk
    obtain ⟨i, hi⟩ := List.mem_iff_getElem?.1 hk
    by_cases hs : k.isSet = true
    · obtain ⟨vi, l, k', a, b, h1, h2, h3, h4⟩ := ContactIs.get hr hi hs
      obtain rfl := Option.some.inj (h1.symm.trans hi)
      exact ⟨_, by rw [Contact.Applies, if_pos hs]; exact ⟨_, _, _, _, _, _, h4, rfl⟩⟩
    · exact ⟨0, by rw [Contact.Applies, if_neg hs]⟩
  generalize o.contacts = L at this
  induction L with
  | nil => exact ⟨[], .nil⟩
  | cons k L ih =>
    obtain ⟨t, ht⟩ := this k (by simp)
    obtain ⟨ws, hws⟩ := ih fun k hk => this k (by simp [hk])
    exact ⟨t :: ws, .cons ht hws⟩

theorem wrench_same (hr : Ready nc ni o) (hr' : Ready nc ni o') (hx : Client.StateVector nc ni x)
    (h : ∀ ws, List.Forall₂ (fun c w => Contact.Applies c x w) o.contacts ws → List.Forall₂ (fun c w => Contact.Applies c x w) o'.contacts ws) (w : V3 × V3) :
    o'.addUnmodeledAndContactWrench x w = o.addUnmodeledAndContactWrench x w := by
  have gx := stateVector_good hx
  obtain ⟨W, ew⟩ := addWrench_live hr gx.size w
  obtain ⟨W', ew'⟩ := addWrench_live hr' gx.size w
  obtain ⟨ws, hws⟩ := applies_exist (x := x) hr
  rw [ew, ew', wrench_value hws ew, wrench_value (h ws hws) ew', hr.maxI, hr'.maxI]

/-- What holds between the calls. -/
structure Standing (nc ni : ℕ) (x : DVec) (c : Client) (o : Observer) : Prop where
  predicts : Predicts nc ni c o
  state : c.state = true
  vec : o.x = x
  synced : ∃ t, o.ekf.x = some (x, t)
  unit : Client.StateVector nc ni x
  rest : AtRest o x
  forces : ∀ n vi l, ContactIs o n vi l → contactForce ni n x = -(((stateOri x).toMat * l.R)ᵀ *ᵥ (vi.linStiff *ᵥ statePos x)) ∧
    (vi.angStiff = 0 ∨ (stateOri x).toMat = 1) ∧ contactTorque ni n x = 0
  imus : c.pending = true → ReadsGravity o x

theorem start_same : o.startNewIteration.body = o.body ∧ o.startNewIteration.mass = o.mass ∧ o.startNewIteration.addForce = o.addForce ∧ o.startNewIteration.addTorque = o.addTorque := by
  unfold startNewIteration
  split_ifs <;> exact ⟨rfl, rfl, rfl, rfl⟩

theorem known_feed (h : c.ContactsKnown) : c.feed.ContactsKnown := by
  intro n hn
  unfold Client.feed at hn ⊢
  split_ifs at hn ⊢ with hp
  · exact h n hn
  · rcases h n hn with h | h
    · exact .inl h
    · exact absurd h.1 hp

theorem feed_dyn (h : c.Dynamics) : c.feed.Dynamics := by
  unfold Client.feed
  split_ifs
  · exact h
  · exact h

theorem feed_state (h : c.state = true) : c.feed.state = true := by
  unfold Client.feed
  split_ifs
  · exact h
  · exact h

/-- The IMUs at the beginning of an iteration. -/
theorem start_reads (hsim : Sim nc ni c o) (hi : Inv nc ni o) (h : c.pending = true → ReadsGravity o x) : ReadsGravity o.startNewIteration x := by
  intro i m hm ht
  rw [start_imus] at hm
  by_cases hk : o.kEst = o.kData
  · rw [startNewIteration, if_pos hk] at ht
    have := hi.2.imuTime m (List.mem_of_getElem? hm)
    dsimp only at ht
    omega
  · rw [startNewIteration, if_neg hk] at ht
    exact h (hsim.pending.2 hk) i m hm ht

theorem Standing.predicts_step (h : Standing nc ni x c o) {op : Op} (hs : Client.Step nc ni c op c') (e : Op.exec o op = .ok o') (hd : c'.Dynamics) (hk : c'.ContactsKnown) : Predicts nc ni c' o' := by
  obtain ⟨⟨o0, ops, g1, g2, g3⟩, -, -⟩ := h.predicts
  exact ⟨⟨o0, _, g1, g2.append (.cons hs (.nil _)), run_append.2 ⟨o, g3, run_cons.2 ⟨o', e, rfl⟩⟩⟩, hd, hk⟩

theorem Standing.imu (h : Standing nc ni x c o) {a : V3} {cov : Option (M3 × M3)} {k : Kin} {n : ℕ} {p : V3} {R : M3} {y : Option V3}
    (hk : k.Has ⟨some p, some R, some 0, some 0, some 0, y⟩) (ha : a = ((stateOri x).toMat * R)ᵀ *ᵥ ![0, 0, 9.8]) (hs : Client.Step nc ni c (.setIMU a 0 cov k n) c')
    (e : Op.exec o (.setIMU a 0 cov k n) = .ok o') : Standing nc ni x c' o' := by
  obtain ⟨hi, hr, hsim⟩ := h.predicts.ready
  have hkn : c'.Dynamics ∧ c'.ContactsKnown ∧ c'.state = true ∧ n ∉ c.feed.given ∧ n < ni := by
    cases hs with
    | keeps hk => cases hk
    | imu _ _ _ _ m b hn h1 hk hp ho hv hcov =>
      exact ⟨feed_dyn h.predicts.dyn, known_feed h.predicts.known, feed_state h.state, by simpa using h1, by simpa using hn⟩
  have hp' := h.predicts_step hs e hkn.1 hkn.2.1
  obtain ⟨hi', hr', hsim'⟩ := hp'.ready
  rw [Op.exec, Res.bind_eq_ok] at e
  obtain ⟨⟨n', o''⟩, e, e2⟩ := e
  obtain rfl : o'' = o' := Res.ok.inj e2
  obtain ⟨⟨o0, ops, g1, g2, g3⟩, -, -⟩ := h.predicts
  have hni : n < ni := hkn.2.2.2.2
  obtain ⟨m, hm⟩ : ∃ m, o.imus[n]? = some m := ⟨_, List.getElem?_eq_getElem (by rw [hi.2.imuLen]; exact hni)⟩
  have hf : o.kEst = o.kData ∨ m.time < o.kData := by
    by_cases hke : o.kEst = o.kData
    · exact .inl hke
    · have hpe := hsim.pending.2 hke
      have hng := hkn.2.2.2.1
      rw [Client.feed, if_pos hpe] at hng
      have t1 : m.time ≠ o.kData := fun t => hng ((hsim.given hpe n m hm).1 t)
      have t2 := hi.2.imuTime m (List.mem_of_getElem? hm)
      exact .inr (by omega)
  obtain ⟨o2, q0, m', q1, q2, q3, y', q4⟩ := C76_complete_partial (a := a) (g := 0) (cov := cov) ⟨o0, g1, g3⟩ hm hf hk
  obtain ⟨-, rfl⟩ := Prod.mk.inj (Res.ok.inj (q0.symm.trans e))
  obtain ⟨m1, kin, c1, d1, -, -, -, -, ho⟩ := setIMU_eq q0
  obtain ⟨s1, s2, s3, s4⟩ := start_same (o := o)
  have hcon : o2.contacts = o.contacts := by rw [ho]; exact start_contacts
  refine ⟨hp', hkn.2.2.1, ?_, ?_, h.unit, ?_, ?_, fun _ => ?_⟩
  · rw [ho]; exact start_x.trans h.vec
  · obtain ⟨t, ht⟩ := h.synced
    exact ⟨t, by rw [ho]; exact (congrArg (fun q => q.x) start_ekf).trans ht⟩
  · refine h.rest.congr (wrench_same hr hr' h.unit fun ws hws => by rw [hcon]; exact hws) ?_ ?_ ?_ ?_
    · rw [ho]; exact s3
    · rw [ho]; exact s4
    · rw [ho]; exact s1
    · rw [ho]; exact s2
  · rintro i vi l ⟨k1, u, v, h1, h2⟩
    exact h.forces i vi l ⟨k1, u, v, by rw [← hcon]; exact h1, h2⟩
  · intro i mi hmi ht
    by_cases hin : i = n
    · subst hin
      obtain rfl := Option.some.inj (hmi.symm.trans q1)
      refine ⟨⟨p, R, 0, 0, 0⟩, ⟨y', q4⟩, rfl, rfl, rfl, ?_⟩
      rw [q3, ha]
      rfl
    · have hmi' : o.startNewIteration.imus[i]? = some mi := by
        rw [start_imus]
        rw [ho] at hmi
        rw [← hmi]
        exact (List.getElem?_set_ne (Ne.symm hin)).symm
      exact start_reads hsim hi h.imus i mi hmi' (by rw [ho] at ht; exact ht)

theorem Standing.contact (h : Standing nc ni x c o) {k : Kin} {n : ℕ} {vi : Visco} {l : Placed} {a b : Option V3} (hl : ContactIs o n vi l)
    (hk : k.Has ⟨some l.p, some l.R, some 0, some 0, a, b⟩) (hs : Client.Step nc ni c (.updateContactWithNoSensor k n) c')
    (e : Op.exec o (.updateContactWithNoSensor k n) = .ok o') : Standing nc ni x c' o' := by
  obtain ⟨hi, hr, hsim⟩ := h.predicts.ready
  have hkn : c'.Dynamics ∧ c'.ContactsKnown ∧ c'.state = true := by
    cases hs with
    | keeps hk => cases hk
    | contact _ m b hn hk hp ho hv =>
      refine ⟨feed_dyn h.predicts.dyn, fun i hi => ?_, feed_state h.state⟩
      rcases known_feed h.predicts.known i hi with h1 | h1
      · exact .inl h1
      · exact .inr ⟨h1.1, Finset.mem_insert_of_mem h1.2⟩
  have hp' := h.predicts_step hs e hkn.1 hkn.2.1
  obtain ⟨hi', hr', hsim'⟩ := hp'.ready
  obtain ⟨k0, kin, -, hc0, hs0, hkin, ho⟩ := updateContactWithNoSensor_eq e
  obtain ⟨s1, s2, s3, s4⟩ := start_same (o := o)
  obtain ⟨k1, u, v, h1, h2, h3, h4⟩ := hl
  obtain rfl := Option.some.inj (h1.symm.trans hc0)
  have hhas : ∃ x' y', kin.Has ⟨some l.p, some l.R, some 0, some 0, x', y'⟩ := by
    simp only [newContactKin] at hkin
    split_ifs at hkin
    · exact updateKin_given h4 hk hkin
    · cases hkin
      exact ⟨_, _, hk⟩
  obtain ⟨x', y', hhas⟩ := hhas
  have hcon : o'.contacts = o.contacts.set n { k1 with localKine := kin, time := o.startNewIteration.kData, withRealSensor := false } := by rw [ho]
  refine ⟨hp', hkn.2.2, ?_, ?_, h.unit, ?_, ?_, fun _ => ?_⟩
  · rw [ho]; exact start_x.trans h.vec
  · obtain ⟨t, ht⟩ := h.synced
    exact ⟨t, by rw [ho]; exact (congrArg (fun q => q.x) start_ekf).trans ht⟩
  · refine h.rest.congr (wrench_same hr hr' h.unit fun ws hws => ?_) ?_ ?_ ?_ ?_
    · rw [hcon]
      refine forall₂_set (fun t ht => ?_) hws n hc0
      rw [Contact.Applies, if_pos hs0] at ht
      obtain ⟨p, R, v1, w1, a1, b1, g, rfl⟩ := ht
      have := g.inj h4
      simp only [Value.mk.injEq, Option.some.injEq] at this
      obtain ⟨rfl, rfl, -⟩ := this
      rw [Contact.Applies, if_pos (by exact hs0)]
      exact ⟨_, _, _, _, _, _, hhas, rfl⟩
    · rw [ho]; exact s3
    · rw [ho]; exact s4
    · rw [ho]; exact s1
    · rw [ho]; exact s2
  · rintro i vj lj ⟨kj, u', v', j1, j2, j3, j4⟩
    rw [hcon] at j1
    by_cases hin : i = n
    · subst hin
      rw [List.getElem?_set_self (List.getElem?_eq_some_iff.1 hc0).1] at j1
      obtain rfl := Option.some.inj j1
      have := j4.inj hhas
      simp only [Value.mk.injEq, Option.some.injEq] at this
      obtain ⟨-, hR, -⟩ := this
      have := h.forces i vj l ⟨k1, u, v, hc0, hs0, j3, h4⟩
      rw [hR]
      exact this
    · rw [List.getElem?_set_ne (Ne.symm hin)] at j1
      exact h.forces i vj lj ⟨kj, u', v', j1, j2, j3, j4⟩
  · intro i mi hmi ht
    exact start_reads hsim hi h.imus i mi (by rw [ho] at hmi; exact hmi) (by rw [ho] at ht; exact ht)

theorem Standing.mayUpdate (h : Standing nc ni x c o) (hp : c.pending = true) (hm : c.contacts ⊆ c.moved) : MayUpdate nc ni c o ∧ Resting o x := by
  obtain ⟨hi, hr, hsim⟩ := h.predicts.ready
  obtain ⟨oy, y, cov, yb, -, -, -, -, ⟨r, hrr⟩, -⟩ := C108_returns h.predicts hp h.state hm h.unit
  have hx : o.getCurrentStateVector = x := h.vec
  exact ⟨⟨h.predicts, hp, h.state, hm, by rw [hx]; exact h.synced, by rw [hx]; exact h.unit⟩, resting_of hr h.unit h.rest hrr⟩

theorem afterFilter_shape {e : KFilter EKF.Ext} (h : oy.afterFilter e = .ok o') : ∃ z t k, e.x = some (z, t) ∧ o' = { oy with ekf := e, x := z, kEst := oy.kEst + 1, stateKin := k } := by
  simp only [afterFilter, Res.bind_eq_ok] at h
  obtain ⟨z, hz, o2, h2, h3⟩ := h
  obtain ⟨t, ht⟩ : ∃ t, e.x = some (z, t) := by
    cases hx : e.x with
    | none => rw [hx] at hz; cases hz
    | some q => rw [hx] at hz; cases hz; exact ⟨q.2, rfl⟩
  have e2 := updateKine_shows h2
  split_ifs at h3
  · simp only [estimateAccelerations, Res.bind_eq_ok] at h3
    obtain ⟨w, -, r, -, h4⟩ := h3
    cases h4
    exact ⟨z, t, _, ht, by rw [e2]⟩
  · cases h3
    exact ⟨z, t, _, ht, e2⟩

theorem Standing.update (h : Standing nc ni x c o) (hs : Client.Step nc ni c .update c') (e : Op.exec o .update = .ok o') : Standing nc ni x c' o' := by
  obtain ⟨hi, hr, hsim⟩ := h.predicts.ready
  rw [Op.exec] at e
  cases hs with
  | keeps hk => cases hk
  | updateIdle hp =>
    have hk : o.kEst = o.kData := by
      by_contra hk
      rw [hsim.pending.2 hk] at hp
      cases hp
    rw [Observer.update, if_neg (by simpa using hk)] at e
    cases e
    exact h
  | update hp hst hd hm =>
    obtain ⟨hmu, hrest⟩ := h.mayUpdate hp hm
    have hx : o.getCurrentStateVector = x := h.vec
    obtain ⟨o1, e1, e2, -⟩ := C148_partial hmu (by rw [hx]; exact hrest) (by rw [hx]; exact h.imus hp) (by rw [hx]; exact h.forces)
    obtain rfl := Res.ok.inj (e1.symm.trans e)
    have hp' := h.predicts_step (.update hp hst hd hm) e hd fun n hn => .inl hn
    obtain ⟨hi', hr', hsim'⟩ := hp'.ready
    have e3 := e
    rw [Observer.update, if_pos (hsim.pending.1 hp)] at e3
    simp only [Res.bind_eq_ok] at e3
    obtain ⟨⟨oy, yv, cov⟩, hb, ek, -, ha⟩ := e3
    obtain ⟨z, t, kk, hz, ho⟩ := afterFilter_shape ha
    dsimp only at ho hb
    have hx1 : o1.x = x := e2.trans hx
    have hzx : z = x := by rw [← hx1, ho]
    obtain ⟨w1, w2, w3, w4, w5, -, -⟩ := built_congr (x := x) hb
    refine ⟨hp', hst, hx1, ⟨t, by rw [ho, ← hzx]; exact hz⟩, h.unit, ?_, ?_, fun h => by cases h⟩
    · refine h.rest.congr (fun w => ?_) ?_ ?_ ?_ ?_
      · rw [← w1, ho]; rfl
      · rw [← w2, ho]
      · rw [← w3, ho]
      · rw [← w4, ho]; rfl
      · rw [← w5, ho]
    · rintro i vi l ⟨k, u, v, h1, h2⟩
      rw [ho] at h1
      exact h.forces i vi l (ContactIs.built hb ⟨k, u, v, h1, h2⟩)

/-! ## Property -/

/-- **C148** The robot of `C148_partial` does not move during any number of estimations, while the client gives the same kinematics of the contacts and the signals of IMUs that measure the gravity. -/
theorem C148_forever_partial (h : MayUpdate nc ni c o) (h0 : Resting o o.getCurrentStateVector) (hg : ReadsGravity o o.getCurrentStateVector)
    (hc : ∀ n vi l, ContactIs o n vi l → contactForce ni n o.getCurrentStateVector = -(((stateOri o.getCurrentStateVector).toMat * l.R)ᵀ *ᵥ (vi.linStiff *ᵥ statePos o.getCurrentStateVector)) ∧
      (vi.angStiff = 0 ∨ (stateOri o.getCurrentStateVector).toMat = 1) ∧ contactTorque ni n o.getCurrentStateVector = 0)
    (hr : StillRun nc ni o.getCurrentStateVector c o c' o') : o'.getCurrentStateVector = o.getCurrentStateVector ∧ o'.getStateVectorTimeIndex = .ok c'.steps := by
  obtain ⟨hi, hre, hsim⟩ := h.predicts.ready
  have : Standing nc ni o.getCurrentStateVector c' o' := by
    induction hr with
    | refl => exact ⟨h.predicts, h.state, rfl, h.synced, h.unit, atRest_of hre h.unit h0, hc, fun _ => hg⟩
    | step _ h1 h2 h3 ih =>
      cases h1 with
      | imu a cov k n p R y hk ha => exact ih.imu hk ha h2 h3
      | contact k n vi l a b hl hk => exact ih.contact hl hk h2 h3
      | update => exact ih.update h2 h3
  refine ⟨this.vec, ?_⟩
  obtain ⟨⟨o0, ops, g1, g2, g3⟩, -, -⟩ := this.predicts
  obtain ⟨o2, e2, ht, -⟩ := C84_returns g1 g2
  obtain rfl := Res.ok.inj (e2.symm.trans g3)
  exact ht

theorem feed_kept (c : Client) : c.feed.pending = true ∧ c.feed.contacts = c.contacts ∧ c.feed.steps = c.steps := by
  unfold Client.feed
  split_ifs with h
  · exact ⟨h, rfl, rfl⟩
  · exact ⟨rfl, rfl, rfl⟩

theorem Standing.iterate (h : Standing 1 1 x c o) (hm : 0 ∈ c.contacts) (T : ℕ) :
    ∃ c' o', StillRun 1 1 x c o c' o' ∧ c'.steps = c.steps + T ∧ 0 ∈ c'.contacts ∧ Standing 1 1 x c' o' := by
  induction T with
  | zero => exact ⟨c, o, .refl, rfl, hm, h⟩
  | succ T ih =>
    obtain ⟨c1, o1, r1, s1, m1, g1⟩ := ih
    obtain ⟨hi, hr, hsim⟩ := g1.predicts.ready
    obtain ⟨k0, hk0, hset⟩ : IsSet o1 0 := hsim.isSet m1
    obtain ⟨vi, l, hl⟩ := ContactIs.get hr hk0 hset
    obtain ⟨k1, u, v, h1, h2, h3, h4⟩ := id hl
    have hk : ({ k1.localKine with linVel := ⟨true, some 0⟩, angVel := ⟨true, some 0⟩ } : Kin).Has ⟨some l.p, some l.R, some 0, some 0, u, v⟩ := ⟨h4.pos, h4.ori, rfl, rfl, h4.linAcc, h4.angAcc⟩
    have t1 : Client.Step 1 1 c1 _ _ := .contact _ 0 _ m1 hk (by simp) (by simp) (.inl (by simp))
    obtain ⟨o2, e2, sim2⟩ := hsim.step t1
    have g2 := g1.contact hl hk t1 e2
    obtain ⟨f1, f2, f3⟩ := feed_kept c1
    have t2 : Client.Step 1 1 { c1.feed with moved := insert 0 c1.feed.moved } .update _ := .update f1 g2.state g2.predicts.dyn (fun n hn => by
      have := sim2.range n hn
      obtain rfl : n = 0 := by omega
      exact Finset.mem_insert_self _ _)
    obtain ⟨o3, e3, -⟩ := sim2.step t2
    refine ⟨_, o3, (r1.step (.contact _ 0 vi l _ _ hl hk) t1 e2).step .update t2 e3, ?_, ?_, g2.update t2 e3⟩
    · show c1.feed.steps + 1 = c.steps + (T + 1)
      rw [f3, s1]
      omega
    · show 0 ∈ c1.feed.contacts
      rw [f2]
      exact m1

/-- The hypotheses of `C148_forever_partial` are met for any number of estimations. -/
example (T : ℕ) : ∃ (c c' : Client) (o o' : Observer), MayUpdate 1 1 c o ∧ Resting o o.getCurrentStateVector ∧ ReadsGravity o o.getCurrentStateVector ∧
    (∀ n vi l, ContactIs o n vi l → contactForce 1 n o.getCurrentStateVector = -(((stateOri o.getCurrentStateVector).toMat * l.R)ᵀ *ᵥ (vi.linStiff *ᵥ statePos o.getCurrentStateVector)) ∧
      (vi.angStiff = 0 ∨ (stateOri o.getCurrentStateVector).toMat = 1) ∧ contactTorque 1 n o.getCurrentStateVector = 0) ∧
    StillRun 1 1 o.getCurrentStateVector c o c' o' ∧ c'.steps = c.steps + T := by
  obtain ⟨c, o, h1, h2, h3, h4, h5, -⟩ := still_example
  obtain ⟨hi, hr, hsim⟩ := h1.predicts.ready
  have hs : Standing 1 1 o.getCurrentStateVector c o := ⟨h1.predicts, h1.state, rfl, h1.synced, h1.unit, atRest_of hr h1.unit h2, h4, fun _ => h3⟩
  obtain ⟨k, _, _, k1, k2, -⟩ := h5
  obtain ⟨c', o', r, s, -⟩ := hs.iterate ((hsim.contacts 0 k k1).1 k2) T
  exact ⟨c, c', o, o', h1, h2, h3, h4, r, s⟩

end StateObs.KO
