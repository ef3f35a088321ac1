import Verif.KO.InertLemmas
import Verif.KO.StateProps
import Verif.KO.PoseProps
import Verif.KO.ClientProps
/-!
# C109: the biases of the gyrometers and the rest poses of the contacts are not estimated
-/

namespace StateObs.KO
open StateObs Matrix Rot Kine KF Observer

variable {nc ni : ℕ} {o o' : Observer}

/-- **C109** No estimation changes a bias or a rest pose, whatever the measurements: with the state vector in the filter (C104 tells when), `update()` keeps them
exactly. The covariances that the client gives have no terms between these components and the others; the default ones do not. -/
theorem C109_update_false {l : List Op} (hg : ∀ op ∈ l, op.GoodCov) (ha : ∀ op ∈ l, op.Apart ni) (h : Reachable nc ni l o)
    (hs : ∃ t, o.ekf.x = some (o.getCurrentStateVector, t)) (hu : o.update = .ok o') (c : Comp) (hc : c.inert = true) : c.Kept o o' := by
  have hi := inv_reachable h
  by_cases hk : o.kEst = o.kData
  · rw [Observer.update, if_neg (not_not.2 hk)] at hu
    cases hu
    exact fun _ => Iff.rfl
  · obtain ⟨-, x, hx, hkeep⟩ := inert_update hg h (apart_reachable hg ha h) hk hu
    obtain ⟨t, hs⟩ := hs
    rw [hs] at hx
    cases hx
    have hi' : Inv nc ni o' := inv_exec .update hi hu
    refine kept_of hi hi' c (update_exists hu c) fun he j h1 h2 => hkeep j ?_
    exact (place_iff (he.valid hi) ⟨h1, h2⟩).2 hc

/-- The biases of the state vector `x`. -/
private def Biases (ni : ℕ) (b : ℕ → V3) (x : DVec) : Prop := ∀ i, i < ni → ∀ j (hj : j < 3), at1 x (13 + 3 * i + j) = b i ⟨j, hj⟩

private theorem Biases.congr {b : ℕ → V3} {x y : DVec} (h : Biases ni b x) (e : ∀ k, 13 ≤ k → k < 13 + 3 * ni → at1 y k = at1 x k) : Biases ni b y := fun i hi j hj => by
  rw [e _ (by omega) (by omega), h i hi j hj]

private theorem addContact_bias (hi : Inv nc ni o) {pose : Kin} {cov : Option (M12 × M12)} {num : Int} {vi : Visco} {n : ℕ}
    (h : o.addContact pose cov num vi = .ok (n, o')) : o'.ekf.x = o.ekf.x ∧ ∀ j, j < 19 + 3 * ni → at1 o'.x j = at1 o.x j := by
  simp only [addContact, Res.bind_eq_ok] at h
  obtain ⟨_, -, m, hm, _, -, c, hc, _, hs, si, hsi, st, -, r0, hr0, x1, hx1, o1, ho1, o2, ho2, h⟩ := h
  cases h
  have hsi2 : si = 19 + 3 * ni := by
    simp only [contactsIndex, Res.bind_eq_ok] at hsi
    obtain ⟨i, hi2, hsi⟩ := hsi
    cases hsi
    have := unmodeledWrenchIndex_eq hi hi2
    omega
  subst hsi2
  obtain ⟨-, -, -, a1, -⟩ := setList_at1 hx1
  have g3 := (shown_withQ ho2).trans (shown_withP ho1)
  injection g3 with g4 g5
  injection g5 with g5 g6
  exact ⟨g6, fun j hj => by rw [g4]; exact a1 j (by omega)⟩

private theorem biases_step {l : List Op} (hg : ∀ op ∈ l, op.GoodCov) (ha : ∀ op ∈ l, op.Apart ni) (hc : ∀ op ∈ l, op.Coherent) (h : Reachable nc ni l o)
    (op : Op) (hop : op.Coherent) (e : op.exec o = .ok o') (h1 : Biases ni (givenBias · l) o.x) (h2 : ∀ x t, o.ekf.x = some (x, t) → Biases ni (givenBias · l) x) :
    Biases ni (givenBias · (l ++ [op])) o'.x ∧ ∀ x t, o'.ekf.x = some (x, t) → Biases ni (givenBias · (l ++ [op])) x := by
  have hi := inv_reachable h
  simp only [givenBias, List.foldl_append, List.foldl_cons, List.foldl_nil] at h1 h2 ⊢
  have sync : ∀ {b : ℕ → V3}, Synced o' → Biases ni b o'.x → Biases ni b o'.x ∧ ∀ x t, o'.ekf.x = some (x, t) → Biases ni b x := by
    rintro b ⟨t, ht⟩ hx
    refine ⟨hx, fun x s hs => ?_⟩
    rw [ht] at hs
    cases hs
    exact hx
  by_cases hs : op.setsState = false
  · have key : Biases ni (fun i => givenBias i l) o'.x ∧ ∀ x t, o'.ekf.x = some (x, t) → Biases ni (fun i => givenBias i l) x := by
      by_cases he : op = .estimateAccelerations
      · subst he
        have := (estimateAccelerations_shows (shows_reachable h hc) e).1
        rw [this]
        exact ⟨h1, h2⟩
      · have := shown_other op hs he e
        injection this with e1 e2
        injection e2 with e2 e3
        rw [e1, e3]
        exact ⟨h1, h2⟩
    cases op <;> first | exact key | cases hs
  · cases op <;> simp only [Op.setsState, not_true_eq_false] at hs <;> simp only [Op.exec] at e
    case update =>
      by_cases hk : o.kEst = o.kData
      · rw [Observer.update, if_neg (not_not.2 hk)] at e
        cases e
        exact ⟨h1, h2⟩
      · obtain ⟨-, x, hx, hkeep⟩ := inert_update hg h (apart_reachable hg ha h) hk e
        exact sync (update_shows e hk).2 ((h2 x _ hx).congr fun k g1 g2 => hkeep k (Or.inl ⟨g1, g2⟩))
    case setStateKinematics k f r =>
      obtain ⟨a, hk⟩ := hop
      have ht : (k.pos.isSet dbg && k.ori.isSet && k.linVel.isSet dbg && k.angVel.isSet dbg) = true := by
        have h2 := e
        simp only [setStateKinematics, Res.bind_eq_ok] at h2
        obtain ⟨_, h2, -⟩ := h2
        exact Res.assert_ok h2
      obtain ⟨p, R, v, w, hh⟩ := has_of_assert hk ht
      obtain ⟨q, k', -, -, -, -, -, -, g, -, gx⟩ := setStateKinematics_ok hi hh e
      refine sync g (Biases.congr h1 fun k g1 g2 => ?_)
      rw [gx k g1, if_neg]
      rintro ⟨-, hw⟩
      obtain ⟨n, -, hw, -⟩ := (inWrench_iff hi k).1 hw
      omega
    case setGyroBias b m r =>
      obtain ⟨-, -, -, g1, g2, g3⟩ := setGyroBias_ok hi e
      refine sync g1 fun i hi j hj => ?_
      rw [show biasStep i (List.foldl (biasStep i) 0 l) (.setGyroBias b m r) = if m = i then b else List.foldl (biasStep i) 0 l from rfl]
      by_cases hm : m = i
      · subst hm
        rw [if_pos rfl, g3 j hj]
      · rw [if_neg hm, g2 _ (by omega)]
        exact h1 i hi j hj
    case setStateVector v r =>
      obtain ⟨g1, -, g2⟩ := setStateVector_ok e
      refine sync g2 fun i hi j hj => ?_
      rw [g1]
      interval_cases j <;> rfl
    case setStateUnmodeledWrench w r =>
      obtain ⟨-, -, g1, g2, -⟩ := setStateUnmodeledWrench_ok hi e
      exact sync g1 (Biases.congr h1 fun k h3 h4 => g2 k (Or.inl h4))
    case addContact p c n v =>
      rw [Res.bind_eq_ok] at e
      obtain ⟨⟨m, o1⟩, e, e2⟩ := e
      cases e2
      obtain ⟨g1, g2⟩ := addContact_bias hi e
      rw [g1]
      exact ⟨Biases.congr h1 fun k h3 h4 => g2 k (by omega), h2⟩

/-- **C109** In every execution, whatever the measurements and the number of estimations, each bias of the estimate is the one the client gave last (zero if they
gave none): the estimations do not correct it. -/
theorem C109_bias_false {l : List Op} (hg : ∀ op ∈ l, op.GoodCov) (ha : ∀ op ∈ l, op.Apart ni) (hc : ∀ op ∈ l, op.Coherent)
    (h : Reachable nc ni l o) (i : ℕ) (hi : i < ni) : (Comp.gyroBias i).Is o (coords (givenBias i l)) := by
  have key : Biases ni (givenBias · l) o.x ∧ ∀ x t, o.ekf.x = some (x, t) → Biases ni (givenBias · l) x := by
    induction l using List.reverseRecOn generalizing o with
    | nil =>
      obtain ⟨o0, h0, h1⟩ := h
      cases h1
      rw [construct_eq] at h0
      simp only [Res.bind_eq_ok] at h0
      obtain ⟨o1, h1, o2, h2, h3⟩ := h0
      have e1 := (shown_resetProcessCovarianceMat h2).trans (shown_resetStateCovarianceMat h1)
      injection e1 with e1 e2
      injection e2 with e2 e3
      have hx : o.x = (base nc ni).x := by rw [updateKine_shows h3]; exact e1
      have hf : o.ekf.x = (base nc ni).ekf.x := by rw [updateKine_shows h3]; exact e3
      have hz : Biases ni (givenBias · []) (base nc ni).x := fun i hi j hj => by
        have : at1 (base nc ni).x (13 + 3 * i + j) = 0 := by
          unfold at1
          split_ifs <;> rfl
        rw [this]
        rfl
      rw [hx, hf]
      refine ⟨hz, fun x t e => ?_⟩
      cases e
      exact hz
    | append_singleton l op ih =>
      obtain ⟨o0, h0, h1⟩ := h
      obtain ⟨o1, e1, e2⟩ := run_append.1 h1
      obtain ⟨o2, e2, e3⟩ := run_cons.1 e2
      cases e3
      have hr : Reachable nc ni l o1 := ⟨o0, h0, e1⟩
      have sub : ∀ {P : Op → Prop}, (∀ p ∈ l ++ [op], P p) → ∀ p ∈ l, P p := fun hP p hp => hP p (by simp [hp])
      obtain ⟨i1, i2⟩ := ih (sub hg) (sub ha) (sub hc) hr
      exact biases_step (sub hg) (sub ha) (sub hc) hr op (hc op (by simp)) e2 i1 i2
  exact (is3 (c := .gyroBias i) (inv_reachable h) rfl _).2 ⟨hi, fun j hj => key.1 i hi j hj⟩

/-- One iteration of the example, where the gyrometer gives `g`. -/
def gyroIteration (g : V3) : List Op := [.setIMU ![0, 0, 9.8] g none atRest 0, .updateContactWithNoSensor atRest 0, .update]

private theorem gyro_iteration (hni : 0 < ni) (g : V3) {c : Client} (h : Between c) :
    ∃ c', Client.Run nc ni c (gyroIteration g) c' ∧ Between c' ∧ c'.steps = c.steps + 1 := by
  obtain ⟨h1, h2, h3, h4, h5, h6, h7⟩ := h
  have hf : c.feed = { c with pending := true, given := ∅, moved := ∅ } := by
    unfold Client.feed
    split_ifs with hp
    · cases c; simp_all
    · rfl
  refine ⟨_, .cons (.imu _ _ _ _ 0 _ hni ?_ atRest_has (by simp) (by simp) (by simp) (by simp))
    (.cons (.contact _ 0 _ ?_ atRest_has (by simp) (by simp) (Or.inl (by simp))) (.cons (.update ?_ ?_ ?_ ?_) (.nil _))), ?_, ?_⟩
  · simp [hf]
  · simp [hf, h2]
  · simp [hf, feed_mk]
  · simp [hf, feed_mk, h1]
  · exact ⟨by simp [hf, feed_mk, h7], 0, by simp [hf, feed_mk, h5], by simp [hf, feed_mk, h6, h7, effective_zero]⟩
  · simp [hf, feed_mk, h2]
  · simp [hf, feed_mk, Between, h1, h2, h5, h6, h7]
  · simp [hf, feed_mk]

private theorem gyro_iterations (hni : 0 < ni) (gs : List V3) {c : Client} (h : Between c) :
    ∃ c', Client.Run nc ni c (gs.flatMap gyroIteration) c' ∧ c'.steps = c.steps + gs.length := by
  induction gs generalizing c with
  | nil => exact ⟨c, .nil c, rfl⟩
  | cons g gs ih =>
    obtain ⟨c1, r1, b1, s1⟩ := gyro_iteration (nc := nc) hni g h
    obtain ⟨c2, r2, s2⟩ := ih b1
    exact ⟨c2, by rw [List.flatMap_cons]; exact r1.append r2, by rw [List.length_cons]; omega⟩

/-- A client in the conditions of C109, and what they get: an IMU whose gyrometer gives any rates during any number of iterations, all estimated, and the bias of
the estimate is zero at the end. -/
theorem C109_example (hnc : 0 < nc) (hni : 0 < ni) (gs : List V3) : ∃ o, Reachable nc ni (exampleStart nc ni ++ gs.flatMap gyroIteration) o ∧
    o.getStateVectorTimeIndex = .ok gs.length ∧ (∀ op ∈ exampleStart nc ni ++ gs.flatMap gyroIteration, op.GoodCov ∧ op.Apart ni ∧ op.Coherent) ∧
    (Comp.gyroBias 0).Is o [0, 0, 0] := by
  obtain ⟨c0, r0, s0, b0⟩ := example_between (nc := nc) hnc hni 0
  obtain ⟨c, r, s⟩ := gyro_iterations (nc := nc) hni gs b0
  obtain ⟨o0, h⟩ := (C53_constructible nc ni).2 hni
  have r0 : Client.Run nc ni Client.new (exampleStart nc ni) c0 := by simpa using r0
  obtain ⟨o, e, ht, -⟩ := C84_returns h (r0.append r)
  have hr : Reachable nc ni (exampleStart nc ni ++ gs.flatMap gyroIteration) o := ⟨o0, h, e⟩
  have hl : ∀ op ∈ exampleStart nc ni ++ gs.flatMap gyroIteration, op.GoodCov ∧ op.Apart ni ∧ op.Coherent := by
    intro op hop
    simp only [exampleStart, gyroIteration, List.cons_append, List.nil_append, List.mem_cons, List.mem_flatMap, List.not_mem_nil, or_false] at hop
    rcases hop with rfl | rfl | rfl | ⟨g, -, rfl | rfl | rfl⟩ <;> simp [Op.GoodCov, Op.Apart, Op.Coherent]
  refine ⟨o, hr, by rw [ht, s, s0, Nat.zero_add], hl, ?_⟩
  have := C109_bias_false (fun op ho => (hl op ho).1) (fun op ho => (hl op ho).2.1) (fun op ho => (hl op ho).2.2) hr 0 hni
  have hb : givenBias 0 (exampleStart nc ni ++ gs.flatMap gyroIteration) = 0 := by
    have key : ∀ (gs : List V3) (b : V3), (gs.flatMap gyroIteration).foldl (biasStep 0) b = b := by
      intro gs
      induction gs with
      | nil => exact fun b => rfl
      | cons g gs ih => exact fun b => by rw [List.flatMap_cons, List.foldl_append]; exact ih b
    rw [givenBias, List.foldl_append, key]
    apply ext3 <;> simp [exampleStart, biasStep, at1]
  rw [hb] at this
  simpa [coords] using this

/-- The conditions of `C109_update_false` are met at every estimation of this client but the first (before it, `addContact` has changed the state vector, see C104). -/
theorem C109_update_example (hnc : 0 < nc) (hni : 0 < ni) (g g' : V3) : ∃ o o', Reachable nc ni (exampleStart nc ni ++ gyroIteration g ++ (gyroIteration g').dropLast) o ∧
    (∃ t, o.ekf.x = some (o.getCurrentStateVector, t)) ∧ o.kEst ≠ o.kData ∧ o.update = .ok o' ∧ Exists o ni (.contactPosition 0) := by
  obtain ⟨c0, r0, s0, b0⟩ := example_between (nc := nc) hnc hni 0
  obtain ⟨c1, r1, b1, -⟩ := gyro_iteration (nc := nc) hni g b0
  obtain ⟨c2, r2, b2, -⟩ := gyro_iteration (nc := nc) hni g' b1
  obtain ⟨a, h⟩ := (C53_constructible nc ni).2 hni
  have r0 : Client.Run nc ni Client.new (exampleStart nc ni) c0 := by simpa using r0
  obtain ⟨a', e, -, hm, -⟩ := C84_returns h ((r0.append r1).append r2)
  obtain ⟨a3, e, f⟩ := run_append.1 e
  obtain ⟨a0, e, k⟩ := run_append.1 e
  obtain ⟨p1, k1, k⟩ := run_cons.1 k
  obtain ⟨p2, k2, k⟩ := run_cons.1 k
  obtain ⟨p3, k3, k⟩ := run_cons.1 k
  cases k
  obtain ⟨q1, f1, f⟩ := run_cons.1 f
  obtain ⟨q2, f2, f⟩ := run_cons.1 f
  obtain ⟨q3, f3, f⟩ := run_cons.1 f
  cases f
  have clock : ∀ {l : List Op} {a b c : Observer}, Reachable nc ni l a → ∀ {x y : V3}, Op.exec a (.setIMU x y none atRest 0) = .ok b →
      Op.exec b (.updateContactWithNoSensor atRest 0) = .ok c → c.kEst ≠ c.kData := by
    intro l a b c hr x y e1 e2
    have hi := inv_exec _ (inv_reachable hr) e1
    have hk := (clock_exec hi _ e2 (by simp)).2.1 trivial
    have hE := (clock_exec hi _ e2 (by simp)).1
    omega
  have h0 : Reachable nc ni (exampleStart nc ni) a0 := ⟨a, h, e⟩
  have h3 : Reachable nc ni (exampleStart nc ni ++ gyroIteration g) a3 := ⟨a, h, run_append.2 ⟨a0, e, run_cons.2 ⟨p1, k1, run_cons.2 ⟨p2, k2, run_cons.2 ⟨a3, k3, rfl⟩⟩⟩⟩⟩
  have y3 : Synced a3 := (update_shows k3 (clock h0 k1 k2)).2
  have y1 : Synced q1 := y3.shown (shown_other _ rfl (by simp) f1)
  have y2 : Synced q2 := y1.shown (shown_other _ rfl (by simp) f2)
  refine ⟨q2, a', ?_, y2, clock h3 f1 f2, f3, ?_⟩
  · obtain ⟨a'', ha, hb⟩ := h3
    exact ⟨a'', ha, run_append.2 ⟨a3, hb, run_cons.2 ⟨q1, f1, run_cons.2 ⟨q2, f2, rfl⟩⟩⟩⟩
  · have : 0 ∈ a'.getListOfContacts := (hm 0).2 (by rw [b2.2.1]; simp)
    exact (update_isSet f3 0).1 ((mem_list _ _).1 this)

end StateObs.KO
