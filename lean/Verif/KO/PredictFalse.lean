import Verif.KO.PredictProps
import Verif.KO.PoseProps
import Verif.KO.ClientProps
/-!
# C106: the predicted wrench is not the one of the spring and the damper at the contact
-/

namespace StateObs.KO
open StateObs Matrix Rot Kine KF Observer

variable {nc ni : ℕ} {o o' : Observer}

theorem updateKin_update {k n k' : Kin} {dt : ℝ} {f : KFlags} (h : updateKin k n dt f = .ok k') : k.update n dt f = .ok k' := by
  simp only [updateKin, Res.bind_eq_ok] at h
  obtain ⟨_, -, _, -, h⟩ := h
  split_ifs at h
  exact h

theorem updateKin_given {k n k' : Kin} {a : Value} {p v w : V3} {R : M3} {x y : Option V3} {dt : ℝ} (ha : k.Has a) (hn : n.Has ⟨some p, some R, some v, some w, x, y⟩)
    (h : updateKin k n dt localKineFlags = .ok k') : ∃ x' y', k'.Has ⟨some p, some R, some v, some w, x', y'⟩ := by
  have e := updateKin_update h
  obtain ⟨k2, c, e2, hc⟩ := (Kin.C52_defined k n a _ ha hn localKineFlags dt).2 (by
    simp [Value.Deducible, localKineFlags, DeduciblePos, DeducibleVel, DeducibleAcc])
  obtain rfl := Res.ok.inj (e2.symm.trans e)
  obtain ⟨h1, h2, -, h4, h5, -⟩ := Kin.C52_provided k n k2 a _ c ha hn localKineFlags dt e hc
  refine ⟨c.linAcc, c.angAcc, ?_⟩
  have e1 := h1 rfl rfl
  have e2 := h2 rfl rfl
  have e4 := h4 rfl rfl
  have e5 := h5 rfl rfl
  simp only at e1 e2 e4 e5
  rw [← e1, ← e2, ← e4, ← e5]
  exact hc

/-- The given orientation is copied, with its quaternion. -/
theorem updateKin_quaternion {k n k' : Kin} {dt : ℝ} (hn : n.ori.isQuaternionSet = true) (h : updateKin k n dt localKineFlags = .ok k') :
    k'.ori.isQuaternionSet = true := by
  have e := updateKin_update h
  have hs : n.ori.isSet = true := by simp [Ori.isSet, hn]
  simp only [Kin.update, Kin.updateAng, localKineFlags, hs, Kin.posMethod, if_true, Res.ok_bind, Kin.angOri, Res.bind_eq_ok] at e
  obtain ⟨_, -, _, ⟨_, -, _, -, _, -, _, -, _, -, _, -, e1⟩, e2⟩ := e
  cases e1
  cases e2
  exact hn

/-- The state of the example: the robot at the origin, the rest pose of the contact `p` away. -/
noncomputable def awayState (p : ℝ) : DVec := ⟨19 + 1 * 3 + 1 * 13, fun i => if i.val = 6 ∨ i.val = 28 then 1 else if i.val = 22 then p else 0⟩

theorem predict_full (p : ℝ) : ∃ (c : Client) (o : Observer) (l : Placed), Predicts 1 1 c o ∧ c.state = true ∧ o.getCurrentStateVector = awayState p ∧
    Client.StateVector 1 1 (awayState p) ∧ ContactIs o 0 ⟨1, 1, 1, 1⟩ l ∧ l.p = 0 ∧ l.R = 1 ∧ l.v = 0 ∧ l.w = 0 ∧
    (∃ k, o.contacts[0]? = some k ∧ k.localKine.ori.isQuaternionSet = true) ∧ c.pending = true ∧ c.contacts ⊆ c.moved ∧ c.given = ∅ := by
  obtain ⟨o0, h0⟩ := (C53_constructible 1 1).2 one_pos
  have s0 := Sim.new h0
  obtain ⟨c1, t1, m1, i1, p1, n1, u1, v1⟩ : ∃ c1, Client.Step 1 1 Client.new (.setCenterOfMass3 0 0 0) c1 ∧ c1.mass = 50 ∧ c1.inertia = 1 ∧ c1.com = some 0 ∧ c1.contacts = ∅ ∧
      c1.pending = true ∧ c1.given = ∅ := ⟨_, .com3 0 0 0, by simp [Client.new, Client.feed], by simp [Client.new, Client.feed], rfl, by simp [Client.new, Client.feed], by simp [Client.new, Client.feed], by simp [Client.new, Client.feed]⟩
  obtain ⟨o1, e1, s1⟩ := s0.step t1
  obtain ⟨c2, t2, m2, i2, p2, n2, u2, v2⟩ : ∃ c2, Client.Step 1 1 c1 (.addContact atRest none 0 ⟨1, 1, 1, 1⟩) c2 ∧ c2.mass = 50 ∧ c2.inertia = 1 ∧ c2.com = some 0 ∧ c2.contacts = {0} ∧
      c2.pending = true ∧ c2.given = ∅ := ⟨_, .addContact atRest none 0 ⟨1, 1, 1, 1⟩ _ one_pos (by simp [n1]) atRest_has (by simp) (by simp) (by simp), m1, i1, p1, by simp [n1], u1, v1⟩
  obtain ⟨o2, e2, s2⟩ := s1.step t2
  obtain ⟨c3, t3, m3, i3, p3, n3, u3, w3, v3⟩ : ∃ c3, Client.Step 1 1 c2 (.updateContactWithNoSensor atRest 0) c3 ∧ c3.mass = 50 ∧ c3.inertia = 1 ∧ c3.com = some 0 ∧ c3.contacts = {0} ∧
      c3.pending = true ∧ 0 ∈ c3.moved ∧ c3.given = ∅ := by
    refine ⟨_, .contact atRest 0 _ (by simp [n2]) atRest_has (by simp) (by simp) (.inl ⟨by simp, by simp⟩), ?_⟩
    have hf : c2.feed = c2 := by simp [Client.feed, u2]
    simp only [hf]
    exact ⟨m2, i2, p2, n2, u2, Finset.mem_insert_self _ _, v2⟩
  obtain ⟨o3, e3, s3⟩ := s2.step t3
  have hv : Client.StateVector 1 1 (awayState p) := ⟨fun i => if i = 6 ∨ i = 28 then 1 else if i = 22 then p else 0, rfl, by norm_num⟩
  have t4 := Client.Step.stateVector (nc := 1) (ni := 1) (c := c3) (awayState p) false hv
  obtain ⟨o4, e4, s4⟩ := s3.step t4
  have hre : Reachable 1 1 [.setCenterOfMass3 0 0 0] o1 := ⟨o0, h0, run_cons.2 ⟨o1, e1, rfl⟩⟩
  obtain ⟨n, f2⟩ := addContact_of_exec e2
  obtain ⟨k2, vi, hc2, hvi, g1, -, g2, -, g3, -, g4, -⟩ := C104_gains_partial hre f2
  have hn : n = 0 := by
    have : n < o2.contacts.length := by
      by_contra hh
      rw [List.getElem?_eq_none (by omega)] at hc2
      cases hc2
    rw [s2.len] at this
    omega
  subst hn
  have hvi' : vi = ⟨1, 1, 1, 1⟩ := by
    obtain ⟨a, b, c, d⟩ := vi
    simp only at g1 g2 g3 g4
    rw [g1 one_ne_zero, g2 one_ne_zero, g3 one_ne_zero, g4 one_ne_zero]
  subst hvi'
  have e3' := e3
  simp only [Op.exec, updateContactWithNoSensor, selectContact, Res.bind_eq_ok] at e3'
  obtain ⟨c3, ⟨_, -, c3', h3, _, h3s, h3e⟩, kin, hk, h3o⟩ := e3'
  cases h3e
  have hst : o2.startNewIteration = o2 := start_running (s2.pending.1 u2)
  rw [hst] at h3 hk h3o
  rw [hc2] at h3
  cases h3
  have hhas : ∃ x y, kin.Has ⟨some 0, some (Quat.toMat ⟨1, 0, 0, 0⟩), some 0, some 0, x, y⟩ ∧ kin.ori.isQuaternionSet = true := by
    obtain ⟨a, ha⟩ := (s2.fed.con k2 (List.mem_of_getElem? hc2)).2
    simp only [newContactKin] at hk
    split_ifs at hk
    · obtain ⟨x, y, hh⟩ := updateKin_given ha atRest_has hk
      exact ⟨x, y, hh, updateKin_quaternion rfl hk⟩
    · cases hk
      exact ⟨_, _, atRest_has, rfl⟩
  obtain ⟨x, y, hhas, hquat⟩ := hhas
  have h4 : o4.contacts = o3.contacts := by
    simp only [Op.exec, setStateVector, Res.bind_eq_ok] at e4
    obtain ⟨a, ha, b, hb, e4⟩ := e4
    rw [if_neg (by simp)] at e4
    cases e4
    rw [updateKine_shows hb, (pushState_x ha).1]
  have hx4 : o4.getCurrentStateVector = awayState p := C103_setStateVector e4
  have hl : 0 < o2.contacts.length := by rw [s2.len]; exact one_pos
  have hR : Quat.toMat ⟨1, 0, 0, 0⟩ = 1 := by
    ext i j
    fin_cases i <;> fin_cases j <;> simp [Quat.toMat]
  have hfin : o4.contacts[0]? = some { k2 with localKine := kin, time := o2.kData, withRealSensor := false } := by
    rw [h4, ← Res.ok.inj h3o]
    exact List.getElem?_set_self hl
  refine ⟨_, o4, ⟨0, 1, 0, 0⟩, ⟨⟨o0, _, h0, .cons t1 (.cons t2 (.cons t3 (.cons t4 (.nil _)))), ?_⟩, ⟨?_, 0, p3, ?_⟩, ?_⟩, rfl, hx4, hv, ⟨{ k2 with localKine := kin, time := o2.kData, withRealSensor := false }, x, y, hfin, ?_, ?_, by rw [← hR]; exact hhas⟩, rfl, rfl, rfl, rfl, ⟨_, hfin, hquat⟩, u3, ?_, v3⟩
  · exact run_cons.2 ⟨o1, e1, run_cons.2 ⟨o2, e2, run_cons.2 ⟨o3, e3, run_cons.2 ⟨o4, e4, rfl⟩⟩⟩⟩
  · show c3.mass ≠ 0
    rw [m3]; norm_num
  · show (Client.effective c3.inertia c3.mass 0).det ≠ 0
    rw [m3, i3, effective_zero, det_one]
    exact one_ne_zero
  · intro n hn
    have : n ∈ c3.contacts := hn
    rw [n3, Finset.mem_singleton] at this
    subst this
    exact .inr ⟨u3, w3⟩
  · cases hh : k2.isSet with
    | true => rfl
    | false => rw [hh] at h3s; cases h3s
  · exact hvi
  · intro n hn
    have : n ∈ c3.contacts := hn
    rw [n3, Finset.mem_singleton] at this
    subst this
    exact w3

theorem predict_quaternion (p : ℝ) : ∃ (c : Client) (o : Observer) (l : Placed), Predicts 1 1 c o ∧ c.state = true ∧ o.getCurrentStateVector = awayState p ∧
    Client.StateVector 1 1 (awayState p) ∧ ContactIs o 0 ⟨1, 1, 1, 1⟩ l ∧ l.p = 0 ∧ l.R = 1 ∧ l.v = 0 ∧ l.w = 0 ∧
    ∃ k, o.contacts[0]? = some k ∧ k.localKine.ori.isQuaternionSet = true := by
  obtain ⟨c, o, l, h1, h2, h3, h4, h5, h6, h7, h8, h9, h10, -⟩ := predict_full p
  exact ⟨c, o, l, h1, h2, h3, h4, h5, h6, h7, h8, h9, h10⟩

theorem predict_example (p : ℝ) : ∃ (c : Client) (o : Observer) (l : Placed), Predicts 1 1 c o ∧ c.state = true ∧ o.getCurrentStateVector = awayState p ∧
    Client.StateVector 1 1 (awayState p) ∧ ContactIs o 0 ⟨1, 1, 1, 1⟩ l ∧ l.p = 0 ∧ l.R = 1 ∧ l.v = 0 ∧ l.w = 0 := by
  obtain ⟨c, o, l, h1, h2, h3, h4, h5, h6, h7, h8, h9, -⟩ := predict_quaternion p
  exact ⟨c, o, l, h1, h2, h3, h4, h5, h6, h7, h8, h9⟩

/-- **C106** The predicted wrench of a contact is not the one of its spring and damper: with the contact at rest at the origin and its rest position away from it, the
force of the spring is not zero and the predicted one is. -/
theorem C106_false : ¬ C106_statement := by
  intro h
  obtain ⟨c, o, l, h1, -, h2, h3, h4, l1, l2, l3, l4⟩ := predict_example 1
  have hx : Client.StateVector 1 1 o.getCurrentStateVector := by rw [h2]; exact h3
  obtain ⟨x', e, -⟩ := C106_returns h1 hx
  have hF := (C106_force_partial h1 hx e h4).1 (h 1 1 c o x' 0 _ l h1 hx e h4).1
  rw [((C106_kept h1 hx e).2.2.2 0).1, h2, l1, l3] at hF
  have := congrFun hF 0
  simp [contactPos, at3, at1, awayState] at this

/-- **C106** The hypotheses of the theorems above are met: a client with a contact at its rest pose. -/
theorem C106_example : ∃ (c : Client) (o : Observer) (x' : DVec) (vi : Visco) (l : Placed), Predicts 1 1 c o ∧ Client.StateVector 1 1 o.getCurrentStateVector ∧
    o.stateDynamics o.getCurrentStateVector = .ok x' ∧ ContactIs o 0 vi l ∧ contactPos 1 0 o.getCurrentStateVector = (stateOri x').toMat *ᵥ l.p ∧
    (contactOri 1 0 o.getCurrentStateVector).toMat = l.R ∧ stateAngVel x' ⨯₃ ((stateOri x').toMat *ᵥ l.p) + (stateOri x').toMat *ᵥ l.v = 0 ∧ l.w = 0 ∧
    ∃ o', o.estimateAccelerations = .ok o' := by
  obtain ⟨c, o, l, h1, hs, h2, h3, h4, l1, l2, l3, l4⟩ := predict_example 0
  have hx : Client.StateVector 1 1 o.getCurrentStateVector := by rw [h2]; exact h3
  obtain ⟨x', e, -⟩ := C106_returns h1 hx
  obtain ⟨o0, L, a1, a2, a3⟩ := h1.run
  obtain ⟨o2, b1, sim⟩ := (Sim.new a1).run a2
  obtain rfl := Res.ok.inj (b1.symm.trans a3)
  obtain ⟨o', e', -⟩ := sim.step (.accelerations hs h1.dyn h1.known)
  refine ⟨c, o2, x', _, l, h1, hx, e, h4, ?_, ?_, ?_, l4, o', e'⟩
  · rw [h2, l1, mulVec_zero]
    ext i
    fin_cases i <;> simp [contactPos, at3, at1, awayState]
  · rw [h2, l2]
    ext i j
    fin_cases i <;> fin_cases j <;> simp [contactOri, entry, awayState, Quat.toMat]
  · rw [l1, l3, mulVec_zero, map_zero, add_zero]

end StateObs.KO
