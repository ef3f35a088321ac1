import Verif.KO.ClientSim
/-!
# The calls of a client return (C84)
-/

namespace StateObs.KO
open StateObs Matrix Rot Kine KF Observer

variable {nc ni : ℕ} {o o' : Observer} {c c' : Client}

/-! ## Lemmas -/

theorem new_has : Kin.new.Has ⟨none, none, none, none, none, none⟩ := ⟨rfl, ⟨rfl, rfl⟩, rfl, rfl, rfl, rfl⟩

theorem Sim.new (h : Observer.construct nc ni = .ok o) : Sim nc ni Client.new o := by
  have hi := inv_construct h
  have hcv := covInv_construct h
  obtain ⟨e, k, he, ha, hb⟩ := construct_kin (nc := nc) (ni := ni) hi.2.imuPos
  rw [h] at he
  obtain rfl := Res.ok.inj he
  have hx : ∀ x ∈ (base nc ni).imus, x = IMU.new := fun x hx => (List.mem_replicate.1 hx).2
  have hc : ∀ x ∈ (base nc ni).contacts, x = Contact.new := fun x hx => (List.mem_replicate.1 hx).2
  have hcg : ∀ n x, (base nc ni).contacts[n]? = some x → x = Contact.new := fun n x hx => hc x (List.mem_of_getElem? hx)
  refine ⟨⟨hi, hcv, rfl, ⟨iso_posDef (by norm_num), iso_posDef (by norm_num)⟩, fun m hm => ?_, fun m hm => ?_, fun hne => absurd rfl hne⟩, rfl, rfl, rfl, rfl, rfl, rfl, rfl, rfl,
    rfl, ⟨⟨none, by rw [ha]; rfl⟩, ⟨none, by rw [hb]; rfl⟩⟩, fun hs => by simp [Client.new] at hs, ?_, rfl, fun hp => by simp [Client.new] at hp, ?_, ?_, ?_, ?_, ?_, ?_⟩
  · rw [hx m hm]
    exact ⟨⟨_, new_has⟩, fun h => absurd rfl h⟩
  · rw [hc m hm]
    exact ⟨rfl, ⟨_, new_has⟩⟩
  · simp [Client.new]; rfl
  · intro n m hm
    rw [hx m (List.mem_of_getElem? hm)]
    simp [Client.new, IMU.new]
  · show (List.replicate nc Contact.new).length = nc
    simp
  · intro n m hm
    rw [hcg n m hm]
    simp [Client.new, Contact.new]
  · intro n hn
    simp [Client.new] at hn
  · intro _ n m hm hn
    simp [Client.new] at hn
  · intro n m hm hn
    simp [Client.new] at hn

theorem Sim.run {l : List Op} (h : Sim nc ni c o) (hr : Client.Run nc ni c l c') : ∃ o', Op.run o l = .ok o' ∧ Sim nc ni c' o' := by
  induction hr generalizing o with
  | nil c => exact ⟨o, rfl, h⟩
  | cons hs _ ih =>
    obtain ⟨o1, e1, h1⟩ := h.step hs
    obtain ⟨o2, e2, h2⟩ := ih h1
    refine ⟨o2, ?_, h2⟩
    rw [Op.run, List.foldlM_cons, e1, Res.ok_bind]
    exact e2

/-! ## Properties -/

/-- **C84**: a client of a new observer that makes only calls that `Client.Step` allows in view of its former calls is never stopped: all its calls return. The
observer has then made one estimation for each `update` that followed data, its list of contacts is the one of the client, and, once a state has been given, the
orientation in the state is a unit quaternion. -/
theorem C84_returns {l : List Op} (h : Observer.construct nc ni = .ok o) (hr : Client.Run nc ni Client.new l c) :
    ∃ o', Op.run o l = .ok o' ∧ o'.getStateVectorTimeIndex = .ok c.steps ∧ (∀ n, n ∈ o'.getListOfContacts ↔ n ∈ c.contacts) ∧
      (c.state = true → ∃ x : Fin (19 + ni * 3 + nc * 13) → ℝ, o'.getCurrentStateVector = ⟨_, x⟩ ∧
        x ⟨3, by omega⟩ ^ 2 + x ⟨4, by omega⟩ ^ 2 + x ⟨5, by omega⟩ ^ 2 + x ⟨6, by omega⟩ ^ 2 = 1) := by
  obtain ⟨o', e, hs⟩ := (Sim.new h).run hr
  refine ⟨o', e, ?_, fun n => ?_, fun hst => ?_⟩
  · obtain ⟨v, hv, -⟩ := hs.fed.inv.2.ekf.x
    simp only [getStateVectorTimeIndex, hv, Obs.getCurrentTime, hs.steps]
  · rw [mem_list]
    constructor
    · rintro ⟨k, hk, hset⟩
      exact (hs.contacts n k hk).1 hset
    · intro hn
      exact hs.isSet hn
  · obtain ⟨-, hg, -⟩ := hs.state hst
    obtain ⟨hsz, hq⟩ := hg
    unfold getCurrentStateVector
    revert hsz hq
    generalize o'.x = x
    obtain ⟨n, x⟩ := x
    rintro rfl hq
    refine ⟨x, rfl, ?_⟩
    have := hq
    simp only [UnitAt, at1] at this
    rw [dif_pos (by omega), dif_pos (by omega), dif_pos (by omega), dif_pos (by omega)] at this
    exact this

/-! ## A client -/

/-- A frame at rest at the origin. -/
def atRest : Kin := ⟨⟨true, some 0⟩, ⟨⟨true, some ⟨1, 0, 0, 0⟩⟩, ⟨false, none⟩⟩, ⟨true, some 0⟩, ⟨true, some 0⟩, ⟨true, some 0⟩, ⟨true, some 0⟩⟩

theorem atRest_has : atRest.Has ⟨some 0, some (Quat.toMat ⟨1, 0, 0, 0⟩), some 0, some 0, some 0, some 0⟩ :=
  ⟨rfl, Ori.rep_q (by simp [Quat.normSq]) rfl, rfl, rfl, rfl, rfl⟩

/-- What the client of the example gives before the estimations. -/
noncomputable def exampleStart (nc ni : ℕ) : List Op :=
  [.setCenterOfMass3 0 0 0, .setStateVector ⟨19 + ni * 3 + nc * 13, fun i => if i.val = 6 then 1 else 0⟩ true, .addContact atRest none 0 ⟨1, 1, 1, 1⟩]

/-- What it gives at each iteration. -/
def exampleIteration : List Op := [.setIMU ![0, 0, 9.8] 0 none atRest 0, .updateContactWithNoSensor atRest 0, .update]

theorem Client.Run.append {c c1 c2 : Client} {l l' : List Op} (h : Client.Run nc ni c l c1) (h' : Client.Run nc ni c1 l' c2) : Client.Run nc ni c (l ++ l') c2 := by
  induction h with
  | nil c => exact h'
  | cons hs _ ih => exact .cons hs (ih h')

/-- What the client of the example knows between two iterations. -/
def Between (c : Client) : Prop :=
  c.state = true ∧ c.contacts = {0} ∧ c.given = ∅ ∧ c.moved = ∅ ∧ c.com = some 0 ∧ c.inertia = 1 ∧ c.mass = 50

theorem feed_mk (dt m : ℝ) (p : Option V3) (I : M3) (st : Bool) (g se co mo kn : Finset ℕ) (n : ℕ) :
    Client.feed ⟨dt, m, p, I, st, true, g, se, co, mo, kn, n⟩ = ⟨dt, m, p, I, st, true, g, se, co, mo, kn, n⟩ := rfl

theorem effective_zero : Client.effective 1 50 0 = 1 := by
  ext i j
  fin_cases i <;> fin_cases j <;> simp [Client.effective]

theorem between_iteration (hni : 0 < ni) {c : Client} (h : Between c) : ∃ c', Client.Run nc ni c exampleIteration c' ∧ Between c' ∧ c'.steps = c.steps + 1 := by
  obtain ⟨h1, h2, h3, h4, h5, h6, h7⟩ := h
  have hf : c.feed = { c with pending := true, given := ∅, moved := ∅ } := by
    unfold Client.feed
    split_ifs with hp
    · cases c; simp_all
    · rfl
  refine ⟨_, .cons (.imu _ _ _ _ 0 _ hni ?_ atRest_has (by simp) (by simp) (by simp) (by simp))
    (.cons (.contact _ 0 _ ?_ atRest_has (by simp) (by simp) (Or.inl (by simp))) (.cons (.update ?_ ?_ ?_ ?_) (.nil _))), ?_, ?_⟩
  · simp [hf]
  · simp [hf, h2]
  · simp [hf, feed_mk]
  · simp [hf, feed_mk, h1]
  · exact ⟨by simp [hf, feed_mk, h7], 0, by simp [hf, feed_mk, h5], by simp [hf, feed_mk, h6, h7, effective_zero]⟩
  · simp [hf, feed_mk, h2]
  · refine ⟨?_, ?_, rfl, rfl, ?_, ?_, ?_⟩ <;> simp [hf, feed_mk, h1, h2, h5, h6, h7]
  · simp [hf, feed_mk]

theorem example_between (hnc : 0 < nc) (hni : 0 < ni) (T : ℕ) :
    ∃ c, Client.Run nc ni Client.new (exampleStart nc ni ++ (List.replicate T exampleIteration).flatten) c ∧ c.steps = T ∧ Between c := by
  have key : ∀ c, Between c → ∃ c', Client.Run nc ni c (List.replicate T exampleIteration).flatten c' ∧ Between c' ∧ c'.steps = c.steps + T := by
    induction T with
    | zero => exact fun c hc => ⟨c, .nil c, hc, rfl⟩
    | succ T ih =>
      intro c hc
      obtain ⟨c1, r1, b1, s1⟩ := between_iteration (nc := nc) hni hc
      obtain ⟨c2, r2, b2, s2⟩ := ih c1 b1
      exact ⟨c2, by rw [List.replicate_succ, List.flatten_cons]; exact r1.append r2, b2, by omega⟩
  have h0 : Client.Run nc ni Client.new (exampleStart nc ni) { Client.new with com := some 0, pending := true, state := true, contacts := {0} } := by
    refine .cons (.com3 _ _ _) (.cons (.stateVector _ _ ⟨fun i => if i = 6 then 1 else 0, rfl, by simp⟩) (.cons (.addContact _ _ 0 _ _ hnc ?_ atRest_has (by simp) (by simp) (by simp)) ?_))
    · simp [Client.feed, Client.new]
    · have : ({ Client.new with com := some 0, pending := true, state := true, contacts := {0} } : Client) =
          { ({ ({ Client.new.feed with com := some 0 } : Client) with state := true } : Client) with contacts := insert 0 Client.new.contacts } := by
        simp [Client.feed, Client.new]
      rw [this]
      exact .nil _
  obtain ⟨c', r, b, s⟩ := key { Client.new with com := some 0, pending := true, state := true, contacts := {0} } ⟨rfl, rfl, rfl, rfl, rfl, rfl, rfl⟩
  exact ⟨c', h0.append r, by rw [s]; simp [Client.new], b⟩

/-- A client that makes any number of estimations. -/
theorem C84_example (hnc : 0 < nc) (hni : 0 < ni) (T : ℕ) :
    ∃ c, Client.Run nc ni Client.new (exampleStart nc ni ++ (List.replicate T exampleIteration).flatten) c ∧ c.steps = T ∧ c.state = true ∧ c.contacts = {0} := by
  obtain ⟨c, h1, h2, h3⟩ := example_between hnc hni T
  exact ⟨c, h1, h2, h3.1, h3.2.1⟩

/-- The conclusion for this client: with one contact at least and one IMU at least, the observer makes any number of estimations. -/
theorem C84_estimates (hnc : 0 < nc) (hni : 0 < ni) (T : ℕ) :
    ∃ o o', Observer.construct nc ni = .ok o ∧ Op.run o (exampleStart nc ni ++ (List.replicate T exampleIteration).flatten) = .ok o' ∧
      o'.getStateVectorTimeIndex = .ok T := by
  obtain ⟨o, h⟩ := (C53_constructible nc ni).2 hni
  obtain ⟨c, hr, hs, -⟩ := C84_example hnc hni T
  obtain ⟨o', e, ht, -⟩ := C84_returns h hr
  exact ⟨o, o', h, e, by rw [ht, hs]⟩

end StateObs.KO
