import Verif.KO.ClockProps
import Verif.KO.PsdProps
import Verif.Kin.VecProps
/-!
# C55: the bookkeeping of the contacts
-/

namespace StateObs.KO
open StateObs Matrix Rot Kine KF Observer

variable {nc ni : ℕ} {o o' : Observer}

theorem mem_list (o : Observer) (i : ℕ) : i ∈ o.getListOfContacts ↔ IsSet o i := by
  simp only [getListOfContacts, List.mem_filter, List.mem_range, IsSet]
  constructor
  · rintro ⟨h, h2⟩
    cases hc : o.contacts[i]? with
    | none => rw [hc] at h2; cases h2
    | some c => rw [hc] at h2; exact ⟨c, rfl, h2⟩
  · rintro ⟨c, hc, hs⟩
    refine ⟨(List.getElem?_eq_some_iff.1 hc).1, ?_⟩
    rw [hc]; exact hs

/-- The flags of the contacts. -/
def slots (o : Observer) : List Bool := o.contacts.map (·.isSet)

theorem isSet_slots (o : Observer) (i : ℕ) : IsSet o i ↔ (slots o)[i]? = some true := by
  simp [IsSet, slots, List.getElem?_map]

theorem slots_book (h : o'.book = o.book) : slots o' = slots o := by
  have := congrArg Book.contacts h
  simp only [book] at this
  rw [slots, this, slots]

theorem slots_start : slots o.startNewIteration = slots o := by rw [slots, start_contacts, slots]

theorem slots_set {n : ℕ} {c c' : Contact} (hc : o.contacts[n]? = some c) (h : c'.isSet = c.isSet) : (o.contacts.set n c').map (·.isSet) = slots o := by
  apply List.ext_getElem?
  intro i
  simp only [slots, List.getElem?_map, List.getElem?_set]
  split_ifs with h1 h2
  · subst h1; rw [hc]; simp [h]
  · subst h1
    rw [List.getElem?_eq_some_iff] at hc
    exact absurd hc.1 h2
  · rfl

/-- The calls that add or remove contacts. -/
def Op.IsContact : Op → Prop
  | .addContact .. | .removeContact .. | .clearContacts => True
  | _ => False

theorem slots_exec (op : Op) (hc : ¬ op.IsContact) (hop : Op.exec o op = .ok o') : slots o' = slots o := by
  by_cases hd : op.isData = true
  · exact (slots_book (book_data op hd hop)).trans slots_start
  by_cases hsn : op.isSensor = true
  · cases op <;> simp only [Op.isSensor, reduceCtorEq] at hsn <;> simp only [Op.exec, Res.bind_eq_ok] at hop
    case update =>
      by_cases hk : o.kEst = o.kData
      · rw [update, if_neg (by simpa using hk)] at hop
        cases hop; rfl
      · obtain ⟨imus, contacts, -, hf, e⟩ := book_update hop hk
        have e1 := congrArg Book.contacts e
        simp only [book] at e1
        rw [slots, e1, slots]
        clear e e1 hop
        revert hf
        generalize o.contacts = L
        intro hf
        induction hf with
        | nil => rfl
        | cons h _ ih => obtain ⟨j, rfl⟩ := h; simp [ih]
    case setIMU =>
      obtain ⟨⟨n, o1⟩, h1, h2⟩ := hop
      cases h2
      obtain ⟨m, kin, c1, c2, -, -, -, -, rfl⟩ := setIMU_eq h1
      exact slots_start
    case updateContactWithWrenchSensor =>
      obtain ⟨c, kin, sc, -, hc, -, -, -, rfl⟩ := updateContactWithWrenchSensor_eq hop
      exact slots_set hc rfl
    case updateContactWithNoSensor =>
      obtain ⟨c, kin, -, hc, -, -, rfl⟩ := updateContactWithNoSensor_eq hop
      exact slots_set hc rfl
    case setAbsolutePoseSensor => cases hop; exact slots_start
    case addContact => exact (hc trivial).elim
    case removeContact => exact (hc trivial).elim
    case clearContacts => exact (hc trivial).elim
    case resetInputs =>
      cases hop
      simp only [slots, resetInputs, List.map_map]
      rfl
  · exact slots_book (book_inner op (by simpa using hd) (by simpa using hsn) hop)

theorem slots_add {pose : Kin} {cov : Option (M12 × M12)} {num : Int} {v : Visco} {n : ℕ} (h : o.addContact pose cov num v = .ok (n, o')) :
    ¬ IsSet o n ∧ (∀ i, IsSet o' i ↔ IsSet o i ∨ i = n) ∧ (slots o').length = (slots o).length := by
  obtain ⟨c, c', x, e, -, -, hc, hs, hs', -, -, rfl⟩ := addContact_eq h
  have hl := (List.getElem?_eq_some_iff.1 hc).1
  refine ⟨?_, fun i => ?_, by simp [slots]⟩
  · rintro ⟨d, hd, hds⟩
    rw [hc] at hd
    cases hd
    rw [hs] at hds; cases hds
  · by_cases hi : i = n
    · subst hi
      simp [IsSet, List.getElem?_set_self hl, hs']
    · simp [IsSet, List.getElem?_set_ne (Ne.symm hi), hi]

theorem slots_remove {n : Int} (h : o.removeContact n = .ok o') : slots o' = slots o := by
  obtain ⟨c, -, hc, hs, rfl⟩ := removeContact_eq h
  exact slots_set hc hs.symm

theorem slots_empty {op : Op} (hop : Op.exec o op = .ok o') (h : slots o = []) : slots o' = [] := by
  by_cases hc : op.IsContact
  · cases op <;> simp only [Op.IsContact] at hc <;> simp only [Op.exec, Res.bind_eq_ok] at hop
    case addContact =>
      obtain ⟨⟨n, o1⟩, h1, h2⟩ := hop
      cases h2
      have := (slots_add h1).2.2
      rw [h] at this
      exact List.length_eq_zero_iff.1 this
    case removeContact => rw [slots_remove hop, h]
    case clearContacts => cases hop; rfl
  · rw [slots_exec op hc hop, h]

theorem slots_length {op : Op} (hop : Op.exec o op = .ok o') (hne : op ≠ .clearContacts) : (slots o').length = (slots o).length := by
  by_cases hc : op.IsContact
  · cases op <;> simp only [Op.IsContact] at hc <;> simp only [Op.exec, Res.bind_eq_ok] at hop
    case addContact =>
      obtain ⟨⟨n, o1⟩, h1, h2⟩ := hop
      cases h2
      exact (slots_add h1).2.2
    case removeContact => rw [slots_remove hop]
    case clearContacts => exact (hne rfl).elim
  · rw [slots_exec op hc hop]

theorem construct_slots (h : construct nc ni = .ok o) : slots o = List.replicate nc false := by
  obtain ⟨o', o1, o2, k, h2, rfl, hs, hq⟩ := construct_spec (nc := nc) (construct_pos h)
  obtain rfl := Res.ok.inj (h2.symm.trans h)
  obtain ⟨P0, P1, -, rfl, -⟩ := hs
  obtain ⟨Q0, Q1, -, rfl, -⟩ := hq
  simp [slots, base, Observer.init, Contact.new]

theorem reachable_length {l : List Op} (h : Reachable nc ni l o) (hc : .clearContacts ∉ l) : o.contacts.length = nc := by
  obtain ⟨o0, h0, h1⟩ := h
  have key : ∀ (l : List Op) (a b : Observer), .clearContacts ∉ l → Op.run a l = .ok b → (slots b).length = (slots a).length := by
    intro l
    induction l with
    | nil => intro a b _ h; rw [Op.run, List.foldlM_nil, Res.pure_eq] at h; cases h; rfl
    | cons op l ih =>
      intro a b hc h
      rw [Op.run, List.foldlM_cons, Res.bind_eq_ok] at h
      obtain ⟨a1, h1, h2⟩ := h
      rw [ih a1 b (fun hm => hc (List.mem_cons_of_mem _ hm)) h2, slots_length h1 (fun he => hc (he ▸ List.mem_cons_self))]
  have := key l o0 o hc h1
  rw [construct_slots h0] at this
  simpa [slots] using this

/-- The numbers that the calls of `addContact` in a history returned. -/
noncomputable def added : Observer → List Op → List ℕ
  | _, [] => []
  | o, op :: l =>
    (match op with
      | .addContact p c n v => (match o.addContact p c n v with | .ok r => [r.1] | _ => [])
      | _ => []) ++ (match Op.exec o op with | .ok o' => added o' l | _ => [])

theorem added_iff : ∀ (l : List Op) (a b : Observer), .clearContacts ∉ l → Op.run a l = .ok b → (∀ i, IsSet b i ↔ IsSet a i ∨ i ∈ added a l) ∧ (added a l).Nodup ∧
    ∀ i ∈ added a l, ¬ IsSet a i
  | [], a, b, _, h => by
    rw [Op.run, List.foldlM_nil, Res.pure_eq] at h; cases h
    simp [added]
  | op :: l, a, b, hc, h => by
    rw [Op.run, List.foldlM_cons, Res.bind_eq_ok] at h
    obtain ⟨a1, h1, h2⟩ := h
    obtain ⟨e1, e2, e3⟩ := added_iff l a1 b (fun hm => hc (List.mem_cons_of_mem _ hm)) h2
    by_cases hcon : op.IsContact
    · cases op <;> simp only [Op.IsContact] at hcon <;> simp only [added, h1]
      case addContact p c n v =>
        simp only [Op.exec, Res.bind_eq_ok] at h1
        obtain ⟨⟨n', o1⟩, h3, h4⟩ := h1
        cases h4
        obtain ⟨f1, f2, -⟩ := slots_add h3
        simp only [h3, List.singleton_append, List.mem_cons, List.nodup_cons]
        refine ⟨fun i => ?_, ⟨fun hm => e3 _ hm ((f2 n').2 (Or.inr rfl)), e2⟩, fun i hi hs => ?_⟩
        · rw [e1, f2]; tauto
        · rcases hi with rfl | hi
          · exact f1 hs
          · exact e3 i hi ((f2 i).2 (Or.inl hs))
      case removeContact n =>
        have hs := slots_remove h1
        have hh : ∀ i, IsSet a1 i ↔ IsSet a i := fun i => by rw [isSet_slots, hs, isSet_slots]
        simp only [List.nil_append]
        exact ⟨fun i => by rw [e1, hh], e2, fun i hi => by rw [← hh]; exact e3 i hi⟩
      case clearContacts => exact (hc List.mem_cons_self).elim
    · have hs := slots_exec op hcon h1
      have hh : ∀ i, IsSet a1 i ↔ IsSet a i := fun i => by rw [isSet_slots, hs, isSet_slots]
      have : added a (op :: l) = added a1 l := by
        rw [added]
        · simp only [h1, List.append_left_eq_self]
        · intro p c n v hx
          subst hx
          exact hcon trivial
      rw [this]
      exact ⟨fun i => by rw [e1, hh], e2, fun i hi => by rw [← hh]; exact e3 i hi⟩

/-- **C55** for histories without `clearContacts` (`removeContact` never removes anything, see below): the contacts that the observer lists are those that
`addContact` returned, no number having been returned twice. -/
theorem C55_list_partial {l : List Op} {o0 : Observer} (h0 : construct nc ni = .ok o0) (h : Op.run o0 l = .ok o) (hc : .clearContacts ∉ l) :
    (∀ i, i ∈ o.getListOfContacts ↔ i ∈ added o0 l) ∧ (added o0 l).Nodup ∧ o.getListOfContacts.length = (added o0 l).length := by
  obtain ⟨e1, e2, -⟩ := added_iff l o0 o hc h
  have hno : ∀ i, ¬ IsSet o0 i := by
    intro i hi
    rw [isSet_slots, construct_slots h0, List.getElem?_replicate] at hi
    split_ifs at hi
    simp at hi
  have e3 : ∀ i, i ∈ o.getListOfContacts ↔ i ∈ added o0 l := fun i => by rw [mem_list, e1]; simp [hno i]
  refine ⟨e3, e2, List.Perm.length_eq ?_⟩
  rw [List.perm_ext_iff_of_nodup]
  · exact e3
  · exact List.nodup_range.filter _
  · exact e2

theorem autoContact_spec {L : List Contact} {max n : ℕ} : ∀ (fuel j : ℕ), j + fuel = max + 1 → j ≤ max →
    (∀ i < j, ∃ c, L[i]? = some c ∧ c.isSet = true) → autoContact L max fuel j = .ok n →
    (∀ i < n, ∃ c, L[i]? = some c ∧ c.isSet = true) ∧ (n < max → ∃ c, L[n]? = some c ∧ c.isSet = false) ∧ n ≤ max := by
  intro fuel
  induction fuel with
  | zero => intro j h1 h2; omega
  | succ fuel ih =>
    intro j h1 h2 h3 h4
    rw [autoContact] at h4
    split_ifs at h4 with hj
    · rw [Res.bind_eq_ok] at h4
      obtain ⟨d, hd, h4⟩ := h4
      have hd := rd_ok hd
      split_ifs at h4 with hs
      · refine ih (j + 1) (by omega) (by omega) (fun i hi => ?_) h4
        rcases Nat.lt_succ_iff_lt_or_eq.1 hi with hi | rfl
        · exact h3 i hi
        · exact ⟨d, hd, hs⟩
      · obtain rfl : j = n := Res.ok.inj h4
        exact ⟨h3, fun _ => ⟨d, hd, by simpa using hs⟩, h2⟩
    · obtain rfl : j = n := Res.ok.inj h4
      exact ⟨h3, fun h => absurd h hj, h2⟩

theorem autoContact_ok {L : List Contact} {max : ℕ} (hm : L.length = max) : ∀ (fuel j : ℕ), ∃ n, autoContact L max fuel j = .ok n := by
  intro fuel
  induction fuel with
  | zero => intro j; exact ⟨_, rfl⟩
  | succ fuel ih =>
    intro j
    rw [autoContact]
    split_ifs with hj
    · have : L[j]? = some L[j] := List.getElem?_eq_getElem (hm ▸ hj)
      rw [this]
      simp only [rd, Res.ok_bind]
      split_ifs
      · exact ih (j + 1)
      · exact ⟨_, rfl⟩
    · exact ⟨_, rfl⟩

/-- **C55**: `addContact` returns the number it was given, or, with automatic numbering, the first free one. The number was free, and it is now listed besides the
former ones. -/
theorem C55_addContact {l : List Op} (h : Reachable nc ni l o) {pose : Kin} {cov : Option (M12 × M12)} {num : Int} {v : Visco} {n : ℕ}
    (ha : o.addContact pose cov num v = .ok (n, o')) :
    n < nc ∧ n ∉ o.getListOfContacts ∧ (∀ i, i ∈ o'.getListOfContacts ↔ i ∈ o.getListOfContacts ∨ i = n) ∧ (0 ≤ num → num = n) ∧
      (num < 0 → ∀ i < n, i ∈ o.getListOfContacts) := by
  have hi := inv_reachable h
  obtain ⟨f1, f2, -⟩ := slots_add ha
  obtain ⟨c, c', x, e, hn, hlt, hc, -⟩ := addContact_eq ha
  rw [hi.1.1] at hlt
  refine ⟨hlt, fun hm => f1 ((mem_list _ _).1 hm), fun i => by rw [mem_list, mem_list, f2], fun h0 => ?_, fun h0 i hin => ?_⟩
  · rw [contactNumber, if_neg (by omega)] at hn
    have := Res.ok.inj hn
    omega
  · rw [contactNumber, if_pos h0, hi.1.1] at hn
    have hlen : o.contacts.length = nc := by
      rcases hi.2.conLen with e | e
      · exact e
      · rw [e] at hc; simp at hc
    exact (mem_list _ _).2 ((autoContact_spec _ 0 (by omega) (by omega) (by simp) hn).1 i hin)

theorem addContact_live (hi : Inv nc ni o) (hlen : o.contacts.length = nc) {pose : Kin} {a : Value} (hp : pose.Has a) (hpos : a.pos.isSome)
    (hori : a.ori.isSome) (cov : Option (M12 × M12)) (num : Int) (v : Visco)
    (hfree : (0 ≤ num ∧ num < nc ∧ num.toNat ∉ o.getListOfContacts) ∨ (num < 0 ∧ ∃ i < nc, i ∉ o.getListOfContacts)) :
    ∃ n o', o.addContact pose cov num v = .ok (n, o') := by
  obtain ⟨n, hn, hlt, c, hc, hs⟩ : ∃ n, o.contactNumber num = .ok n ∧ n < nc ∧ ∃ c, o.contacts[n]? = some c ∧ c.isSet = false := by
    have free : ∀ i < nc, i ∉ o.getListOfContacts → ∃ c, o.contacts[i]? = some c ∧ c.isSet = false := by
      intro i hi hm
      have : o.contacts[i]? = some o.contacts[i] := List.getElem?_eq_getElem (hlen ▸ hi)
      refine ⟨_, this, ?_⟩
      by_contra hs
      exact hm ((mem_list _ _).2 ⟨_, this, by simpa using hs⟩)
    rcases hfree with ⟨h0, h1, h2⟩ | ⟨h0, i, hi1, hi2⟩
    · exact ⟨num.toNat, by rw [contactNumber, if_neg (by omega)], by omega, free _ (by omega) h2⟩
    · obtain ⟨n, hn⟩ := autoContact_ok hlen (nc + 1) 0
      obtain ⟨g1, g2, g3⟩ := autoContact_spec _ 0 (by omega) (by omega) (by simp) hn
      have hnl : n < nc := by
        by_contra hc
        obtain rfl : n = nc := by omega
        exact hi2 ((mem_list _ _).2 (g1 i hi1))
      exact ⟨n, by rw [contactNumber, if_pos h0, hi.1.1]; exact hn, hnl, g2 hnl⟩
  obtain ⟨lst, k', hv, -, hl, -⟩ := (Kin.C50_round_trip pose a hp flagsPoseKine).2 ⟨fun _ => hpos, fun _ => hori, by simp [flagsPoseKine], by simp [flagsPoseKine],
    by simp [flagsPoseKine], by simp [flagsPoseKine]⟩
  have hset : (pose.pos.isSet dbg && pose.ori.isSet) = true := by
    rw [hp.pos.isSet, Kine.Holds.isSet hp.ori, hpos, hori]; rfl
  have hsi : o.contactsIndex = .ok (19 + ni * 3) := by
    simp only [contactsIndex, unmodeledWrenchIndex, gyroBiasIndex, hi.1.2, hi.2.imuPos, decide_true, Res.assert_true, Res.ok_bind, angVelIndex, linVelIndex, oriIndex,
      posIndex]
    congr 1; omega
  have hst : o.contactsIndexTangent = .ok (18 + ni * 3) := by
    simp only [contactsIndexTangent, unmodeledWrenchIndexTangent, gyroBiasIndexTangent, hi.1.2, hi.2.imuPos, decide_true, Res.assert_true, Res.ok_bind,
      angVelIndexTangent, linVelIndexTangent, oriIndexTangent, posIndexTangent]
    congr 1; omega
  have hll : (lst ++ List.replicate 6 0).length = 13 := by simp [hl, KFlags.size, flagsPoseKine]
  have hxs : 19 + ni * 3 + n * 13 + 13 ≤ o.x.size := by
    rw [hi.2.xSize]
    have : (n + 1) * 13 ≤ nc * 13 := Nat.mul_le_mul_right _ hlt
    omega
  obtain ⟨x, hx⟩ : ∃ x, o.x.setList 13 (19 + ni * 3 + n * 13) (lst ++ List.replicate 6 0) = .ok x := by
    rw [DVec.setList, dif_pos hll, DVec.setSeg, if_pos hxs]
    exact ⟨_, rfl⟩
  have hrange : 18 + ni * 3 + n * 12 + 12 ≤ o.tangentSize := by
    rw [inv_tangentSize hi]
    have : (n + 1) * 12 ≤ nc * 12 := Nat.mul_le_mul_right _ hlt
    omega
  have wp : ∀ (q : Observer) (B : M12), q.ekf.st.nt = o.tangentSize → q.ekf.st.pr.hasSize o.tangentSize o.tangentSize = true →
      ∃ q', q.withP (fun P => setBlockStateCovariance 12 P (dm B) (18 + ni * 3 + n * 12)) = .ok q' ∧ q'.ekf.st.nt = q.ekf.st.nt ∧ q'.ekf.st.q = q.ekf.st.q := by
    intro q B hnt hsz
    obtain ⟨P, hP⟩ := (DMat.hasSize_iff _ _ _).1 hsz
    have := (setBlockStateCovariance_iff P (18 + ni * 3 + n * 12) (dm B) ⟨_, _, replaceBlock P (18 + ni * 3 + n * 12) B⟩).2 ⟨B, rfl, hrange, rfl⟩
    simp only [withP, hP, this, Res.ok_bind, KF.setStateCovariance, KData.checkP, hnt]
    rw [(DMat.hasSize_iff _ _ _).2 ⟨_, rfl⟩]
    exact ⟨_, rfl, rfl, rfl⟩
  have wq : ∀ (q : Observer) (B : M12), q.ekf.st.nt = o.tangentSize → q.ekf.st.q.hasSize o.tangentSize o.tangentSize = true →
      ∃ q', q.withQ (fun P => setBlockStateCovariance 12 P (dm B) (18 + ni * 3 + n * 12)) = .ok q' := by
    intro q B hnt hsz
    obtain ⟨P, hP⟩ := (DMat.hasSize_iff _ _ _).1 hsz
    have := (setBlockStateCovariance_iff P (18 + ni * 3 + n * 12) (dm B) ⟨_, _, replaceBlock P (18 + ni * 3 + n * 12) B⟩).2 ⟨B, rfl, hrange, rfl⟩
    simp only [withQ, hP, this, Res.ok_bind, KF.setQ, KData.checkQ, hnt]
    rw [(DMat.hasSize_iff _ _ _).2 ⟨_, rfl⟩]
    exact ⟨_, rfl⟩
  have e1 : o.ekf.st.nt = o.tangentSize := by rw [inv_tangentSize hi]; exact hi.2.ekf.nt
  have e2 : o.ekf.st.pr.hasSize o.tangentSize o.tangentSize = true := by rw [inv_tangentSize hi]; exact hi.2.ekf.pr
  have e3 : o.ekf.st.q.hasSize o.tangentSize o.tangentSize = true := by rw [inv_tangentSize hi]; exact hi.2.ekf.q
  obtain ⟨ci, cp, hcov⟩ : ∃ ci cp, cov.getD (o.contactInit, o.contactProc) = (ci, cp) := ⟨_, _, rfl⟩
  obtain ⟨o1, hP, f1, f2⟩ := wp { o with
    contacts := o.contacts.set n { c with
      isSet := true
      stateIndex := (19 + ni * 3 + n * 13 : ℕ)
      stateIndexTangent := (18 + ni * 3 + n * 12 : ℕ)
      absPose := pose
      visco := some (newVisco o v) }
    x := x } ci e1 e2
  obtain ⟨o2, hQ⟩ := wq o1 cp (f1.trans e1) (by rw [f2]; exact e3)
  have hcl' : n < o.maxContacts := by rw [hi.1.1]; exact hlt
  refine ⟨n, o2, ?_⟩
  rw [addContact]
  simp only [hcov, hset, hn, hcl', hc, hs, rd, hsi, hst, hv, hx, Res.ok_bind, Res.assert_true, decide_true, Bool.not_false]
  erw [hP]
  simp only [Res.ok_bind, hQ]

/-- **C55**: unless `clearContacts` has been called, `addContact` returns if the pose has a position and an orientation and the slot asked for is free, or some slot
is free with automatic numbering. -/
theorem C55_addContact_ok {l : List Op} (h : Reachable nc ni l o) (hcl : .clearContacts ∉ l) {pose : Kin} {a : Value} (hp : pose.Has a) (hpos : a.pos.isSome)
    (hori : a.ori.isSome) (cov : Option (M12 × M12)) (num : Int) (v : Visco)
    (hfree : (0 ≤ num ∧ num < nc ∧ num.toNat ∉ o.getListOfContacts) ∨ (num < 0 ∧ ∃ i < nc, i ∉ o.getListOfContacts)) :
    ∃ n o', o.addContact pose cov num v = .ok (n, o') :=
  addContact_live (inv_reachable h) (reachable_length h hcl) hp hpos hori cov num v hfree

/-- **C55** fails: a contact that has been added cannot be removed, the assertion of `removeContact` fails (it requires that the contact is not set). -/
theorem C55_removeContact_false (o : Observer) {i : ℕ} (hi : i ∈ o.getListOfContacts) : o.removeContact i = .assertFail := by
  obtain ⟨c, hc, hs⟩ := (mem_list _ _).1 hi
  rw [removeContact, if_neg (by omega)]
  simp [hc, rd, hs, Res.assert]

/-- **C55** fails: the number of contacts of a new observer is the maximum number of contacts, although no contact has been added. -/
theorem C55_getNumberOfContacts_false (h : construct nc ni = .ok o) : o.getListOfContacts = [] ∧ o.getNumberOfContacts = nc := by
  constructor
  · rw [List.eq_nil_iff_forall_not_mem]
    intro i hi
    rw [mem_list, isSet_slots, construct_slots h, List.getElem?_replicate] at hi
    split_ifs at hi
    simp at hi
  · have := congrArg List.length (construct_slots h)
    simpa [slots, getNumberOfContacts] using this

/-- **C55** fails: once `clearContacts` has been called, `addContact` never returns. -/
theorem C55_clearContacts_false {l : List Op} (h : Reachable nc ni l o) (hc : .clearContacts ∈ l) (pose : Kin) (cov : Option (M12 × M12)) (num : Int) (v : Visco) :
    ∀ r, o.addContact pose cov num v ≠ .ok r := by
  have key : slots o = [] := by
    obtain ⟨o0, h0, h1⟩ := h
    obtain ⟨l1, l2, rfl⟩ := List.append_of_mem hc
    rw [Op.run, List.foldlM_append, Res.bind_eq_ok] at h1
    obtain ⟨a, -, h2⟩ := h1
    rw [List.foldlM_cons, Res.bind_eq_ok] at h2
    obtain ⟨b, h3, h4⟩ := h2
    cases h3
    exact Res.foldlM_inv (fun q => slots q = []) (fun q op q' hq e => slots_empty e hq) _ _ _ h4 rfl
  rintro ⟨n, o'⟩ ha
  obtain ⟨c, c', x, e, -, -, hc, -⟩ := addContact_eq ha
  have : o.contacts = [] := by simpa [slots] using key
  rw [this] at hc
  simp at hc

end StateObs.KO
