import Verif.KO.ClientProps
/-!
# The counters of the sensors (C56): lemmas
-/

namespace StateObs.KO
open StateObs Matrix Rot Kine KF Observer

variable {nc ni : ℕ} {o o' : Observer}

/-- The contacts with a wrench sensor. -/
def flagged (o : Observer) : ℕ := o.contacts.countP fun c => c.withRealSensor
/-- The IMUs of the iteration. -/
def fresh (o : Observer) : ℕ := o.imus.countP fun m => decide (m.time = o.kData)

theorem countP_set' {α : Type} (p : α → Bool) : ∀ (l : List α) (n : ℕ) (a b : α), l[n]? = some a →
    (((l.set n b).countP p : ℕ) : Int) = l.countP p - (if p a then 1 else 0) + (if p b then 1 else 0)
  | [], n, a, b, h => by simp at h
  | c :: l, 0, a, b, h => by
    simp at h
    subst h
    simp only [List.set_cons_zero, List.countP_cons]
    push_cast
    ring
  | c :: l, n + 1, a, b, h => by
    have := countP_set' p l n a b (by simpa using h)
    simp only [List.set_cons_succ, List.countP_cons]
    push_cast
    rw [this]
    ring

/-- The invariant of histories without `clearContacts` and `resetInputs`: between two estimations, `f` contacts had a wrench sensor at the beginning of the
iteration. -/
structure Count (o : Observer) (f : ℕ) : Prop where
  idle : o.kEst = o.kData → flagged o = f
  run : o.kEst ≠ o.kData → o.nIMU = fresh o ∧ o.nReal + f = flagged o

theorem Count.book {f : ℕ} (h : Count o f) (e : o'.book = o.book) : Count o' f := by
  have e1 := congrArg Book.kEst e
  have e2 := congrArg Book.kData e
  have e3 := congrArg Book.contacts e
  have e4 := congrArg Book.imus e
  have e5 := congrArg Book.nReal e
  have e6 := congrArg Book.nIMU e
  simp only [Observer.book] at e1 e2 e3 e4 e5 e6
  exact ⟨fun hk => by rw [flagged, e3]; exact h.idle (by omega), fun hk => by
    rw [flagged, fresh, e2, e3, e4, e5, e6]
    exact h.run (by omega)⟩

theorem Count.start {f : ℕ} (hi : Inv nc ni o) (h : Count o f) : Count o.startNewIteration f ∧ o.startNewIteration.kEst ≠ o.startNewIteration.kData := by
  by_cases hk : o.kEst = o.kData
  · rw [startNewIteration, if_pos hk]
    refine ⟨⟨fun hk' => by dsimp only at hk'; omega, fun _ => ⟨?_, ?_⟩⟩, by dsimp only; omega⟩
    · have : fresh { o with kData := o.kData + 1, nReal := 0, nIMU := 0 } = 0 := by
        refine List.countP_eq_zero.2 fun m hm => ?_
        have := hi.2.imuTime m hm
        simp only [decide_eq_true_eq]
        omega
      rw [this]
      rfl
    · have := h.idle hk
      simp only [flagged] at this ⊢
      omega
  · rw [start_running hk]
    exact ⟨h, hk⟩

/-- A call other than `update`, `clearContacts`, `resetInputs`. -/
theorem Count.exec {f : ℕ} (hi : Inv nc ni o) (h : Count o f) {op : Op} (h1 : op ≠ .update) (h2 : op ≠ .clearContacts) (h3 : op ≠ .resetInputs)
    (e : Op.exec o op = .ok o') : Count o' f := by
  obtain ⟨hs, hrun⟩ := h.start hi
  by_cases hd : op.isData = true
  · exact hs.book (book_data op hd e)
  by_cases hn : op.isSensor = false
  · exact h.book (book_inner op (by simpa using hd) hn e)
  cases op <;> simp [Op.isSensor] at hn
  case update => exact absurd rfl h1
  case clearContacts => exact absurd rfl h2
  case resetInputs => exact absurd rfl h3
  case removeContact n =>
    obtain ⟨c, -, hc, hc', rfl⟩ := removeContact_eq e
    have hw : c.withRealSensor = false := by
      cases hcw : c.withRealSensor
      · rfl
      · rw [hi.2.conSensor c (List.mem_of_getElem? hc) hcw] at hc'; cases hc'
    have key := countP_set' (fun c : Contact => c.withRealSensor) _ _ _ { c with isSet := false, withRealSensor := false } hc
    simp only [hw] at key
    refine ⟨fun hk => ?_, fun hk => ?_⟩
    · have := h.idle hk
      simp only [flagged] at this ⊢
      omega
    · obtain ⟨r1, r2⟩ := h.run hk
      refine ⟨r1, ?_⟩
      simp only [flagged, hw] at r2 ⊢
      simp at key ⊢
      omega
  case setAbsolutePoseSensor => cases e; exact ⟨fun hk => absurd hk hrun, fun _ => hs.run hrun⟩
  case setIMU a g cov k num =>
    simp only [Op.exec, Res.bind_eq_ok] at e
    obtain ⟨⟨n, o1⟩, e1, e2⟩ := e
    cases e2
    obtain ⟨m, kin, c1, c2, -, hm, -, -, rfl⟩ := setIMU_eq e1
    simp only [selectIMU, Res.bind_eq_ok] at hm
    obtain ⟨_, -, m', hm, _, hb, hm'⟩ := hm
    cases hm'
    have hm := rd_ok hm
    have hb := Res.assert_ok hb
    rw [start_imus] at hm
    simp only [decide_eq_true_eq] at hb
    obtain ⟨r1, r2⟩ := hs.run hrun
    refine ⟨fun hk => absurd hk hrun, fun _ => ⟨?_, r2⟩⟩
    show o.startNewIteration.nIMU + 1 = _
    rw [r1]
    simp only [fresh]
    rw [countP_set' _ _ _ _ _ hm, start_imus]
    simp
    omega
  case updateContactWithWrenchSensor w cov k n =>
    obtain ⟨c, kin, sc, -, hc, -, -, -, rfl⟩ := updateContactWithWrenchSensor_eq e
    obtain ⟨r1, r2⟩ := hs.run hrun
    refine ⟨fun hk => absurd hk hrun, fun _ => ⟨r1, ?_⟩⟩
    simp only [flagged] at r2 ⊢
    rw [countP_set' _ _ _ _ _ hc]
    rw [start_contacts] at r2
    cases hcw : c.withRealSensor <;> simp <;> omega
  case updateContactWithNoSensor k n =>
    obtain ⟨c, kin, -, hc, -, -, rfl⟩ := updateContactWithNoSensor_eq e
    obtain ⟨r1, r2⟩ := hs.run hrun
    refine ⟨fun hk => absurd hk hrun, fun _ => ⟨r1, ?_⟩⟩
    simp only [flagged] at r2 ⊢
    rw [countP_set' _ _ _ _ _ hc]
    rw [start_contacts] at r2
    cases hcw : c.withRealSensor <;> simp <;> omega
  case addContact pose cov num v =>
    simp only [Op.exec, Res.bind_eq_ok] at e
    obtain ⟨⟨n, o1⟩, e1, e2⟩ := e
    cases e2
    obtain ⟨c, c', x, e, -, -, hc, -, -, -, hw, rfl⟩ := addContact_eq e1
    have key : flagged { o with contacts := o.contacts.set n c', x := x, ekf := e } = flagged o := by
      have := countP_set' (fun c : Contact => c.withRealSensor) _ _ _ c' hc
      simp only [hw] at this
      simp only [flagged]
      omega
    refine ⟨fun hk => by rw [key]; exact h.idle hk, fun hk => ?_⟩
    obtain ⟨r1, r2⟩ := h.run hk
    exact ⟨r1, by rw [key]; exact r2⟩

/-- `update()` with new data returns only if no contact had a sensor at the beginning of the iteration. -/
theorem Count.update {f : ℕ} (hi : Inv nc ni o) (h : Count o f) (hk : o.kEst ≠ o.kData) (e : o.update = .ok o') : f = 0 ∧ Count o' (flagged o) := by
  obtain ⟨r1, r2⟩ := h.run hk
  have hE : f = 0 := by
    rw [Observer.update, if_pos hk] at e
    simp only [Res.bind_eq_ok] at e
    obtain ⟨⟨o1, y, cov⟩, e1, -⟩ := e
    obtain ⟨-, -, -, s1, s2, -⟩ := buildMeasurement_holds e1
    simp only [flagged, fresh] at r1 r2
    split_ifs at s1 s2 <;> omega
  refine ⟨hE, ?_⟩
  obtain ⟨imus, contacts, -, hc, eb⟩ := book_update e hk
  have e3 := congrArg Book.contacts eb
  simp only [Observer.book] at e3
  have hfl : flagged o' = flagged o := by
    rw [flagged, e3]
    exact forall₂_countP (fun a b ⟨j, hj⟩ => by rw [hj]) hc
  have e1 := congrArg Book.kEst eb
  have e2 := congrArg Book.kData eb
  simp only [Observer.book] at e1 e2
  have := hi.2.time
  exact ⟨fun _ => hfl, fun hne => absurd (by omega) hne⟩

theorem Count.reachable {l : List Op} (h : Reachable nc ni l o) (h1 : .clearContacts ∉ l) (h2 : .resetInputs ∉ l) : ∃ f, Count o f := by
  obtain ⟨o0, h0, hr⟩ := h
  have key : ∀ (l : List Op) (o : Observer), Inv nc ni o → (∃ f, Count o f) → .clearContacts ∉ l → .resetInputs ∉ l → ∀ o', Op.run o l = .ok o' → ∃ f, Count o' f := by
    intro l
    induction l with
    | nil => intro o _ hc _ _ o' e; cases e; exact hc
    | cons op l ih =>
      rintro o hi ⟨f, hc⟩ n1 n2 o' e
      rw [Op.run, List.foldlM_cons, Res.bind_eq_ok] at e
      obtain ⟨o1, e1, e2⟩ := e
      refine ih o1 (inv_exec op hi e1) ?_ (by simp at n1; exact n1.2) (by simp at n2; exact n2.2) o' e2
      by_cases hu : op = .update
      · subst hu
        by_cases hk : o.kEst = o.kData
        · simp [Op.exec, Observer.update, hk] at e1
          subst e1
          exact ⟨f, hc⟩
        · exact ⟨_, (hc.update hi hk e1).2⟩
      · exact ⟨f, hc.exec hi hu (by rintro rfl; simp at n1) (by rintro rfl; simp at n2) e1⟩
  refine key l o0 (inv_construct h0) ⟨0, ?_⟩ h1 h2 o hr
  have hs := Sim.new h0
  have hz : flagged o0 = 0 := List.countP_eq_zero.2 fun c hcc => by simp [(hs.fed.con c hcc).1]
  refine ⟨fun _ => hz, fun hk => ?_⟩
  have := hs.pending.2 hk
  simp [Client.new] at this

/-- With a sensor at the beginning of the iteration, no more estimation. -/
theorem Count.frozen {f : ℕ} (hf : 0 < f) : ∀ (l : List Op) (o : Observer), Inv nc ni o → Count o f → .clearContacts ∉ l → .resetInputs ∉ l → ∀ o', Op.run o l = .ok o' →
    o'.kEst = o.kEst := by
  intro l
  induction l with
  | nil => intro o _ hc _ _ o' e; cases e; rfl
  | cons op l ih =>
    rintro o hi hc n1 n2 o' e
    rw [Op.run, List.foldlM_cons, Res.bind_eq_ok] at e
    obtain ⟨o1, e1, e2⟩ := e
    have n1' : .clearContacts ∉ l := by simp at n1; exact n1.2
    have n2' : .resetInputs ∉ l := by simp at n2; exact n2.2
    by_cases hu : op = .update
    · subst hu
      by_cases hk : o.kEst = o.kData
      · simp [Op.exec, Observer.update, hk] at e1
        subst e1
        exact ih o hi hc n1' n2' o' e2
      · have := (hc.update hi hk e1).1
        omega
    · have h1 := ih o1 (inv_exec op hi e1) (hc.exec hi hu (by rintro rfl; simp at n1) (by rintro rfl; simp at n2) e1) n1' n2' o' e2
      rw [h1]
      exact (clock_exec hi op e1 hu).1

/-- The absolute pose has been given in the iteration. -/
def Posed (o : Observer) : Prop := o.abs.time = o.kData ∧ o.kEst ≠ o.kData

/-- `update()` does not return then: the measurement has one number more than its error. -/
theorem Posed.update (hi : Inv nc ni o) (h : Posed o) : ∀ o', o.update ≠ .ok o' := by
  intro o' e
  rw [Observer.update, if_pos h.2] at e
  simp only [Res.bind_eq_ok] at e
  obtain ⟨⟨o1, y, cov⟩, e1, e, e2, -⟩ := e
  obtain ⟨-, -, -, -, s1, s2⟩ := buildMeasurement_holds e1
  obtain ⟨imus, contacts, abs, m, mt, rfl, -⟩ := buildMeasurement_ok e1
  have hk : o.kData = o.kEst + 1 := by have := hi.2.time; have := h.2; omega
  obtain ⟨v, xb, yb, xhat, inn, A, C, Q, P0, R, P, K, st, -, -, -, hm, -⟩ := runFilter_ok (N := 19 + ni * 3 + nc * 13) (NT := 18 + ni * 3 + 12 * nc) (by exact hk) (by exact hi.2.ekf) e2
  rw [if_pos h.1] at s1 s2
  dsimp only at hm s1 s2
  omega

theorem Posed.exec (hi : Inv nc ni o) (h : Posed o) {op : Op} (h3 : op ≠ .resetInputs) (e : Op.exec o op = .ok o') : Posed o' := by
  by_cases h1 : op = .update
  · subst h1
    exact absurd e (h.update hi o')
  have hst := start_running h.2
  obtain ⟨c1, c2, c3⟩ := clock_exec hi op e h1
  have hk := hi.2.time
  have hne := h.2
  have hD : o'.kData = o.kData := by
    by_cases hb : op.BringsData
    · rw [c2 hb]; omega
    · exact c3 hb
  refine ⟨?_, by omega⟩
  rw [hD]
  by_cases hd : op.isData = true
  · have eb := congrArg Book.absTime (book_data op hd e)
    rw [hst] at eb
    exact eb.trans h.1
  by_cases hn : op.isSensor = false
  · exact (congrArg Book.absTime (book_inner op (by simpa using hd) hn e)).trans h.1
  cases op <;> simp [Op.isSensor] at hn
  case update => exact absurd rfl h1
  case clearContacts => cases e; exact h.1
  case resetInputs => exact absurd rfl h3
  case removeContact n =>
    obtain ⟨c, -, hc, hc', rfl⟩ := removeContact_eq e
    exact h.1
  case setAbsolutePoseSensor => cases e; exact congrArg Observer.kData hst
  case setIMU a g cov k num =>
    simp only [Op.exec, Res.bind_eq_ok] at e
    obtain ⟨⟨n, o1⟩, e1, e2⟩ := e
    cases e2
    obtain ⟨m, kin, c1, c2, -, hm, -, -, rfl⟩ := setIMU_eq e1
    rw [hst]; exact h.1
  case updateContactWithWrenchSensor w cov k n =>
    obtain ⟨c, kin, sc, -, hc, -, -, -, rfl⟩ := updateContactWithWrenchSensor_eq e
    rw [hst]; exact h.1
  case updateContactWithNoSensor k n =>
    obtain ⟨c, kin, -, hc, -, -, rfl⟩ := updateContactWithNoSensor_eq e
    rw [hst]; exact h.1
  case addContact pose cov num v =>
    simp only [Op.exec, Res.bind_eq_ok] at e
    obtain ⟨⟨n, o1⟩, e1, e2⟩ := e
    cases e2
    obtain ⟨c, c', x, e, -, -, hc, -, -, -, hw, rfl⟩ := addContact_eq e1
    exact h.1

theorem afterFilter_ekf {e : KFilter EKF.Ext} (h : o.afterFilter e = .ok o') : o'.ekf = e := by
  simp only [afterFilter, Res.bind_eq_ok] at h
  obtain ⟨x, -, o2, h4, h5⟩ := h
  have e2 : o2.ekf = e := by
    simp only [updateKine, Res.bind_eq_ok] at h4
    obtain ⟨s, -, k, -, h2⟩ := h4
    cases h2; rfl
  split_ifs at h5
  · simp only [estimateAccelerations, Res.bind_eq_ok] at h5
    obtain ⟨_, -, _, -, h⟩ := h5
    cases h; exact e2
  · cases h5; exact e2

theorem run_append {l l' : List Op} : Op.run o (l ++ l') = .ok o' ↔ ∃ o1, Op.run o l = .ok o1 ∧ Op.run o1 l' = .ok o' := by
  rw [Op.run, List.foldlM_append, Res.bind_eq_ok]
  rfl

theorem run_cons {op : Op} {l : List Op} : Op.run o (op :: l) = .ok o' ↔ ∃ o1, Op.exec o op = .ok o1 ∧ Op.run o1 l = .ok o' := by
  rw [Op.run, List.foldlM_cons, Res.bind_eq_ok]
  rfl

theorem inv_run : ∀ (l : List Op) (o : Observer), Inv nc ni o → ∀ o', Op.run o l = .ok o' → Inv nc ni o' := by
  intro l o hi o' e
  exact Res.foldlM_inv (Inv nc ni) (fun b a b' hb e => inv_exec a hb e) _ _ _ e hi

theorem Count.noUpdate {f : ℕ} : ∀ (l : List Op) (o : Observer), Inv nc ni o → Count o f → .clearContacts ∉ l → .resetInputs ∉ l → .update ∉ l → ∀ o', Op.run o l = .ok o' → Count o' f := by
  intro l
  induction l with
  | nil => intro o _ hc _ _ _ o' e; cases e; exact hc
  | cons op l ih =>
    rintro o hi hc n1 n2 n3 o' e
    obtain ⟨o1, e1, e2⟩ := run_cons.1 e
    simp only [List.mem_cons, not_or] at n1 n2 n3
    exact ih o1 (inv_exec op hi e1) (hc.exec hi (Ne.symm n3.1) (Ne.symm n1.1) (Ne.symm n2.1) e1) n1.2 n2.2 n3.2 o' e2

theorem Posed.run : ∀ (l : List Op) (o : Observer), Inv nc ni o → Posed o → .resetInputs ∉ l → ∀ o', Op.run o l = .ok o' → Posed o' ∧ .update ∉ l := by
  intro l
  induction l with
  | nil => intro o _ hc _ o' e; cases e; exact ⟨hc, by simp⟩
  | cons op l ih =>
    rintro o hi hc n2 o' e
    rw [Op.run, List.foldlM_cons, Res.bind_eq_ok] at e
    obtain ⟨o1, e1, e2⟩ := e
    simp only [List.mem_cons, not_or] at n2
    have hp := hc.exec hi (Ne.symm n2.1) e1
    obtain ⟨r1, r2⟩ := ih o1 (inv_exec op hi e1) hp n2.2 o' e2
    refine ⟨r1, ?_⟩
    simp only [List.mem_cons, not_or]
    refine ⟨?_, r2⟩
    rintro rfl
    exact hc.update hi o1 e1

/-- The contact has a wrench sensor. -/
def Wired (n : ℕ) (o : Observer) : Prop := ∃ c, o.contacts[n]? = some c ∧ c.withRealSensor = true

theorem Wired.exec {n : ℕ} (hi : Inv nc ni o) (h : Wired n o) {op : Op} (h2 : op ≠ .clearContacts) (h3 : ∀ k, op ≠ .updateContactWithNoSensor k n)
    (e : Op.exec o op = .ok o') : Wired n o' := by
  obtain ⟨c, hc, hw⟩ := h
  have hlen : n < o.contacts.length := by
    by_contra hh
    rw [List.getElem?_eq_none (by omega)] at hc
    cases hc
  have key : ∀ (j : ℕ) (c' : Contact), (j = n → c'.withRealSensor = true) → ∃ c, (o.contacts.set j c')[n]? = some c ∧ c.withRealSensor = true := by
    intro j c' hj
    by_cases hjn : j = n
    · subst hjn
      rw [List.getElem?_set_self hlen]
      exact ⟨c', rfl, hj rfl⟩
    · rw [List.getElem?_set_ne hjn]
      exact ⟨c, hc, hw⟩
  by_cases hd : op.isData = true
  · have eb := congrArg Book.contacts (book_data op hd e)
    simp only [Observer.book, start_contacts] at eb
    exact ⟨c, by rw [eb]; exact hc, hw⟩
  by_cases hn : op.isSensor = false
  · have eb := congrArg Book.contacts (book_inner op (by simpa using hd) hn e)
    simp only [Observer.book] at eb
    exact ⟨c, by rw [eb]; exact hc, hw⟩
  cases op <;> simp [Op.isSensor] at hn
  case update =>
    by_cases hk : o.kEst = o.kData
    · simp [Op.exec, Observer.update, hk] at e
      subst e
      exact ⟨c, hc, hw⟩
    · obtain ⟨imus, contacts, -, h2, eb⟩ := book_update e hk
      have eb := congrArg Book.contacts eb
      simp only [Observer.book] at eb
      have hl := h2.length_eq
      obtain ⟨c', hc'⟩ : ∃ c', contacts[n]? = some c' := ⟨_, List.getElem?_eq_getElem (by omega)⟩
      obtain ⟨c0, h0, j, rfl⟩ := forall₂_get h2 n c' hc'
      rw [hc] at h0
      cases h0
      exact ⟨{ c with measIndex := j }, by rw [eb]; exact hc', hw⟩
  case clearContacts => exact absurd rfl h2
  case resetInputs =>
    cases e
    refine ⟨{ c with time := o.kEst }, ?_, hw⟩
    show (o.contacts.map _)[n]? = _
    rw [List.getElem?_map, hc]
    rfl
  case removeContact j =>
    obtain ⟨c', -, hc1, hc2, rfl⟩ := removeContact_eq e
    refine key _ _ fun hj => ?_
    rw [hj, hc] at hc1
    cases hc1
    rw [hi.2.conSensor c (List.mem_of_getElem? hc) hw] at hc2
    cases hc2
  case setAbsolutePoseSensor => cases e; exact ⟨c, by show o.startNewIteration.contacts[n]? = _; rw [start_contacts]; exact hc, hw⟩
  case setIMU a g cov k num =>
    simp only [Op.exec, Res.bind_eq_ok] at e
    obtain ⟨⟨n, o1⟩, e1, e2⟩ := e
    cases e2
    obtain ⟨m, kin, c1, c2, -, hm, -, -, rfl⟩ := setIMU_eq e1
    exact ⟨c, by show o.startNewIteration.contacts[_]? = _; rw [start_contacts]; exact hc, hw⟩
  case updateContactWithWrenchSensor w cov k j =>
    obtain ⟨c', kin, sc, -, -, -, -, -, rfl⟩ := updateContactWithWrenchSensor_eq e
    exact key _ _ fun _ => rfl
  case updateContactWithNoSensor k j =>
    obtain ⟨c', kin, -, hc', -, -, rfl⟩ := updateContactWithNoSensor_eq e
    exact key _ _ fun hj => absurd (by rw [hj]) (h3 k)
  case addContact pose cov num v =>
    simp only [Op.exec, Res.bind_eq_ok] at e
    obtain ⟨⟨j, o1⟩, e1, e2⟩ := e
    cases e2
    obtain ⟨c', c'', x, e, -, -, hc', -, -, -, hw', rfl⟩ := addContact_eq e1
    refine key _ _ fun hj => ?_
    subst hj
    rw [hc] at hc'
    cases hc'
    rw [hw', hw]

theorem Wired.run {n : ℕ} : ∀ (l : List Op) (o : Observer), Inv nc ni o → Wired n o → .clearContacts ∉ l → (∀ k, .updateContactWithNoSensor k n ∉ l) → ∀ o', Op.run o l = .ok o' →
    Wired n o' := by
  intro l
  induction l with
  | nil => intro o _ hc _ _ o' e; cases e; exact hc
  | cons op l ih =>
    rintro o hi hc n1 n2 o' e
    rw [Op.run, List.foldlM_cons, Res.bind_eq_ok] at e
    obtain ⟨o1, e1, e2⟩ := e
    simp only [List.mem_cons, not_or] at n1 n2
    exact ih o1 (inv_exec op hi e1) (hc.exec hi (Ne.symm n1.1) (fun k => Ne.symm (n2 k).1) e1) n1.2 (fun k => (n2 k).2) o' e2

end StateObs.KO
