import Verif.Logger.Spec
import Verif.IndexedArray.FileProps
import Mathlib.Data.Int.Cast.Lemmas
/-!
# Properties C68, C78 of the logger
-/

namespace StateObs.Logger
variable {β Tok : Type} {s s' : Logger β}

/-! ### the map -/

/-- Addresses in increasing order. -/
def Sorted (l : List (Int × Log β)) : Prop := l.Pairwise fun a b => a.1 < b.1

theorem find_cons (j : Int) (v : Log β) (t : List (Int × Log β)) (a : Int) : find ((j, v) :: t) a = if j = a then some v else find t a := by
  by_cases h : j = a <;> simp [find, h]

theorem find_none {l : List (Int × Log β)} {a : Int} (h : ∀ e ∈ l, a < e.1) : find l a = none := by
  induction l with
  | nil => rfl
  | cons e t ih =>
    obtain ⟨j, v⟩ := e
    have := h _ (List.mem_cons_self ..)
    simp only at this
    rw [find_cons, if_neg (by omega), ih fun e he => h e (List.mem_cons_of_mem _ he)]

theorem insert_find {l : List (Int × Log β)} (hl : Sorted l) (k : Int) (u : Log β) (a : Int) :
    find (insert l k u) a = if a = k then (find l k).or (some u) else find l a := by
  induction l with
  | nil => rw [insert, find_cons]; simp [find, eq_comm]
  | cons e t ih =>
    obtain ⟨j, v⟩ := e
    obtain ⟨h1, h2⟩ := List.pairwise_cons.1 hl
    unfold insert
    by_cases c1 : k < j
    · rw [if_pos c1, find_cons]
      by_cases c3 : k = a
      · subst c3
        rw [if_pos rfl, if_pos rfl, find_none]
        · rfl
        · intro e he
          rcases List.mem_cons.1 he with rfl | he
          · exact c1
          · have := h1 _ he; simp only at this; omega
      · rw [if_neg c3, if_neg (by omega)]
    · rw [if_neg c1]
      by_cases c2 : k = j
      · subst c2
        rw [if_pos rfl]
        by_cases c3 : a = k
        · subst c3
          rw [if_pos rfl, find_cons, if_pos rfl]; rfl
        · rw [if_neg c3]
      · rw [if_neg c2, find_cons, ih h2, find_cons, find_cons]
        by_cases c3 : a = k
        · subst c3
          rw [if_neg (by omega), if_pos rfl, if_pos rfl, if_neg (by omega)]
        · rw [if_neg c3, if_neg c3]

theorem mem_insert {l : List (Int × Log β)} {k : Int} {u : Log β} {e : Int × Log β} (h : e ∈ insert l k u) : e = (k, u) ∨ e ∈ l := by
  induction l with
  | nil => simpa [insert] using h
  | cons b t ih =>
    obtain ⟨j, v⟩ := b
    unfold insert at h
    split_ifs at h
    · exact List.mem_cons.1 h
    · exact .inr h
    · rcases List.mem_cons.1 h with h | h
      · exact .inr (h ▸ List.mem_cons_self ..)
      · rcases ih h with h | h
        · exact .inl h
        · exact .inr (List.mem_cons_of_mem _ h)

theorem sorted_insert {l : List (Int × Log β)} (hl : Sorted l) (k : Int) (u : Log β) : Sorted (insert l k u) := by
  induction l with
  | nil => simp [insert, Sorted]
  | cons b t ih =>
    obtain ⟨j, v⟩ := b
    obtain ⟨h1, h2⟩ := List.pairwise_cons.1 hl
    unfold insert
    split_ifs with c1 c2
    · refine List.pairwise_cons.2 ⟨fun e he => ?_, hl⟩
      rcases List.mem_cons.1 he with rfl | he
      · exact c1
      · have := h1 _ he; simp only at this ⊢; omega
    · exact hl
    · refine List.pairwise_cons.2 ⟨fun e he => ?_, ih h2⟩
      rcases mem_insert he with rfl | he
      · simp only; omega
      · exact h1 _ he

theorem erase_find (l : List (Int × Log β)) (k a : Int) : find (erase l k) a = if a = k then none else find l a := by
  induction l with
  | nil => simp [erase, find]
  | cons e t ih =>
    obtain ⟨j, v⟩ := e
    unfold erase at ih ⊢
    rw [List.filter_cons]
    by_cases h : j = k
    · rw [if_neg (by simpa using h), ih, find_cons]
      split_ifs with h1 h2
      · rfl
      · omega
      · rfl
    · rw [if_pos (by simpa using h), find_cons, find_cons, ih]
      split_ifs with h1 h2 <;> first | rfl | omega

theorem sorted_of_keys {l l' : List (Int × Log β)} (h : l'.map (·.1) = l.map (·.1)) (hl : Sorted l) : Sorted l' := by
  have : ∀ l : List (Int × Log β), Sorted l ↔ (l.map (·.1)).Pairwise (· < ·) := fun l => by rw [List.pairwise_map]; rfl
  rw [this, h, ← this]; exact hl

theorem pushLoop_keys (m : Memory β) (l : List (Int × Log β)) (sc : List β) : (pushLoop m l sc).1.map (·.1) = l.map (·.1) := by
  induction l generalizing sc with
  | nil => rfl
  | cons e t ih => obtain ⟨j, v⟩ := e; simp [pushLoop, ih]

theorem pushLoop_find (m : Memory β) {l : List (Int × Log β)} (hl : ∀ e ∈ l, e.2.type.recordable = true) (sc : List β) (a : Int) :
    find (pushLoop m l sc).1 a = (find l a).map fun log => { log with array := log.array.pushBack (m a log.type) } := by
  induction l generalizing sc with
  | nil => rfl
  | cons e t ih =>
    obtain ⟨j, v⟩ := e
    simp only [pushLoop]
    rw [find_cons, find_cons, ih fun e he => hl e (List.mem_cons_of_mem _ he)]
    split_ifs with h
    · subst h
      have := hl _ (List.mem_cons_self ..)
      obtain ⟨arr, fn, ty⟩ := v
      cases ty <;> simp [LogType.recordable] at this <;> rfl
    · rfl

theorem find_mem {l : List (Int × Log β)} {a : Int} {v : Log β} (h : find l a = some v) : (a, v) ∈ l := by
  induction l with
  | nil => simp [find] at h
  | cons e t ih =>
    obtain ⟨j, w⟩ := e
    rw [find_cons] at h
    split_ifs at h with h1
    · subst h1; cases h; exact List.mem_cons_self ..
    · exact List.mem_cons_of_mem _ (ih h)

/-- The map agrees with what is tracked. -/
structure Agree (s : Logger β) (m : Int → Option (Track β)) : Prop where
  sorted : Sorted s.logs
  rec' : ∀ e ∈ s.logs, e.2.type.recordable = true
  find : ∀ a, (Logger.find s.logs a).map (fun g => (g.type, g.filename, g.array.v, g.array.k + (g.array.v.length : Int))) =
    (m a).map fun r => (r.type, r.filename, r.values, (r.count : Int))

theorem agree_records {m : Int → Option (Track β)} (h : Agree s m) (a : Int) : Records s a (m a) := by
  have := h.find a
  cases hm : m a with
  | none =>
    rw [hm] at this
    simp only [Option.map_none, Option.map_eq_none_iff] at this
    simp [Records, getRecord, this]
  | some r =>
    rw [hm] at this
    simp only [Option.map_some, Option.map_eq_some_iff, Prod.mk.injEq] at this
    obtain ⟨g, h1, -, -, h2, h3⟩ := this
    exact ⟨g.array, by simp [getRecord, h1], h2, h3⟩

theorem agree_exec {m : Int → Option (Track β)} (h : Agree s m) (c : Call β) (hc : ∀ o n t, c ≠ .updateAddress o n t)
    (he : c.exec s = .ok s') : Agree s' (expect m c) := by
  cases c with
  | setPath p => cases he; exact ⟨h.sorted, h.rec', h.find⟩
  | record a t f =>
    simp only [Call.exec, record, Res.bind_eq_ok] at he
    obtain ⟨_, h1, h2⟩ := he
    cases h2
    have ht : t.recordable = true := by
      by_contra hn
      rw [Bool.not_eq_true] at hn
      rw [hn] at h1
      cases h1
    refine ⟨sorted_insert h.sorted _ _, fun e he => ?_, fun b => ?_⟩
    · rcases mem_insert he with rfl | he
      · exact ht
      · exact h.rec' e he
    · simp only
      rw [insert_find h.sorted]
      simp only [expect]
      have := h.find a
      split_ifs with hb
      · subst hb
        cases hf : Logger.find s.logs b with
        | none =>
          rw [hf] at this
          simp only [Option.map_none, eq_comm (a := none), Option.map_eq_none_iff] at this
          simp [this, IArr.empty]
        | some g =>
          rw [hf] at this
          cases hm : m b with
          | none => rw [hm] at this; simp at this
          | some r => rw [hm] at this; simpa using this
      · exact h.find b
  | push mem =>
    cases he
    refine ⟨sorted_of_keys (pushLoop_keys _ _ _) h.sorted, fun e he => ?_, fun b => ?_⟩
    · obtain ⟨a, g⟩ := e
      have : ∀ (l : List (Int × Log β)) sc, (∀ e ∈ l, e.2.type.recordable = true) → ∀ e ∈ (pushLoop mem l sc).1, e.2.type.recordable = true := by
        intro l
        induction l with
        | nil => intro sc _ e he; simp [pushLoop] at he
        | cons x t ih =>
          obtain ⟨j, v⟩ := x
          intro sc hl e he
          simp only [pushLoop, List.mem_cons] at he
          rcases he with rfl | he
          · have := hl _ (List.mem_cons_self ..)
            obtain ⟨arr, fn, ty⟩ := v
            cases ty <;> exact this
          · exact ih _ (fun e he => hl e (List.mem_cons_of_mem _ he)) e he
      exact this _ _ h.rec' _ he
    · show (Logger.find (pushLoop mem s.logs s.scalar).1 b).map _ = _
      rw [pushLoop_find mem h.rec']
      simp only [expect]
      have := h.find b
      cases hf : Logger.find s.logs b with
      | none =>
        rw [hf] at this
        simp only [Option.map_none, eq_comm (a := none), Option.map_eq_none_iff] at this
        simp [this]
      | some g =>
        rw [hf] at this
        cases hm : m b with
        | none => rw [hm] at this; simp at this
        | some r =>
          rw [hm] at this
          simp only [Option.map_some, Option.some.injEq, Prod.mk.injEq] at this ⊢
          obtain ⟨e1, e2, e3, e4⟩ := this
          refine ⟨e1, e2, by simp [IArr.pushBack, e1, e3], ?_⟩
          simp only [IArr.pushBack, List.length_append, List.length_singleton]
          push_cast
          omega
  | pushOne mem a =>
    simp only [Call.exec, pushOne] at he
    split at he <;> cases he
  | updateAddress o n t => exact absurd rfl (hc o n t)
  | clearTracking => cases he; exact ⟨List.Pairwise.nil, fun e he => (by simp [clearTracking] at he), fun a => rfl⟩
  | clearLogs =>
    cases he
    have hfind : ∀ (l : List (Int × Log β)) b, Logger.find (l.map fun e => (e.1, { e.2 with array := e.2.array.clear })) b =
        (Logger.find l b).map fun g => { g with array := g.array.clear } := by
      intro l b
      induction l with
      | nil => rfl
      | cons e t ih =>
        obtain ⟨j, v⟩ := e
        rw [List.map_cons, find_cons, find_cons, ih]
        split_ifs <;> rfl
    refine ⟨sorted_of_keys (by simp [clearLogs]) h.sorted, fun e he => ?_, fun b => ?_⟩
    · simp only [clearLogs, List.mem_map] at he
      obtain ⟨e', h1, rfl⟩ := he
      exact h.rec' e' h1
    · show (Logger.find (s.logs.map _) b).map _ = _
      rw [hfind]
      simp only [expect]
      have := h.find b
      cases hf : Logger.find s.logs b with
      | none =>
        rw [hf] at this
        simp only [Option.map_none, eq_comm (a := none), Option.map_eq_none_iff] at this
        simp [this]
      | some g =>
        rw [hf] at this
        cases hm : m b with
        | none => rw [hm] at this; simp at this
        | some r =>
          rw [hm] at this
          simp only [Option.map_some, Option.some.injEq, Prod.mk.injEq] at this ⊢
          obtain ⟨e1, e2, e3, e4⟩ := this
          exact ⟨e1, e2, rfl, by simpa [IArr.clear] using e4⟩

theorem agree_run (l : List (Call β)) (hc : ∀ c ∈ l, ∀ o n t, c ≠ .updateAddress o n t) :
    ∀ {s s' : Logger β} {m : Int → Option (Track β)}, Agree s m → run s l = .ok s' → Agree s' (l.foldl expect m) := by
  induction l with
  | nil => intro s s' m h hr; cases hr; exact h
  | cons c l ih =>
    intro s s' m h hr
    simp only [run, Res.bind_eq_ok] at hr
    obtain ⟨s1, h1, h2⟩ := hr
    exact ih (fun c hc' => hc c (List.mem_cons_of_mem _ hc')) (agree_exec h c (hc c (List.mem_cons_self ..)) h1) h2

/-! ### C68 -/

/-- **C68**, for every history without `updateAddress`: `getRecord a` returns exactly the values the variable had at each `push()`
since it was recorded (since the logs were last cleared), indexed by the number of the push, and fails its assertion exactly for
addresses that are not tracked. -/
theorem C68_partial (z : β) (l : List (Call β)) (hc : ∀ c ∈ l, ∀ o n t, c ≠ .updateAddress o n t) (h : run (new z) l = .ok s) (a : Int) :
    Records s a (expected l a) :=
  
  agree_records (agree_run l hc (s := new z) (m := fun _ => none) ⟨List.Pairwise.nil, fun e he => by simp [new] at he, fun _ => rfl⟩ h) a

/-- Non-vacuity: a history with two variables, two pushes, a clear and another push. -/
example (m1 m2 m3 : Memory β) (z : β) : ∃ s, run (new z) [.record 8 .vector "a", .push m1, .record 4 .int "", .push m2, .clearLogs, .push m3] = .ok s ∧
    expected [.record 8 .vector "a", .push m1, .record 4 .int "", .push m2, .clearLogs, .push m3] 8 = some ⟨.vector, "a", 3, [m3 8 .vector]⟩ ∧
    s.getRecord 8 = .ok ⟨2, [m3 8 .vector]⟩ ∧ s.getRecord 4 = .ok ⟨1, [m3 4 .int]⟩ := by
  refine ⟨_, rfl, rfl, rfl, rfl⟩

/-- **C68** fails for `push(address)`: it never returns, tracked or not (hxx 43-46: the `throw` is executed in both cases). -/
theorem C68_push_address_false (s : Logger β) (m : Memory β) (a : Int) : ∀ r, s.pushOne m a ≠ .ok r := by
  intro r h
  unfold pushOne at h
  split at h <;> cases h

/-- The types a variable can be tracked with (logger.hxx 11-18). `unsigned` is not among them although `push` knows how to read it. -/
theorem C68_record_types (s : Logger β) (a : Int) (t : LogType) (f : String) :
    (∃ s', s.record a t f = .ok s') ↔ t ∈ [.matrix, .vector, .matrix3, .vector3, .int, .long, .double, .float] := by
  cases t <;> simp [record, LogType.recordable, Res.assert]

/-- **C68** fails for `updateAddress`: in every state, moving a tracked variable to an address that is not tracked loses all its values
and restarts its indexing at zero (hxx 67-69). -/
theorem C68_updateAddress_loses (hs : Sorted s.logs) {old new' : Int} (t : LogType) {arr : IArr (List β)} (h : s.getRecord old = .ok arr)
    (hn : s.getRecord new' = .assertFail) :
    ∃ s', s.updateAddress old new' t = .ok s' ∧ s'.getRecord new' = .ok ⟨0, []⟩ ∧ s'.getRecord old = .assertFail := by
  unfold getRecord at h hn
  cases ho : find s.logs old with
  | none => rw [ho] at h; cases h
  | some g =>
    cases hne : find s.logs new' with
    | some g' => rw [hne] at hn; cases hn
    | none =>
      have hd : new' ≠ old := by rintro rfl; rw [ho] at hne; cases hne
      refine ⟨_, by rw [updateAddress, ho], ?_, ?_⟩
      · simp only [getRecord]
        rw [erase_find, if_neg hd, insert_find hs, if_pos rfl, hne]
        rfl
      · simp only [getRecord]
        rw [erase_find, if_pos rfl]

/-- **C68** fails for `updateAddress` with the same address: the variable is not tracked any more. -/
theorem C68_updateAddress_same (s : Logger β) {a : Int} (t : LogType) {arr : IArr (List β)} (h : s.getRecord a = .ok arr) :
    ∃ s', s.updateAddress a a t = .ok s' ∧ s'.getRecord a = .assertFail := by
  unfold getRecord at h
  cases ho : find s.logs a with
  | none => rw [ho] at h; cases h
  | some g =>
    refine ⟨_, by rw [updateAddress, ho], ?_⟩
    simp only [getRecord]
    rw [erase_find, if_pos rfl]

/-- **C68** fails for `updateAddress` with a type that `record` would reject: it is accepted, and the following `push()` records the last
scalar pushed for another variable instead of the value at the address. -/
theorem C68_updateAddress_type (z : β) (m1 m2 : Memory β) : ∃ s,
    run (new z) [.record 1 .double "x", .record 2 .double "y", .push m1, .updateAddress 2 3 .other, .push m2] = .ok s ∧
      s.getRecord 3 = .ok ⟨0, [m2 1 .double]⟩ := ⟨_, rfl, rfl⟩

theorem C68_false (z : β) : ¬ C68_statement β := by
  intro h
  obtain ⟨arr, h1, h2, -⟩ := h z [.record 1 .double "x", .push fun _ _ => [z], .updateAddress 1 2 .double] _ rfl 2
  cases h1
  simp [IArr.getArray, IArr.empty] at h2

/-! ### C78: saving -/

/-- Two tracked variables use the same file. -/
def Shared (l : List (Int × Log β)) (f : String) : Prop := ∃ a b g g', a ≠ b ∧ (a, g) ∈ l ∧ (b, g') ∈ l ∧ g.filename = f ∧ g'.filename = f

theorem path_inj (p a b : String) : p ++ "/" ++ a = p ++ "/" ++ b ↔ a = b := by
  constructor
  · intro h
    have := congrArg String.toList h
    simp only [String.toList_append, List.append_cancel_left_eq] at this
    exact String.toList_injective this
  · rintro rfl; rfl

theorem writeInFile_ok {c : Codec β Tok} {a a' : IArr (List β)} {old content : List (List Tok)} {clear append opens : Bool}
    (h : LogFile.writeInFile c a old clear append opens = .ok (content, a')) :
    opens = true ∧ content = (if append then old else []) ++ LogFile.lines c a.k a.v ∧ a' = if clear then a.clear else a := by
  unfold LogFile.writeInFile at h
  cases opens with
  | false => cases h
  | true =>
    simp only [if_true, Res.ok.injEq, Prod.mk.injEq] at h
    exact ⟨rfl, h.1.symm, h.2.symm⟩

theorem saveLoop_spec (c : Codec β Tok) (path : String) (opens : String → Bool) (clear append : Bool) (l : List (Int × Log β)) :
    ∀ (fs : Files Tok) l' fs', Sorted l → saveLoop c path opens clear append l fs = .ok (l', fs') →
      (l' = l.map fun e => (e.1, if e.2.filename ≠ "" ∧ clear = true then { e.2 with array := e.2.array.clear } else e.2)) ∧
      (∀ p, (∀ e ∈ l, e.2.filename ≠ "" → p ≠ path ++ "/" ++ e.2.filename) → fs' p = fs p) ∧
      (∀ a g, (a, g) ∈ l → g.filename ≠ "" → ¬ Shared l g.filename →
        fs' (path ++ "/" ++ g.filename) = (if append then fs (path ++ "/" ++ g.filename) else []) ++ LogFile.lines c g.array.k g.array.v) := by
  induction l with
  | nil => intro fs l' fs' _ h; cases h; exact ⟨rfl, fun _ _ => rfl, fun a g h => by simp at h⟩
  | cons e t ih =>
    obtain ⟨j, v⟩ := e
    intro fs l' fs' hl h
    obtain ⟨hl1, hl2⟩ := List.pairwise_cons.1 hl
    have hsub : ∀ f, Shared t f → Shared ((j, v) :: t) f := by
      rintro f ⟨a, b, g, g', h1, h2, h3, h4⟩
      exact ⟨a, b, g, g', h1, List.mem_cons_of_mem _ h2, List.mem_cons_of_mem _ h3, h4⟩
    unfold saveLoop at h
    by_cases hf : v.filename ≠ ""
    · rw [if_pos hf] at h
      simp only [Res.bind_eq_ok] at h
      obtain ⟨⟨content, array⟩, h1, ⟨t', fs1⟩, h2, h3⟩ := h
      simp only [Res.ok.injEq, Prod.mk.injEq] at h3
      obtain ⟨rfl, rfl⟩ := h3
      obtain ⟨e1, e2, e3⟩ := ih _ _ _ hl2 h2
      obtain ⟨-, hcont, harr⟩ := writeInFile_ok h1
      refine ⟨?_, fun p hp => ?_, fun a g hm hg hsh => ?_⟩
      · rw [List.map_cons, e1, harr]
        congr 2
        cases clear
        · simp
        · simp [hf]
      · rw [e2 p fun e he => hp e (List.mem_cons_of_mem _ he)]
        exact Function.update_of_ne (hp _ (List.mem_cons_self ..) hf) _ _
      · rcases List.mem_cons.1 hm with h | h
        · obtain ⟨rfl, rfl⟩ := Prod.mk.inj h
          rw [e2, Function.update_self, hcont]
          intro e he hne heq
          rw [path_inj] at heq
          have := hl1 _ he
          simp only at this
          exact hsh ⟨a, e.1, g, e.2, by omega, List.mem_cons_self .., List.mem_cons_of_mem _ he, rfl, heq.symm⟩
        · rw [e3 a g h hg fun h => hsh (hsub _ h)]
          rw [Function.update_of_ne]
          intro heq
          rw [path_inj] at heq
          have := hl1 _ h
          simp only at this
          exact hsh ⟨a, j, g, v, by omega, List.mem_cons_of_mem _ h, List.mem_cons_self .., rfl, heq.symm⟩
    · rw [if_neg hf] at h
      simp only [Res.bind_eq_ok] at h
      obtain ⟨⟨t', fs1⟩, h2, h3⟩ := h
      simp only [Res.ok.injEq, Prod.mk.injEq] at h3
      obtain ⟨rfl, rfl⟩ := h3
      obtain ⟨e1, e2, e3⟩ := ih _ _ _ hl2 h2
      refine ⟨?_, fun p hp => e2 p fun e he => hp e (List.mem_cons_of_mem _ he), fun a g hm hg hsh => ?_⟩
      · rw [List.map_cons, e1]
        congr 2
        rw [if_neg fun h => hf h.1]
      · rcases List.mem_cons.1 hm with h | h
        · cases h; exact absurd hg hf
        · exact e3 a g h hg fun h => hsh (hsub _ h)

theorem saveLoop_isOk (c : Codec β Tok) (path : String) (opens : String → Bool) (clear append : Bool) (l : List (Int × Log β))
    (ho : ∀ e ∈ l, e.2.filename ≠ "" → opens (path ++ "/" ++ e.2.filename) = true) :
    ∀ fs : Files Tok, ∃ r, saveLoop c path opens clear append l fs = .ok r := by
  induction l with
  | nil => intro fs; exact ⟨_, rfl⟩
  | cons e t ih =>
    obtain ⟨j, v⟩ := e
    intro fs
    unfold saveLoop
    by_cases hf : v.filename ≠ ""
    · rw [if_pos hf]
      have := ho _ (List.mem_cons_self ..) hf
      simp only at this
      obtain ⟨r, hr⟩ := ih (fun e he => ho e (List.mem_cons_of_mem _ he)) (Function.update fs (path ++ "/" ++ v.filename)
        ((if append then fs (path ++ "/" ++ v.filename) else []) ++ LogFile.lines c v.array.k v.array.v))
      obtain ⟨r1, r2⟩ := r
      simp only [LogFile.writeInFile, this, if_true, Res.ok_bind, hr]
      exact ⟨_, rfl⟩
    · rw [if_neg hf]
      obtain ⟨⟨r1, r2⟩, hr⟩ := ih (fun e he => ho e (List.mem_cons_of_mem _ he)) fs
      simp only [hr, Res.ok_bind]
      exact ⟨_, rfl⟩

/-- **C78**: for every history and every call of `save` without `append`: each tracked variable that has a file name used by no
other variable gets a file from which its record is read back, up to the number format, at the same indexes; files of other names are
not touched; the records are kept, or emptied with their indexing when `clear` is asked. Indexes must fit an `int`. -/
theorem C78_save {fmt : β → β} {c : Codec β Tok} (hc : LogFile.Codec.Ok c fmt) {opens : String → Bool} {clear : Bool} {fs fs' : Files Tok}
    (hs : Sorted s.logs) (h : s.save c opens clear false fs = .ok (s', fs')) :
    (∀ a g, (a, g) ∈ s.logs → g.filename ≠ "" → ¬ Shared s.logs g.filename → -2 ^ 31 ≤ g.array.getFirstIndex → g.array.getNextIndex ≤ 2 ^ 31 →
      ∃ arr, LogFile.readVectorsFromFile c (fs' (s.path ++ "/" ++ g.filename)) true = .ok arr ∧ LogFile.SameUpTo fmt g.array arr ∧
        arr.size = g.array.size) ∧
    (∀ p, (∀ e ∈ s.logs, e.2.filename ≠ "" → p ≠ s.path ++ "/" ++ e.2.filename) → fs' p = fs p) ∧
    (clear = false → s' = s) ∧
    (clear = true → ∀ a g, find s.logs a = some g → s'.getRecord a = .ok (if g.filename = "" then g.array else ⟨g.array.getNextIndex, []⟩)) := by
  simp only [save, Res.bind_eq_ok] at h
  obtain ⟨⟨l', fs1⟩, h1, h2⟩ := h
  simp only [Res.ok.injEq, Prod.mk.injEq] at h2
  obtain ⟨rfl, rfl⟩ := h2
  obtain ⟨e1, e2, e3⟩ := saveLoop_spec c s.path opens clear false s.logs fs l' fs1 hs h1
  refine ⟨fun a g hm hf hsh hi1 hi2 => ?_, e2, fun hcl => ?_, fun hcl a g hg => ?_⟩
  · have := e3 a g hm hf hsh
    rw [this]
    obtain ⟨file, b, w1, arr, w2, w3, w4⟩ := LogFile.C05_write_readVectors c hc g.array hi1 hi2 [] false
    obtain ⟨-, hcont, -⟩ := writeInFile_ok w1
    rw [hcont] at w2
    exact ⟨arr, w2, w3, w4⟩
  · subst hcl
    simp only [Bool.false_eq_true, and_false, if_false] at e1
    rw [e1]
    simp
  · subst hcl
    simp only [getRecord]
    have : find l' a = (find s.logs a).map fun g => if g.filename ≠ "" then { g with array := g.array.clear } else g := by
      rw [e1]
      generalize s.logs = l
      induction l with
      | nil => rfl
      | cons e t ih =>
        obtain ⟨j, v⟩ := e
        rw [List.map_cons, find_cons, find_cons, ih]
        split_ifs <;> simp_all
    rw [this, hg]
    by_cases hf : g.filename = "" <;> simp [hf, IArr.clear, IArr.getNextIndex]

/-- **C78**, liveness: `save` returns when all the files it needs can be opened. -/
theorem C78_save_returns (c : Codec β Tok) (s : Logger β) (opens : String → Bool) (clear append : Bool) (fs : Files Tok)
    (ho : ∀ e ∈ s.logs, e.2.filename ≠ "" → opens (s.path ++ "/" ++ e.2.filename) = true) : ∃ r, s.save c opens clear append fs = .ok r := by
  obtain ⟨⟨r1, r2⟩, hr⟩ := saveLoop_isOk c s.path opens clear append s.logs ho fs
  exact ⟨_, by rw [save, hr]; rfl⟩

/-- The path last given. -/
def lastPath (l : List (Call β)) : String := l.foldl (fun p c => match c with | .setPath q => q | _ => p) ""

theorem run_path (l : List (Call β)) : ∀ {s s' : Logger β}, run s l = .ok s' →
    s'.path = l.foldl (fun p c => match c with | .setPath q => q | _ => p) s.path := by
  induction l with
  | nil => intro s s' hr; cases hr; rfl
  | cons c l ih =>
    intro s s' hr
    simp only [run, Res.bind_eq_ok] at hr
    obtain ⟨s1, h1, h2⟩ := hr
    rw [List.foldl_cons, ih h2]
    congr 1
    cases c with
    | setPath p => cases h1; rfl
    | record a t f =>
      simp only [Call.exec, record, Res.bind_eq_ok] at h1
      obtain ⟨_, -, h1⟩ := h1; cases h1; rfl
    | push m => cases h1; rfl
    | pushOne m a => exact absurd h1 (C68_push_address_false s m a s1)
    | updateAddress o n t =>
      simp only [Call.exec, updateAddress] at h1
      split at h1
      · cases h1
      · cases h1; rfl
    | clearTracking => cases h1; rfl
    | clearLogs => cases h1; rfl

/-- **C78** The path in front of the names of the files is the one last given. -/
theorem C78_path (z : β) (l : List (Call β)) (h : run (new z) l = .ok s) : s.path = lastPath l := run_path l h

/-- The states reached by any history have their addresses in order, as `C78_save` and `C68_updateAddress_loses` require. -/
theorem run_sorted (l : List (Call β)) : ∀ {s s' : Logger β}, Sorted s.logs → run s l = .ok s' → Sorted s'.logs := by
  induction l with
  | nil => intro s s' h hr; cases hr; exact h
  | cons c l ih =>
    intro s s' h hr
    simp only [run, Res.bind_eq_ok] at hr
    obtain ⟨s1, h1, h2⟩ := hr
    refine ih ?_ h2
    cases c with
    | setPath p => cases h1; exact h
    | record a t f =>
      simp only [Call.exec, record, Res.bind_eq_ok] at h1
      obtain ⟨_, -, h1⟩ := h1
      cases h1
      exact sorted_insert h _ _
    | push m => cases h1; exact sorted_of_keys (pushLoop_keys _ _ _) h
    | pushOne m a => exact absurd h1 (C68_push_address_false s m a s1)
    | updateAddress o n t =>
      simp only [Call.exec, updateAddress] at h1
      split at h1
      · cases h1
      · cases h1
        exact List.Pairwise.filter _ (sorted_insert h _ _)
    | clearTracking => cases h1; exact List.Pairwise.nil
    | clearLogs => cases h1; exact sorted_of_keys (by simp [clearLogs]) h

/-- Two variables recorded with the same file name: without `append`, the file holds only the record of the variable with the larger
address. -/
theorem C78_shared_file (c : Codec β Tok) (z : β) (m : Memory β) (fs : Files Tok) : ∃ s s' fs',
    run (new z) [.record 1 .double "x", .record 2 .double "x", .push m] = .ok s ∧ s.save c (fun _ => true) false false fs = .ok (s', fs') ∧
      fs' "/x" = [c.pInt 0 :: (m 2 .double).map c.pVal] := by
  refine ⟨_, _, _, rfl, rfl, ?_⟩
  rfl

end StateObs.Logger
