import Verif.Simulator.Spec
import Verif.Simulator.Lemmas
import Mathlib.Data.Int.Cast.Lemmas
/-!
# Properties C62, C63, C64, C77 of the simulator
-/

set_option linter.unusedSectionVars false

namespace StateObs.Simulator
variable {α : Type} [Inhabited α] {s s' : Simulator α}

/-! ### inputs -/

theorem measurementLoop_u (n : ℕ) : ∀ (i : Int) (a : IArr α) (s : Simulator α) r, measurementLoop n i a s = .ok r → r.2.u = s.u := by
  induction n with
  | zero => intro i a s r h; obtain rfl := Res.ok.inj h; rfl
  | succ n ih =>
    intro i a s r h
    simp only [measurementLoop, Res.bind_eq_ok] at h
    obtain ⟨⟨y, s1⟩, h1, a', -, h2⟩ := h
    rw [ih _ _ _ _ h2]
    simp only [getMeasurement, Res.bind_eq_ok] at h1
    obtain ⟨_, -, s2, h3, _, -, h4⟩ := h1
    cases h4
    unfold simulateIf at h3
    split_ifs at h3
    · exact (simulateN_spec _ h3).2.1
    · cases h3; rfl

theorem stateLoop_u (n : ℕ) : ∀ (i : Int) (a : IArr α) (s : Simulator α) r, stateLoop n i a s = .ok r → r.2.u = s.u := by
  induction n with
  | zero => intro i a s r h; obtain rfl := Res.ok.inj h; rfl
  | succ n ih =>
    intro i a s r h
    simp only [stateLoop, Res.bind_eq_ok] at h
    obtain ⟨⟨y, s1⟩, h1, a', -, h2⟩ := h
    rw [ih _ _ _ _ h2]
    simp only [getState, Res.bind_eq_ok] at h1
    obtain ⟨_, -, s2, h3, _, -, h4⟩ := h1
    cases h4
    unfold simulateIf at h3
    split_ifs at h3
    · exact (simulateN_spec _ h3).2.1
    · cases h3; rfl

theorem exec_u (c : Call α) (h : c.exec s = .ok s') :
    s'.u = (match (generalizing := false) c with
      | .setInput u k => mapInsert s.u k u
      | .resetDynamics => []
      | .resetSimulator => []
      | _ => s.u) := by
  cases c with
  | setDynamicsFunctor f => cases h; rfl
  | setState x k =>
    simp only [Call.exec, setState, Res.bind_eq_ok] at h
    obtain ⟨_, -, _, -, h⟩ := h
    cases h; rfl
  | setInput u k => cases h; rfl
  | simulateDynamics =>
    obtain ⟨f, u, x, y', x', -, -, -, -, -, rfl⟩ := simulateDynamics_ok h
    rfl
  | simulateDynamicsTo k => exact (simulateN_spec _ h).2.1
  | getState k =>
    simp only [Call.exec, getState, Res.bind_eq_ok] at h
    obtain ⟨_, ⟨_, -, s2, h3, _, -, h4⟩, h⟩ := h
    cases h4; cases h
    unfold simulateIf at h3
    split_ifs at h3
    · exact (simulateN_spec _ h3).2.1
    · cases h3; rfl
  | getMeasurement k =>
    simp only [Call.exec, getMeasurement, Res.bind_eq_ok] at h
    obtain ⟨_, ⟨_, -, s2, h3, _, -, h4⟩, h⟩ := h
    cases h4; cases h
    unfold simulateIf at h3
    split_ifs at h3
    · exact (simulateN_spec _ h3).2.1
    · cases h3; rfl
  | getStateArray a n =>
    simp only [Call.exec, getStateArray, Res.bind_eq_ok] at h
    obtain ⟨r, ⟨_, -, h2⟩, h⟩ := h
    cases h
    exact stateLoop_u _ _ _ _ _ h2
  | getMeasurementArray a n =>
    simp only [Call.exec, getMeasurementArray, Res.bind_eq_ok] at h
    obtain ⟨r, ⟨_, -, h2⟩, h⟩ := h
    cases h
    exact measurementLoop_u _ _ _ _ _ h2
  | resetDynamics => cases h; rfl
  | resetSimulator => cases h; rfl

theorem run_inputs (l : List (Call α)) : ∀ {s s' : Simulator α} (m : Int → Option α), Sorted s.u → (∀ j v, (j, v) ∈ s.u ↔ m j = some v) →
    run s l = .ok s' → Sorted s'.u ∧ ∀ j v, (j, v) ∈ s'.u ↔ inputOf j (m j) l = some v := by
  induction l with
  | nil => intro s s' m h1 h2 h; cases h; exact ⟨h1, h2⟩
  | cons c l ih =>
    intro s s' m h1 h2 h
    simp only [run, Res.bind_eq_ok] at h
    obtain ⟨s1, h3, h4⟩ := h
    have hu := exec_u c h3
    have same : s1.u = s.u → (∀ j, inputOf j (m j) (c :: l) = inputOf j (m j) l) →
        Sorted s'.u ∧ ∀ j v, (j, v) ∈ s'.u ↔ inputOf j (m j) (c :: l) = some v := by
      intro e1 e2
      obtain ⟨g1, g2⟩ := ih m (e1 ▸ h1) (e1 ▸ h2) h4
      exact ⟨g1, fun j v => by rw [e2]; exact g2 j v⟩
    have none' : s1.u = [] → (∀ j, inputOf j (m j) (c :: l) = inputOf j none l) →
        Sorted s'.u ∧ ∀ j v, (j, v) ∈ s'.u ↔ inputOf j (m j) (c :: l) = some v := by
      intro e1 e2
      obtain ⟨g1, g2⟩ := ih (fun _ => none) (e1 ▸ List.Pairwise.nil) (by simp [e1]) h4
      exact ⟨g1, fun j v => by rw [e2]; exact g2 j v⟩
    cases c with
    | setInput u k =>
      have hu : s1.u = mapInsert s.u k u := hu
      obtain ⟨g1, g2⟩ := ih (fun j => if j = k then (m j).or (some u) else m j) (hu ▸ sorted_mapInsert h1 k u) (fun j v => by
        rw [hu, mem_mapInsert h1, h2]
        have h5 : (∀ e' ∈ s.u, e'.1 ≠ k) ↔ m k = none := by
          constructor
          · intro h
            cases hm : m k with
            | none => rfl
            | some w => exact absurd rfl (h _ ((h2 k w).2 hm))
          · rintro h ⟨j', w⟩ he rfl
            rw [h2, h] at he
            simp at he
        rw [h5]
        by_cases hj : j = k
        · subst hj
          cases hm : m j <;> simp [eq_comm]
        · simp [hj]) h4
      exact ⟨g1, g2⟩
    | resetDynamics => exact none' hu fun _ => rfl
    | resetSimulator => exact none' hu fun _ => rfl
    | _ => exact same hu fun _ => rfl

/-- **C62**, the input used at time `i`: after any history, `getInput i` returns the entry with the greatest time not after `i`
among the inputs set since the last reset (for one time, the value set first, see `C64_setInput_false`). -/
theorem C62_getInput (l : List (Call α)) (h : run new l = .ok s) (i : Int) (v : α) :
    s.getInput i = .ok v ↔ InForce (fun j => inputOf j none l) i v := by
  obtain ⟨h1, h2⟩ := run_inputs l (s := new) (fun _ => none) List.Pairwise.nil (by simp [new]) h
  rw [getInput_iff h1]
  constructor
  · rintro ⟨j, e1, e2, e3⟩
    refine ⟨j, e2, (h2 j v).1 e1, fun j' h5 h6 => ?_⟩
    by_contra hc
    obtain ⟨w, hw⟩ := Option.ne_none_iff_exists'.1 hc
    have := e3 _ ((h2 j' w).2 hw) h6
    simp only at this
    omega
  · rintro ⟨j, e2, e1, e3⟩
    refine ⟨j, (h2 j v).2 e1, e2, fun e he hk => ?_⟩
    by_contra hc
    have := (h2 e.1 e.2).1 he
    have h9 : inputOf e.1 none l = none := e3 e.1 (by omega) hk
    rw [h9] at this
    simp at this

/-- **C62**: whenever `simulateDynamicsTo(k)` returns, the stored states and measurements obey the dynamics from the time the
simulation was at up to `k`, nothing earlier is changed, and the simulation is at time `k`. -/
theorem C62_simulateDynamicsTo {k : Int} (hk : s.getCurrentTime ≤ k) (h : s.simulateDynamicsTo k = .ok s') :
    s'.getCurrentTime = k ∧ (∀ i ≤ s.getCurrentTime, s'.x.at? i = s.x.at? i) ∧ (∀ i < s.getCurrentTime, s'.y.at? i = s.y.at? i) ∧
    (∀ i, s'.getInput i = s.getInput i) ∧
    ∀ i, s.getCurrentTime ≤ i → i < k → ∃ f x u, s.f = some f ∧ s'.x.at? i = some x ∧ s.getInput i = .ok u ∧
      s'.x.at? (i + 1) = some (f.state x u i) ∧ s'.y.at? i = some (f.measure x u i) := by
  obtain ⟨-, e2, e3, -, e5, e6, e7⟩ := simulateN_spec _ h
  have hn : s.getCurrentTime + (k - s.x.getLastIndex).toNat = k := by
    simp only [getCurrentTime] at *; omega
  rw [hn] at e3 e6 e7
  exact ⟨e3, e5, fun i hi => e6 i (.inl hi), fun i => by simp only [getInput, e2], e7⟩

/-- The recorded measurements reach the current time, or can be continued from it. -/
def Joins (s : Simulator α) : Prop := s.y.size = 0 ∨ (s.y.getFirstIndex ≤ s.getCurrentTime ∧ s.getCurrentTime ≤ s.y.getNextIndex)

theorem joins_step (h : s.simulateDynamics = .ok s') : Joins s' := by
  obtain ⟨f, u, x, y', x', hf, hu, hx, hy, hx', rfl⟩ := simulateDynamics_ok h
  have e3 := (simulateN_spec 1 (s := s) (s' := { s with x := x', y := y' }) (by simp [simulateN, h])).2.2.1
  obtain ⟨-, a, b⟩ := IArr.setValue_spec hy
  right
  rw [e3]
  show y'.getFirstIndex ≤ _ ∧ _ ≤ y'.getNextIndex
  by_cases h0 : s.y.v.length = 0
  · have := a h0; push_cast; omega
  · have := b h0; push_cast; omega

theorem getInput_mono {i j : Int} (hij : i ≤ j) (h : (s.getInput i).isOk) : (s.getInput j).isOk := by
  obtain ⟨v, hv⟩ := (Res.isOk_iff _).1 h
  unfold getInput at hv ⊢
  simp only [Res.bind_eq_ok] at hv
  obtain ⟨⟨⟩, h1, h2⟩ := hv
  rw [h1, Res.ok_bind]
  split at h2
  · simp at h2
  · next e he =>
    have hm : e ∈ s.u.takeWhile fun e => decide (e.1 ≤ i) := List.mem_of_getLast? he
    cases hj : (s.u.takeWhile fun e => decide (e.1 ≤ j)).getLast? with
    | some e' =>
      have h3 := List.mem_of_getLast? hj
      have := (List.all_takeWhile (l := s.u) (p := fun e => decide (e.1 ≤ j)))
      rw [List.all_eq_true] at this
      have := this _ h3
      simp only [decide_eq_true_eq] at this
      simp [this]
    | none =>
      exfalso
      rw [List.getLast?_eq_none_iff] at hj
      cases hu : s.u with
      | nil => rw [hu] at hm; simp at hm
      | cons a t =>
        rw [hu, List.takeWhile_cons] at hj hm
        by_cases c : a.1 ≤ i
        · rw [if_pos (by simp; omega)] at hj
          simp at hj
        · rw [if_neg (by simpa using c)] at hm
          simp at hm

theorem simulateDynamics_isOk (hf : s.f ≠ none) (hx : s.x.size ≠ 0) (hy : Joins s) (hu : (s.getInput s.getCurrentTime).isOk) :
    ∃ s', s.simulateDynamics = .ok s' := by
  obtain ⟨f, hf⟩ := Option.ne_none_iff_exists'.1 hf
  obtain ⟨u, hu⟩ := (Res.isOk_iff _).1 hu
  have hx : s.x.v.length ≠ 0 := hx
  have : (s.x.at? s.getCurrentTime).isSome := by
    rw [IArr.at?_isSome]
    have := IArr.window s.x
    simp only [getCurrentTime]
    omega
  obtain ⟨x, hx1⟩ := Option.isSome_iff_exists.1 this
  obtain ⟨y', hy⟩ := IArr.setValue_isOk s.y (f.measure x u s.getCurrentTime) s.getCurrentTime hy
  obtain ⟨x', hx'⟩ := IArr.setValue_isOk s.x (f.state x u s.getCurrentTime) (s.getCurrentTime + 1) (by
    have := IArr.window s.x
    simp only [getCurrentTime]
    omega)
  refine ⟨{ s with x := x', y := y' }, ?_⟩
  have hx2 := (IArr.get_eq_ok _ _ _).2 hx1
  simp only [getCurrentTime] at *
  simp [simulateDynamics, hf, hu, hx2, hy, hx']

/-- **C62**, liveness: with a dynamics, a state, and an input at or before the current time, `simulateDynamicsTo(k)` returns, for
every horizon. The measurements must join the current time, see **C77**. -/
theorem C62_returns (hf : s.f ≠ none) (hx : s.x.size ≠ 0) (hy : Joins s) (hu : (s.getInput s.getCurrentTime).isOk) (k : Int) :
    ∃ s', s.simulateDynamicsTo k = .ok s' := by
  have : ∀ (n : ℕ) (s : Simulator α), s.f ≠ none → s.x.size ≠ 0 → Joins s → (s.getInput s.getCurrentTime).isOk →
      ∃ s', simulateN n s = .ok s' := by
    intro n
    induction n with
    | zero => intro s _ _ _ _; exact ⟨s, rfl⟩
    | succ n ih =>
      intro s hf hx hy hu
      obtain ⟨s1, h1⟩ := simulateDynamics_isOk hf hx hy hu
      obtain ⟨e1, e2, e3, e4, -⟩ := simulateN_spec 1 (s := s) (s' := s1) (by simp [simulateN, h1])
      obtain ⟨s', h'⟩ := ih s1 (e1 ▸ hf) (by
        have w1 := IArr.window s.x
        have w2 := IArr.window s1.x
        have hx : s.x.v.length ≠ 0 := hx
        show s1.x.v.length ≠ 0
        simp only [getCurrentTime] at e3
        omega) (joins_step h1) (by
        have : ∀ i, s1.getInput i = s.getInput i := fun i => by simp only [getInput, e2]
        rw [this]
        exact getInput_mono (by omega) hu)
      exact ⟨s', by simp [simulateN, h1, h']⟩
  exact this _ s hf hx hy hu

/-- Non-vacuity: a new simulator, once given a dynamics, a state and an input, meets the hypotheses of `C62_returns`. -/
example (f : Dynamics α) (x u : α) (k0 : Int) : ∃ s, run new [.setDynamicsFunctor (some f), .setInput u k0, .setState x k0] = .ok s ∧
    s.f ≠ none ∧ s.x.size ≠ 0 ∧ Joins s ∧ (s.getInput s.getCurrentTime).isOk := by
  refine ⟨⟨some f, ⟨k0, [x]⟩, IArr.empty, [(k0, u)]⟩, ?_, by simp, by simp [IArr.size], .inl rfl, ?_⟩
  · simp [run, Call.exec, setDynamicsFunctor, new, setInput, mapInsert, setState, IArr.empty, IArr.size, IArr.truncateAfter, IArr.setValue, IArr.checkIndex, IArr.checkNext]
  · simp [getInput, getCurrentTime, IArr.getLastIndex]

/-! ### setState, setInput -/

/-- **C64** for `setState`: accepted exactly when the index is stored, is the next one, or nothing is stored; then the current state
is `x` at `k`, the earlier states are kept and the later ones discarded. -/
theorem C64_setState (s : Simulator α) (x : α) (k : Int) :
    ((s.x.size = 0 ∨ (s.x.getFirstIndex ≤ k ∧ k ≤ s.getCurrentTime + 1)) → ∃ s', s.setState x k = .ok s' ∧ s'.getCurrentTime = k ∧
      s'.getCurrentState = .ok x ∧ (∀ i < k, s'.x.at? i = s.x.at? i) ∧ ∀ i > k, s'.x.at? i = none) ∧
    (¬ (s.x.size = 0 ∨ (s.x.getFirstIndex ≤ k ∧ k ≤ s.getCurrentTime + 1)) → s.setState x k = .assertFail) := by
  have w := IArr.window s.x
  constructor
  · intro h
    obtain ⟨t1, t2, t3⟩ := IArr.truncateAfter_spec s.x default (k - 1)
    have w2 := IArr.window (s.x.truncateAfter default (k - 1))
    have hlen : s.x.size = s.x.v.length := rfl
    simp only [getCurrentTime] at h
    obtain ⟨x', hx'⟩ := IArr.setValue_isOk (s.x.truncateAfter default (k - 1)) x k (by omega)
    obtain ⟨a, b, c⟩ := IArr.setValue_spec hx'
    have w3 := IArr.window x'
    have hlast : x'.getLastIndex = k := by
      by_cases h0 : (s.x.truncateAfter default (k - 1)).v.length = 0
      · have := b h0; omega
      · have := c h0; omega
    refine ⟨{ s with x := x' }, ?_, hlast, ?_, fun i hi => ?_, fun i hi => ?_⟩
    · unfold setState
      have : (decide (s.x.size = 0) || (decide (s.x.getFirstIndex ≤ k) && decide (s.x.getNextIndex ≥ k))) = true := by
        simp only [Bool.or_eq_true, decide_eq_true_eq, Bool.and_eq_true]; omega
      rw [this]
      simp [hx']
    · show x'.get x'.getLastIndex = _
      rw [IArr.get_eq_ok, hlast, a, Function.update_self]
    · show x'.at? i = _
      rw [a, Function.update_of_ne (by omega), t1]
      simp only
      rw [if_pos (by omega)]
    · show x'.at? i = _
      rw [a, Function.update_of_ne (by omega), t1]
      simp only
      rw [if_neg (by omega)]
  · intro h
    simp only [getCurrentTime] at h
    have : (decide (s.x.size = 0) || (decide (s.x.getFirstIndex ≤ k) && decide (s.x.getNextIndex ≥ k))) = false := by
      rw [Bool.eq_false_iff]
      simp only [ne_eq, Bool.or_eq_true, decide_eq_true_eq, Bool.and_eq_true]; omega
    unfold setState
    rw [this]
    rfl

/-- **C64** for `setInput`, full statement: after any history the input in force at `i` follows the *last* value set for each time. -/
def C64_setInput_statement (α : Type) [Inhabited α] : Prop :=
  ∀ (l : List (Call α)) (s : Simulator α), run new l = .ok s → ∀ i v, s.getInput i = .ok v ↔ InForce (fun j => lastInputOf j none l) i v

/-- **C64** is false for `setInput`: for every history, once an input has been set for time `k`, setting another one for `k` changes
nothing, and `getInput k` still returns the old one (`std::map::insert`, cpp 31). -/
theorem C64_setInput_ignored (l : List (Call α)) (h : run new l = .ok s) (k : Int) (v u : α) (hk : inputOf k none l = some v) :
    s.setInput u k = s ∧ s.getInput k = .ok v := by
  obtain ⟨h1, h2⟩ := run_inputs l (s := new) (fun _ => none) List.Pairwise.nil (by simp [new]) h
  constructor
  · have hm := (h2 k v).2 hk
    have : ∀ l : List (Int × α), Sorted l → (k, v) ∈ l → mapInsert l k u = l := by
      intro l
      induction l with
      | nil => simp
      | cons a t ih =>
        obtain ⟨j, w⟩ := a
        intro hl hm
        obtain ⟨g1, g2⟩ := List.pairwise_cons.1 hl
        unfold mapInsert
        rcases List.mem_cons.1 hm with e | hm
        · cases e; simp
        · have := g1 _ hm
          simp only at this
          rw [if_neg (by omega), if_neg (by omega), ih g2 hm]
    simp only [setInput, this _ h1 hm]
  · rw [C62_getInput l h]
    exact ⟨k, le_refl _, hk, fun j h1 h2 => by omega⟩

theorem C64_setInput_false (a b : α) (hab : a ≠ b) : ¬ C64_setInput_statement α := by
  intro h
  have h1 : run (new : Simulator α) [.setInput a 0, .setInput b 0] = .ok ⟨none, IArr.empty, IArr.empty, [(0, a)]⟩ := by
    simp [run, Call.exec, new, setInput, mapInsert]
  have h2 := (h _ _ h1 0 b).2 ⟨0, le_refl _, by simp [lastInputOf], fun j h1 h2 => by omega⟩
  simp [getInput] at h2
  exact hab h2

/-- **C64** for `setInput`, what holds: if no input has been set for `k`, then `u` is in force from `k` until the next time for which
an input has been set, and the inputs in force at other times are kept. -/
theorem C64_setInput_partial (l : List (Call α)) (h : run new l = .ok s) (k : Int) (u : α) (hk : inputOf k none l = none) (i : Int) :
    (k ≤ i → (∀ j, k < j → j ≤ i → inputOf j none l = none) → (s.setInput u k).getInput i = .ok u) ∧
    (i < k ∨ (∃ j, k < j ∧ j ≤ i ∧ inputOf j none l ≠ none) → ∀ v, (s.setInput u k).getInput i = .ok v ↔ s.getInput i = .ok v) := by
  have app : ∀ (l : List (Call α)) (s s' : Simulator α), run s l = .ok s' → run s (l ++ [.setInput u k]) = .ok (s'.setInput u k) := by
    intro l
    induction l with
    | nil => intro s s' h; cases h; rfl
    | cons c l ih =>
      intro s s' h
      simp only [run, Res.bind_eq_ok] at h
      obtain ⟨s1, h1, h2⟩ := h
      simp [run, h1, ih _ _ h2]
  have appI : ∀ (l : List (Call α)) (j : Int) (r : Option α), inputOf j r (l ++ [.setInput u k]) =
      if j = k then (inputOf j r l).or (some u) else inputOf j r l := by
    intro l
    induction l with
    | nil => intro j r; rfl
    | cons c l ih => intro j r; cases c <;> simp only [List.cons_append, inputOf, ih]
  have h' := app l _ _ h
  constructor
  · intro h1 h2
    rw [C62_getInput _ h']
    refine ⟨k, h1, by simp [appI, hk], fun j g1 g2 => ?_⟩
    simp only [appI]
    rw [if_neg (by omega)]
    exact h2 j g1 g2
  · intro hc v
    rw [C62_getInput _ h', C62_getInput _ h]
    have ne : ∀ j, j ≠ k → inputOf j none (l ++ [.setInput u k]) = inputOf j none l := fun j hj => by rw [appI, if_neg hj]
    constructor
    · rintro ⟨j, g1, g2, g3⟩
      have hjk : j ≠ k := by
        rintro rfl
        rcases hc with hc | ⟨j', g4, g5, g6⟩
        · omega
        · refine g6 ?_
          rw [← ne j' (by omega)]
          exact g3 j' g4 g5
      refine ⟨j, g1, (ne j hjk).symm.trans g2, fun j' g4 g5 => ?_⟩
      by_cases hj : j' = k
      · subst hj; exact hk
      · exact (ne j' hj).symm.trans (g3 j' g4 g5)
    · rintro ⟨j, g1, g2, g3⟩
      have hjk : j ≠ k := by
        rintro rfl
        simp only [hk] at g2
        simp at g2
      refine ⟨j, g1, (ne j hjk).trans g2, fun j' g4 g5 => ?_⟩
      have hj : j' ≠ k := by
        rintro rfl
        rcases hc with hc | ⟨j2, g6, g7, g8⟩
        · omega
        · exact g8 (g3 j2 (by omega) g7)
      exact (ne j' hj).trans (g3 j' g4 g5)

/-! ### getState, getMeasurement -/

/-- **C63** for `getState`, what holds: a state already computed is returned, and nothing is simulated. -/
theorem C63_getState_partial (s : Simulator α) (k : Int) (h1 : s.x.getFirstIndex ≤ k) (h2 : k ≤ s.getCurrentTime) :
    ∃ x, s.x.at? k = some x ∧ s.getState k = .ok (x, s) := by
  have : (s.x.at? k).isSome := (IArr.at?_isSome _ _).2 ⟨h1, h2⟩
  obtain ⟨x, hx⟩ := Option.isSome_iff_exists.1 this
  have hg := (IArr.get_eq_ok _ _ _).2 hx
  refine ⟨x, hx, ?_⟩
  simp only [getCurrentTime] at h2
  have : ¬ s.x.getLastIndex < k := by omega
  simp [getState, simulateIf, h1, this, hg]

/-- **C63** is false for `getState`: a state beyond the simulated horizon is never returned, whatever the dynamics, the inputs and
the index: the simulation stops one step before `k` and reading state `k` fails its assertion (cpp 45). -/
theorem C63_getState_false (s : Simulator α) (k : Int) (hk : s.getCurrentTime < k) : ∀ r, s.getState k ≠ .ok r := by
  rintro ⟨x, s'⟩ h
  simp only [getState, Res.bind_eq_ok] at h
  obtain ⟨_, -, s2, h2, y, h3, h4⟩ := h
  simp only [getCurrentTime] at hk
  rw [simulateIf, if_pos hk] at h2
  have e3 := (simulateN_spec _ h2).2.2.1
  have := (IArr.get_eq_ok _ _ _).1 h3
  have : (s2.x.at? k).isSome := by rw [this]; rfl
  rw [IArr.at?_isSome] at this
  simp only [getCurrentTime] at e3
  omega

/-- **C63** for `getMeasurement`, what holds: a measurement already computed, other than the first one, is returned, and nothing is
simulated. -/
theorem C63_getMeasurement_partial (s : Simulator α) (k : Int) (h1 : s.y.getFirstIndex < k) (h2 : k < s.y.getNextIndex) :
    ∃ y, s.y.at? k = some y ∧ s.getMeasurement k = .ok (y, s) := by
  have w := IArr.window s.y
  have : (s.y.at? k).isSome := (IArr.at?_isSome _ _).2 ⟨by omega, by omega⟩
  obtain ⟨x, hx⟩ := Option.isSome_iff_exists.1 this
  have hg := (IArr.get_eq_ok _ _ _).2 hx
  refine ⟨x, hx, ?_⟩
  have : ¬ s.y.getNextIndex < k := by omega
  simp [getMeasurement, simulateIf, h1, this, hg]

theorem simulateN_y (n : ℕ) : ∀ {s s' : Simulator α}, simulateN n s = .ok s' → s'.y.getNextIndex ≤ max s.y.getNextIndex (s.getCurrentTime + n) ∨ n = 0 := by
  induction n with
  | zero => intro s s' _; exact .inr rfl
  | succ n ih =>
    intro s s' h
    left
    simp only [simulateN, Res.bind_eq_ok] at h
    obtain ⟨s1, h1, h2⟩ := h
    have e3 := (simulateN_spec 1 (s := s) (s' := s1) (by simp [simulateN, h1])).2.2.1
    obtain ⟨f, u, x, y', x', hf, hu, hx, hy, hx', rfl⟩ := simulateDynamics_ok h1
    obtain ⟨-, a, b⟩ := IArr.setValue_spec hy
    have : y'.getNextIndex ≤ max s.y.getNextIndex (s.getCurrentTime + 1) := by
      by_cases h0 : s.y.v.length = 0
      · have := a h0; omega
      · have := b h0; omega
    rcases ih h2 with h3 | h3
    · simp only at h3
      push_cast
      push_cast at e3
      omega
    · subst h3
      cases h2
      push_cast
      show y'.getNextIndex ≤ _
      omega

/-- **C63** is false for `getMeasurement`: a measurement that is not yet available is never returned, whatever the dynamics, the
inputs and the index: the dynamics is not simulated (`k` the next index) or the simulation to `k` produces measurements up to
`k-1` only (cpp 37), and reading measurement `k` fails its assertion. -/
theorem C63_getMeasurement_false (s : Simulator α) (k : Int) (hk : s.y.getNextIndex ≤ k) : ∀ r, s.getMeasurement k ≠ .ok r := by
  rintro ⟨x, s'⟩ h
  simp only [getMeasurement, Res.bind_eq_ok] at h
  obtain ⟨_, -, s2, h2, y, h3, h4⟩ := h
  have := (IArr.get_eq_ok _ _ _).1 h3
  have : (s2.y.at? k).isSome := by rw [this]; rfl
  rw [IArr.at?_isSome] at this
  have w := IArr.window s2.y
  unfold simulateIf at h2
  split_ifs at h2 with hc
  · rcases simulateN_y _ h2 with h5 | h5
    · simp only [getCurrentTime] at h5
      by_cases hz : (k - s.x.getLastIndex).toNat = 0
      · rw [simulateDynamicsTo, hz] at h2
        cases h2
        omega
      · omega
    · rw [simulateDynamicsTo, h5] at h2
      cases h2
      omega
  · cases h2
    omega

/-- **C63** is false for the first measurement too: once it has been computed, asking for it fails an assertion (cpp 36 has `<`). -/
theorem C63_first_measurement_false (s : Simulator α) (h : s.y.size ≠ 0) : s.getMeasurement s.y.getFirstIndex = .assertFail := by
  simp [getMeasurement, h]

/-- **C63** is false after the state has been set again: `setState` at an earlier time leaves the measurements of the discarded states
in place, and `getMeasurement` returns them. -/
theorem C63_stale_false (s : Simulator α) (x : α) (k j : Int) (hs : s.setState x k = .ok s') (h1 : s.y.getFirstIndex < j)
    (h2 : j < s.y.getNextIndex) : ∃ y, s.y.at? j = some y ∧ s'.getMeasurement j = .ok (y, s') := by
  simp only [setState, Res.bind_eq_ok] at hs
  obtain ⟨_, -, x', -, hs⟩ := hs
  cases hs
  exact C63_getMeasurement_partial { s with x := x' } _ h1 h2

theorem stateLoop_spec (s : Simulator α) (n : ℕ) : ∀ (i : Int) (a : IArr α), s.x.getFirstIndex ≤ i → i + n ≤ s.getCurrentTime + 1 →
    (a.v.length = 0 ∨ a.getNextIndex = i) → ∃ a', stateLoop n i a s = .ok (a', s) ∧
      ∀ j, a'.at? j = if i ≤ j ∧ j < i + n then s.x.at? j else a.at? j := by
  induction n with
  | zero => intro i a _ _ _; exact ⟨a, rfl, fun j => by rw [if_neg (by omega)]⟩
  | succ n ih =>
    intro i a h1 h2 h3
    push_cast at h2
    obtain ⟨x, hx, hg⟩ := C63_getState_partial s i h1 (by omega)
    have w := IArr.window a
    obtain ⟨a1, ha⟩ := IArr.setValue_isOk a x i (by omega)
    obtain ⟨b1, b2, b3⟩ := IArr.setValue_spec ha
    obtain ⟨a', h4, h5⟩ := ih (i + 1) a1 (by omega) (by omega) (.inr (by
      by_cases h0 : a.v.length = 0
      · exact (b2 h0).2
      · have := b3 h0; omega))
    refine ⟨a', by simp [stateLoop, hg, ha, h4], fun j => ?_⟩
    rw [h5 j]
    push_cast
    by_cases hj : j = i
    · subst hj
      rw [if_neg (by omega), if_pos (by omega), b1, Function.update_self, hx]
    · rw [b1, Function.update_of_ne hj]
      split_ifs <;> first | rfl | omega

theorem measurementLoop_spec (s : Simulator α) (n : ℕ) : ∀ (i : Int) (a : IArr α), s.y.getFirstIndex < i → i + n ≤ s.y.getNextIndex →
    (a.v.length = 0 ∨ a.getNextIndex = i) → ∃ a', measurementLoop n i a s = .ok (a', s) ∧
      ∀ j, a'.at? j = if i ≤ j ∧ j < i + n then s.y.at? j else a.at? j := by
  induction n with
  | zero => intro i a _ _ _; exact ⟨a, rfl, fun j => by rw [if_neg (by omega)]⟩
  | succ n ih =>
    intro i a h1 h2 h3
    push_cast at h2
    obtain ⟨x, hx, hg⟩ := C63_getMeasurement_partial s i h1 (by omega)
    have w := IArr.window a
    obtain ⟨a1, ha⟩ := IArr.setValue_isOk a x i (by omega)
    obtain ⟨b1, b2, b3⟩ := IArr.setValue_spec ha
    obtain ⟨a', h4, h5⟩ := ih (i + 1) a1 (by omega) (by omega) (.inr (by
      by_cases h0 : a.v.length = 0
      · exact (b2 h0).2
      · have := b3 h0; omega))
    refine ⟨a', by simp [measurementLoop, hg, ha, h4], fun j => ?_⟩
    rw [h5 j]
    push_cast
    by_cases hj : j = i
    · subst hj
      rw [if_neg (by omega), if_pos (by omega), b1, Function.update_self, hx]
    · rw [b1, Function.update_of_ne hj]
      split_ifs <;> first | rfl | omega

theorem empty_at (j : Int) : (IArr.empty : IArr α).at? j = none := by
  by_contra hc
  obtain ⟨w, hw⟩ := Option.ne_none_iff_exists'.1 hc
  have : ((IArr.empty : IArr α).at? j).isSome := by rw [hw]; rfl
  rw [IArr.at?_isSome] at this
  simp [IArr.empty, IArr.getFirstIndex, IArr.getLastIndex] at this
  omega

/-- **C63**, the arrays: asked for indices that have all been computed, beyond the first one, `getStateArray` and
`getMeasurementArray` return exactly those values at their indices, and nothing is simulated. -/
theorem C63_arrays_partial (s : Simulator α) (i : Int) (n : ℕ) :
    (s.x.getFirstIndex < i → i + n ≤ s.getCurrentTime + 1 → ∃ a, s.getStateArray i n = .ok (a, s) ∧
      ∀ j, a.at? j = if i ≤ j ∧ j < i + n then s.x.at? j else none) ∧
    (s.y.getFirstIndex < i → i + n ≤ s.y.getNextIndex → ∃ a, s.getMeasurementArray i n = .ok (a, s) ∧
      ∀ j, a.at? j = if i ≤ j ∧ j < i + n then s.y.at? j else none) := by
  constructor
  · intro h1 h2
    obtain ⟨a, h3, h4⟩ := stateLoop_spec s n i IArr.empty (by omega) h2 (.inl rfl)
    exact ⟨a, by simp [getStateArray, h1, h3], fun j => by rw [h4, empty_at]⟩
  · intro h1 h2
    obtain ⟨a, h3, h4⟩ := measurementLoop_spec s n i IArr.empty h1 h2 (.inl rfl)
    exact ⟨a, by simp [getMeasurementArray, h1, h3], fun j => by rw [h4, empty_at]⟩

/-- Non-vacuity of the theorems on computed values: a simulation with two computed states and two measurements. -/
example (f : Dynamics α) (x u : α) : ∃ s, run new [.setDynamicsFunctor (some f), .setInput u 0, .setState x 0, .simulateDynamics, .simulateDynamics] = .ok s ∧
    s.x.getFirstIndex = 0 ∧ s.getCurrentTime = 2 ∧ s.y.getFirstIndex = 0 ∧ s.y.getNextIndex = 2 :=
  ⟨⟨some f, ⟨0, [x, f.state x u 0, f.state (f.state x u 0) u 1]⟩, ⟨0, [f.measure x u 0, f.measure (f.state x u 0) u 1]⟩, [(0, u)]⟩, by
    simp [run, Call.exec, setDynamicsFunctor, new, setInput, mapInsert, setState, IArr.empty, IArr.size, IArr.truncateAfter, IArr.setValue, IArr.checkIndex, IArr.checkNext,
      simulateDynamics, getInput, IArr.getLastIndex, IArr.get], rfl, rfl, rfl, rfl⟩

/-! ### continuing a simulation from a given state -/

/-- **C77**, full statement: after `setState` has been accepted the simulation can be continued from it. -/
def C77_statement (α : Type) [Inhabited α] : Prop :=
  ∀ (l : List (Call α)) (s s' : Simulator α) (x : α) (k : Int), run new l = .ok s → s.f ≠ none → (s.getInput k).isOk →
    s.setState x k = .ok s' → s'.simulateDynamics.isOk

/-- **C77**, what holds: it can whenever a measurement is stored or next at that time, or none is stored. -/
theorem C77_partial {x : α} {k : Int} (hf : s.f ≠ none) (hu : (s.getInput k).isOk) (hs : s.setState x k = .ok s')
    (hy : s.y.size = 0 ∨ (s.y.getFirstIndex ≤ k ∧ k ≤ s.y.getNextIndex)) : ∃ s'', s'.simulateDynamics = .ok s'' := by
  have hok : s.x.size = 0 ∨ (s.x.getFirstIndex ≤ k ∧ k ≤ s.getCurrentTime + 1) := by
    by_contra hc
    rw [(C64_setState s x k).2 hc] at hs
    cases hs
  obtain ⟨s1, h1, h2, h3, -⟩ := (C64_setState s x k).1 hok
  rw [hs] at h1
  obtain rfl := Res.ok.inj h1
  have hs' := hs
  simp only [setState, Res.bind_eq_ok] at hs'
  obtain ⟨_, -, x', -, hs'⟩ := hs'
  cases hs'
  refine simulateDynamics_isOk hf ?_ ?_ ?_
  · intro h0
    have := (IArr.get_eq_ok _ _ _).1 h3
    have : (x'.at? k).isSome := by rw [← h2, getCurrentTime, this]; rfl
    rw [IArr.at?_isSome] at this
    have h0 : x'.v.length = 0 := h0
    have w := IArr.window x'
    omega
  · unfold Joins
    rw [h2]
    exact hy
  · rw [h2]; exact hu

/-- **C77** is false: after any simulation step, `setState` with the next state is accepted and the following `simulateDynamics`
fails an assertion, because the measurement of the skipped time is missing. -/
theorem C77_next_false (h : s.simulateDynamics = .ok s') (hnew : s.y.getNextIndex ≤ s.getCurrentTime) (x : α) :
    ∃ s'', s'.setState x (s'.getCurrentTime + 1) = .ok s'' ∧ ∀ r, s''.simulateDynamics ≠ .ok r := by
  obtain ⟨e1, e2, e3, e4, -⟩ := simulateN_spec 1 (s := s) (s' := s') (by simp [simulateN, h])
  obtain ⟨f, u, x0, y', x', hf, hu, hx, hy, hx', rfl⟩ := simulateDynamics_ok h
  obtain ⟨-, a, b⟩ := IArr.setValue_spec hy
  have w := IArr.window y'
  have hyn : y'.getNextIndex = s.getCurrentTime + 1 ∧ y'.v.length ≠ 0 := by
    by_cases h0 : s.y.v.length = 0
    · have := a h0; omega
    · have := b h0; omega
  have hxs : (s.x.at? s.getCurrentTime).isSome := by rw [hx]; rfl
  rw [IArr.at?_isSome] at hxs
  obtain ⟨s'', h1, h2, h3, -⟩ := (C64_setState ({ s with x := x', y := y' } : Simulator α) x
    (({ s with x := x', y := y' } : Simulator α).getCurrentTime + 1)).1 (.inr ⟨by rw [e4, e3]; push_cast; omega, by omega⟩)
  refine ⟨s'', h1, fun r hr => ?_⟩
  obtain ⟨f2, u2, x2, y2, x2', -, -, -, hy2, -⟩ := simulateDynamics_ok hr
  simp only [setState, Res.bind_eq_ok] at h1
  obtain ⟨_, -, xx, -, h1⟩ := h1
  cases h1
  obtain ⟨-, a2, b2⟩ := IArr.setValue_spec hy2
  have := b2 hyn.2
  rw [h2, e3] at this
  simp only at this
  push_cast at this
  omega

theorem C77_false (f : Dynamics α) (x u : α) : ¬ C77_statement α := by
  intro h
  have h0 : run (new : Simulator α) [.setDynamicsFunctor (some f), .setInput u 0, .setState x 0] = .ok ⟨some f, ⟨0, [x]⟩, IArr.empty, [(0, u)]⟩ := by
    simp [run, Call.exec, setDynamicsFunctor, new, setInput, mapInsert, setState, IArr.empty, IArr.size, IArr.truncateAfter, IArr.setValue, IArr.checkIndex, IArr.checkNext]
  have h1 : run (new : Simulator α) [.setDynamicsFunctor (some f), .setInput u 0, .setState x 0, .simulateDynamics] =
      .ok ⟨some f, ⟨0, [x, f.state x u 0]⟩, ⟨0, [f.measure x u 0]⟩, [(0, u)]⟩ := by
    simp [run, Call.exec, setDynamicsFunctor, new, setInput, mapInsert, setState, IArr.empty, IArr.size, IArr.truncateAfter, IArr.setValue, IArr.checkIndex, IArr.checkNext,
      simulateDynamics, getInput, IArr.getLastIndex, IArr.get]
  have h2 : (⟨some f, ⟨0, [x]⟩, IArr.empty, [(0, u)]⟩ : Simulator α).simulateDynamics =
      .ok ⟨some f, ⟨0, [x, f.state x u 0]⟩, ⟨0, [f.measure x u 0]⟩, [(0, u)]⟩ := by
    simp [IArr.empty, IArr.setValue, IArr.checkIndex, IArr.checkNext, simulateDynamics, getInput, IArr.getLastIndex, IArr.get]
  obtain ⟨s'', h3, h4⟩ := C77_next_false h2 (by simp [IArr.empty, IArr.getNextIndex, getCurrentTime, IArr.getLastIndex]) x
  have := h _ _ _ _ _ h1 (by simp) (by simp [getInput, getCurrentTime, IArr.getLastIndex]) h3
  obtain ⟨r, hr⟩ := (Res.isOk_iff _).1 this
  exact h4 r hr

end StateObs.Simulator
