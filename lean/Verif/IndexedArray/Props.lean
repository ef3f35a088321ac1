import Verif.IndexedArray.Lemmas
/-!
# Properties C01-C04 of indexed arrays
-/

namespace StateObs.IArrSpec
variable {α : Type}

/-- **C01** (and **C02**). For every array and every sequence of calls: if the calls are legal on the time-indexed map
then the array performs them without any assertion failure or undefined behaviour, returns the same outputs and ends
standing for the same map; otherwise a `BOOST_ASSERT` fires. -/
theorem C01_array_refines_map (d : α) (a : IArr α) (ops : List (Op α)) :
    match run (absMap a) ops with
    | some (s, outs) => ∃ a', crun d a ops = .ok (a', outs) ∧ absMap a' = s
    | none => crun d a ops = .assertFail := by
  induction ops generalizing a with
  | nil => exact ⟨a, rfl, rfl⟩
  | cons o os ih =>
    have hs := sim d a o
    unfold Sim at hs
    simp only [run]
    cases h : step (absMap a) o with
    | none => simp only [h] at hs; simp [crun, hs]
    | some p =>
      obtain ⟨s, out⟩ := p
      simp only [h] at hs
      obtain ⟨a', h1, h2⟩ := hs
      have := ih a'
      rw [h2] at this
      cases h3 : run s os with
      | none => simp only [h3] at this; simp [crun, h1, this, h3]
      | some q =>
        simp only [h3] at this
        obtain ⟨a'', h4, h5⟩ := this
        simp only [h3, Option.bind_eq_bind, Option.bind_some]
        exact ⟨a'', by simp [crun, h1, h4], h5⟩

/-- **C01**, the map is always defined exactly on the reported window. -/
theorem C01_window (a : IArr α) :
    a.getFirstIndex = (absMap a).lo ∧ a.getNextIndex = (absMap a).hi ∧ (a.size : Int) = (absMap a).hi - (absMap a).lo ∧
    ∀ t, ((absMap a).m t).isSome ↔ a.getFirstIndex ≤ t ∧ t ≤ a.getLastIndex := by
  refine ⟨rfl, rfl, by simp only [absMap, IArr.size]; omega, fun t => ?_⟩
  rw [absMap_isSome]; simp only [IArr.getFirstIndex, IArr.getLastIndex]; omega

/-- **C01**, the other ways to look at the values: `front` and `back` are the values of the first and of the last index (of
an empty array they are undefined, and this is not detected), `getArray` is the list of the values in the order of the
indexes, and `resize` changes the number of indexes, keeps the values of the indexes that remain and gives `x` to the others. -/
theorem C01_access (a : IArr α) (x : α) (n : Nat) :
    (a.size ≠ 0 → ∃ f b, a.front = .ok f ∧ (absMap a).m a.getFirstIndex = some f ∧ a.back = .ok b ∧ (absMap a).m a.getLastIndex = some b) ∧
    (a.size = 0 → a.front = .ub ∧ a.back = .ub) ∧
    a.getArray.length = a.size ∧ (∀ j : Nat, a.getArray[j]? = (absMap a).m (a.getFirstIndex + j)) ∧
    (a.resize n x).getFirstIndex = a.getFirstIndex ∧ (a.resize n x).size = n ∧
    ∀ j : Nat, j < n → (absMap (a.resize n x)).m (a.getFirstIndex + j) = some (((absMap a).m (a.getFirstIndex + j)).getD x) := by
  rcases a with ⟨k, v⟩
  have hj : ∀ (w : List α) (j : Nat), (absMap (⟨k, w⟩ : IArr α)).m (k + j) = w[j]? := fun w j => by
    show (if k ≤ k + j then w[(k + j - k).toNat]? else none) = _
    rw [if_pos (by omega)]
    congr 1; omega
  refine ⟨fun h => ?_, fun h => ?_, rfl, fun j => (hj v j).symm, rfl, ?_, fun j h => ?_⟩
  · have h0 : v ≠ [] := by rintro rfl; exact h rfl
    have hl : 0 < v.length := List.length_pos_iff.2 h0
    refine ⟨v.head h0, v.getLast h0, by simp [IArr.front, List.head?_eq_some_head h0], ?_, by simp [IArr.back, List.getLast?_eq_some_getLast h0], ?_⟩
    · have := hj v 0
      rw [show k + ((0 : Nat) : Int) = k by omega] at this
      rw [IArr.getFirstIndex, this, List.head_eq_getElem]
      exact List.getElem?_eq_getElem hl
    · have := hj v (v.length - 1)
      rw [show k + ((v.length - 1 : Nat) : Int) = IArr.getLastIndex (⟨k, v⟩ : IArr α) by simp only [IArr.getLastIndex]; omega] at this
      rw [this, List.getLast_eq_getElem]
      exact List.getElem?_eq_getElem _
  · have h0 : v = [] := List.eq_nil_of_length_eq_zero h
    subst h0
    exact ⟨rfl, rfl⟩
  · simp only [IArr.resize, IArr.size, List.length_append, List.length_take, List.length_replicate]; omega
  · show (absMap (⟨k, v.take n ++ List.replicate (n - v.length) x⟩ : IArr α)).m (k + j) = some (((absMap (⟨k, v⟩ : IArr α)).m (k + j)).getD x)
    rw [hj, hj]
    by_cases hv : j < v.length
    · rw [List.getElem?_append_left (by simp; omega), List.getElem?_take_of_lt h, List.getElem?_eq_getElem hv]; rfl
    · rw [List.getElem?_append_right (by simp; omega), List.getElem?_eq_none (l := v) (by omega), List.getElem?_replicate, if_pos (by simp; omega)]; rfl

example : (⟨3, [10, 11]⟩ : IArr Nat).front = .ok 10 ∧ (⟨3, [10, 11]⟩ : IArr Nat).back = .ok 11 ∧
    ((⟨3, [10, 11]⟩ : IArr Nat).resize 3 7).getArray = [10, 11, 7] := ⟨rfl, rfl, rfl⟩

/-- **C01**, the constructors: the default one gives an empty map, the sized one a map that gives the default value exactly to the
`n` indexes from `i`. -/
theorem C01_constructors (d : α) (n : Nat) (i t : Int) :
    (absMap (IArr.empty : IArr α)).m t = none ∧ (IArr.sized n i d).size = n ∧ (IArr.sized n i d).getFirstIndex = i ∧
    (absMap (IArr.sized n i d)).m t = if i ≤ t ∧ t < i + n then some d else none := by
  refine ⟨?_, by simp [IArr.sized, IArr.size], rfl, ?_⟩
  · show (if (0 : Int) ≤ t then ([] : List α)[(t - 0).toNat]? else none) = none
    simp
  · show (if i ≤ t then (List.replicate n d)[(t - i).toNat]? else none) = _
    rw [List.getElem?_replicate]
    by_cases h : i ≤ t
    · by_cases h2 : t < i + n
      · rw [if_pos h, if_pos (by omega), if_pos ⟨h, h2⟩]
      · rw [if_pos h, if_neg (by omega), if_neg (by omega)]
    · rw [if_neg h, if_neg (by omega)]

/-- Non-vacuity: a history with overwrite, push, pop, truncation and reads of both kinds. -/
example : crun 0 (IArr.empty : IArr Nat)
    [.setValue 7 5, .setValue 8 6, .pushBack 9, .setValue 1 6, .popFront, .truncateAfter 6, .get 6, .lastIndex]
      = .ok (⟨6, [1]⟩, [.unit, .unit, .unit, .unit, .unit, .unit, .val 1, .int 6]) := rfl

/-- **C02**. A read fails its assertion exactly outside the window and otherwise returns; it never runs into undefined
behaviour. -/
theorem C02_get (a : IArr α) (t : Int) :
    (a.getFirstIndex ≤ t ∧ t ≤ a.getLastIndex → ∃ x, a.get t = .ok x ∧ (absMap a).m t = some x) ∧
    (¬ (a.getFirstIndex ≤ t ∧ t ≤ a.getLastIndex) → a.get t = .assertFail) := by
  have hw := (C01_window a).2.2.2 t
  have h : ∀ d, Sim d a (.get t) := fun d => sim_get d a t
  constructor
  · intro ht
    obtain ⟨x, hx⟩ := Option.isSome_iff_exists.1 (hw.2 ht)
    have := h x
    simp only [Sim, step, hx, Option.map_some, cstep] at this
    obtain ⟨a', h1, -⟩ := this
    rw [Res.bind_eq_ok] at h1
    obtain ⟨y, hy, he⟩ := h1
    simp at he
    exact ⟨x, by rw [hy, he.2], hx⟩
  · intro ht
    have hc : a.checkIndex t = false := by
      rw [← Bool.not_eq_true, checkIndex_iff, ← absMap_isSome, hw]; exact ht
    simp [IArr.get, hc]

/-- **C02**. `popFront` fails its assertion exactly on the empty array. -/
theorem C02_popFront (a : IArr α) :
    (a.size ≠ 0 → (a.popFront).isOk) ∧ (a.size = 0 → a.popFront = .assertFail) := by
  rcases a with ⟨k, v⟩
  cases v <;> simp [IArr.size, IArr.popFront]

/-- **C02**. `setValue` fails its assertion exactly when it would leave a gap: the array is not empty and the index is
neither stored nor the next one. -/
theorem C02_setValue (a : IArr α) (x : α) (t : Int) :
    (a.size = 0 ∨ (a.getFirstIndex ≤ t ∧ t ≤ a.getNextIndex) → (a.setValue x t).isOk) ∧
    (¬ (a.size = 0 ∨ (a.getFirstIndex ≤ t ∧ t ≤ a.getNextIndex)) → a.setValue x t = .assertFail) := by
  have h := sim_setValue x a x t
  unfold Sim at h
  simp only [step, cstep] at h
  simp only [IArr.size, IArr.getFirstIndex, IArr.getNextIndex]
  have e1 : (absMap a).lo = a.k := rfl
  have e2 : (absMap a).hi = a.k + a.v.length := rfl
  rw [e1, e2] at h
  split_ifs at h with h1 h2 h3
  · obtain ⟨a', h4, -⟩ := h
    rw [Res.bind_eq_ok] at h4
    obtain ⟨y, hy, -⟩ := h4
    rw [hy]
    exact ⟨fun _ => trivial, fun hn => absurd (Or.inr ⟨h1.1, by omega⟩) hn⟩
  · obtain ⟨a', h4, -⟩ := h
    rw [Res.bind_eq_ok] at h4
    obtain ⟨y, hy, -⟩ := h4
    rw [hy]
    exact ⟨fun _ => trivial, fun hn => absurd (Or.inl (by omega)) hn⟩
  · obtain ⟨a', h4, -⟩ := h
    rw [Res.bind_eq_ok] at h4
    obtain ⟨y, hy, -⟩ := h4
    rw [hy]
    exact ⟨fun _ => trivial, fun hn => absurd (Or.inr (by omega)) hn⟩
  · have h' : a.setValue x t = .assertFail := by
      cases hr : a.setValue x t <;> simp [hr] at h ⊢
    refine ⟨fun hn => ?_, fun _ => h'⟩
    omega

example : (⟨3, [10, 11]⟩ : IArr Nat).get 4 = .ok 11 ∧ (⟨3, [10, 11]⟩ : IArr Nat).get 5 = .assertFail ∧
    (⟨3, [10, 11]⟩ : IArr Nat).setValue 1 6 = .assertFail ∧ (IArr.empty : IArr Nat).popFront = .assertFail := by
  decide

/-! ## C03 re-indexing -/

/-- The full statement of **C03** for `setLastIndex`. -/
def C03_setLastIndex_statement (α : Type) : Prop :=
  ∀ (a : IArr α) (i : Int), (a.setLastIndex i).getLastIndex = i ∧ (a.setLastIndex i).getArray = a.getArray

/-- **C03** for `setFirstIndex`. -/
theorem C03_setFirstIndex (a : IArr α) (i : Int) :
    (a.setFirstIndex i).getFirstIndex = i ∧ (a.setFirstIndex i).getArray = a.getArray ∧
    ∀ j, (absMap (a.setFirstIndex i)).m (i + j) = (absMap a).m (a.getFirstIndex + j) := by
  refine ⟨rfl, rfl, fun j => ?_⟩
  show (if i ≤ i + j then a.v[(i + j - i).toNat]? else none) =
    if a.k ≤ a.k + j then a.v[(a.k + j - a.k).toNat]? else none
  by_cases h : 0 ≤ j
  · rw [if_pos (by omega), if_pos (by omega)]; congr 2; omega
  · rw [if_neg (by omega), if_neg (by omega)]

/-- **C03** is false for `setLastIndex`: for *every* array the last index ends up two below the requested one
(definitions.hxx 358 has `-(size+1)` instead of `-(size-1)`). -/
theorem C03_setLastIndex_off_by_two (a : IArr α) (i : Int) : (a.setLastIndex i).getLastIndex = i - 2 := by
  simp only [IArr.setLastIndex, IArr.getLastIndex]; omega

theorem C03_setLastIndex_false : ¬ C03_setLastIndex_statement α := fun h => by
  have := (h IArr.empty 0).1
  rw [C03_setLastIndex_off_by_two] at this
  omega

/-- What remains of **C03** for `setLastIndex`: data and order are untouched. -/
theorem C03_setLastIndex_partial (a : IArr α) (i : Int) :
    (a.setLastIndex i).getArray = a.getArray ∧ (a.setLastIndex i).size = a.size := ⟨rfl, rfl⟩

/-! ## C04 truncation -/

/-- **C04**, `truncateAfter`: exactly the entries with index `≤ t` remain, at their index. -/
theorem C04_truncateAfter (d : α) (a : IArr α) (t i : Int) :
    (absMap (a.truncateAfter d t)).m i = if i ≤ t then (absMap a).m i else none := by
  obtain ⟨a', h1, h2⟩ := sim_truncateAfter d a t
  simp only [cstep, Res.ok.injEq, Prod.mk.injEq, and_true] at h1
  rw [h1, h2]

/-- The full statement of **C04** for `truncateBefore`. -/
def C04_truncateBefore_statement (α : Type) : Prop :=
  ∀ (a : IArr α) (t : Int), ∃ a', a.truncateBefore t = .ok a' ∧
    ∀ i, (absMap a').m i = if t ≤ i then (absMap a).m i else none

/-- **C04**, `truncateBefore`, for an index that is neither before the first nor equal to the last stored index
(those two cases are refuted below). -/
theorem C04_truncateBefore_partial (a : IArr α) (t : Int) (h1 : a.getFirstIndex ≤ t) (h2 : t ≠ a.getLastIndex) :
    ∃ a', a.truncateBefore t = .ok a' ∧ ∀ i, (absMap a').m i = if t ≤ i then (absMap a).m i else none := by
  simp only [IArr.getFirstIndex, IArr.getLastIndex] at h1 h2
  unfold IArr.truncateBefore
  split_ifs with h3 h4
  · simp only [IArr.getLastIndex, IArr.getFirstIndex] at h4 ⊢
    rw [popLoop_ok _ _ (by omega)]
    refine ⟨⟨t, a.v.drop (t - a.k).toNat⟩, rfl, fun i => ?_⟩
    simp only [absMap]
    by_cases hi : t ≤ i
    · rw [if_pos hi, if_pos hi, if_pos (by omega), List.getElem?_drop]
      congr 1; omega
    · rw [if_neg hi, if_neg hi]
  · simp only [IArr.getLastIndex] at h4
    refine ⟨_, rfl, fun i => ?_⟩
    simp only [absMap]
    split_ifs
    · rw [List.getElem?_eq_none (by simp), List.getElem?_eq_none (by omega)]
    · rfl
    · simp
    · rfl
  · refine ⟨a, rfl, fun i => ?_⟩
    simp only [absMap]
    split_ifs <;> first | rfl | rw [List.getElem?_eq_none (by omega)]

/-- **C04** fails at the last index of every non-empty array: the entry at `t` itself is dropped. -/
theorem C04_truncateBefore_last_dropped (a : IArr α) (h : a.size ≠ 0) :
    ∃ a', a.truncateBefore a.getLastIndex = .ok a' ∧ (absMap a').m a.getLastIndex = none ∧
      ((absMap a).m a.getLastIndex).isSome := by
  have hl : a.v.length > 0 := by simp only [IArr.size] at h; omega
  refine ⟨{ a with v := [] }, by simp [IArr.truncateBefore, hl], by simp [absMap], ?_⟩
  rw [absMap_isSome]; simp only [IArr.getLastIndex]; omega

/-- **C04** fails before the first index: the kept entries are moved to other indexes. -/
theorem C04_truncateBefore_early_shifts (a : IArr α) (t : Int) (h : a.size ≠ 0) (ht : t < a.getFirstIndex) :
    ∃ a', a.truncateBefore t = .ok a' ∧ (absMap a').m t = (absMap a).m a.getFirstIndex ∧ (absMap a').m t ≠ none ∧
      (absMap a).m t = none := by
  simp only [IArr.size, IArr.getFirstIndex] at h ht
  have hl : a.v.length > 0 := by omega
  have h4 : t < a.getLastIndex := by simp only [IArr.getLastIndex]; omega
  have h5 : (t - a.getFirstIndex).toNat = 0 := by simp only [IArr.getFirstIndex]; omega
  refine ⟨⟨t, a.v⟩, ?_, ?_, ?_, ?_⟩
  · simp only [IArr.truncateBefore, hl, h4, if_true, h5, IArr.popLoop, Res.ok_bind, IArr.setFirstIndex]
  · simp [absMap, IArr.getFirstIndex]
  · rw [← Option.isSome_iff_ne_none, absMap_isSome]; simp only; omega
  · simp only [absMap]; rw [if_neg (by omega)]

theorem C04_truncateBefore_false : ¬ C04_truncateBefore_statement Nat := fun h => by
  obtain ⟨a', h1, h2⟩ := h ⟨0, [7]⟩ 0
  obtain ⟨a'', h3, h4, -⟩ := C04_truncateBefore_last_dropped (⟨0, [7]⟩ : IArr Nat) (by decide)
  have e : (⟨0, [7]⟩ : IArr Nat).getLastIndex = 0 := by decide
  rw [e] at h3 h4
  rw [h1] at h3
  cases h3
  have := h2 0
  rw [h4] at this
  simp [absMap] at this

example : (⟨3, [10, 11, 12]⟩ : IArr Nat).truncateBefore 4 = .ok ⟨4, [11, 12]⟩ := by decide

end StateObs.IArrSpec
