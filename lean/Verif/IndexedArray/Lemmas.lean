import Verif.IndexedArray.Spec
import Mathlib.Tactic.SplitIfs
/-! Helper lemmas: every call on the array simulates the call on the map. -/

namespace StateObs.IArrSpec
variable {α : Type}

theorem checkIndex_iff (a : IArr α) (t : Int) :
    a.checkIndex t = true ↔ a.k ≤ t ∧ t < a.k + a.v.length := by
  simp only [IArr.checkIndex, Bool.and_eq_true, decide_eq_true_eq]
  omega

theorem absMap_isSome (a : IArr α) (t : Int) :
    ((absMap a).m t).isSome ↔ a.k ≤ t ∧ t < a.k + a.v.length := by
  simp only [absMap]
  split_ifs with h
  · rw [Option.isSome_iff_ne_none, ne_eq, List.getElem?_eq_none_iff]
    omega
  · simp; omega

theorem absMap_window (a : IArr α) : (absMap a).Window :=
  ⟨by simp only [absMap]; omega, absMap_isSome a⟩

theorem map_ext {s t : Map α} (h1 : s.lo = t.lo) (h2 : s.hi = t.hi) (h3 : ∀ i, s.m i = t.m i) : s = t := by
  cases s; cases t; simp_all; exact funext h3

/-- One call. -/
def Sim (d : α) (a : IArr α) (o : Op α) : Prop :=
  match step (absMap a) o with
  | some (s, out) => ∃ a', cstep d a o = .ok (a', out) ∧ absMap a' = s
  | none => cstep d a o = .assertFail

theorem sim_setValue (d : α) (a : IArr α) (x : α) (t : Int) : Sim d a (.setValue x t) := by
  unfold Sim
  by_cases h1 : a.k ≤ t ∧ t < a.k + a.v.length
  · have hc := (checkIndex_iff a t).2 h1
    have : (absMap a).lo ≤ t ∧ t < (absMap a).hi := h1
    simp only [step, this, and_self, if_true]
    refine ⟨⟨a.k, a.v.set (t - a.k).toNat x⟩, by simp only [cstep, IArr.setValue, hc, if_true, Res.ok_bind], ?_⟩
    apply map_ext
    · rfl
    · simp [absMap]
    · intro i
      simp only [absMap, Function.update_apply]
      by_cases hi : a.k ≤ i
      · simp only [hi, if_true, List.getElem?_set]
        by_cases hit : i = t
        · subst hit; simp only [if_true]; rw [if_pos]; omega
        · rw [if_neg (by omega), if_neg hit]
      · rw [if_neg hi, if_neg (by omega : ¬ i = t), if_neg hi]
  · have hc : a.checkIndex t = false := by
      rw [← Bool.not_eq_true, checkIndex_iff]; exact h1
    have h1' : ¬ ((absMap a).lo ≤ t ∧ t < (absMap a).hi) := h1
    by_cases h2 : a.v = []
    · have : (absMap a).lo = (absMap a).hi := by simp [absMap, h2]
      simp only [step, h1', if_false, this, if_true]
      rw [if_neg (by rw [← this]; exact fun h => by omega)]
      refine ⟨⟨t, [x]⟩, by simp [cstep, IArr.setValue, hc, IArr.checkNext, h2], ?_⟩
      apply map_ext
      · rfl
      · simp [absMap]
      · intro i
        simp only [absMap, Function.update_apply, h2]
        by_cases hi : i = t
        · subst hi; simp
        · rw [if_neg hi]
          simp only [List.getElem?_nil, ite_self]
          split_ifs with h
          · rw [List.getElem?_eq_none]; simp; omega
          · rfl
    · have hl : 0 < a.v.length := List.length_pos_iff.2 h2
      have h2' : ¬ (absMap a).lo = (absMap a).hi := by simp only [absMap]; omega
      by_cases h3 : t = a.k + a.v.length
      · have h3' : t = (absMap a).hi := h3
        simp only [step, h1', if_false, h2']
        rw [if_pos h3']
        refine ⟨⟨a.k, a.v ++ [x]⟩, ?_, ?_⟩
        · have hn : a.checkNext t = true := by simp [IArr.checkNext, h3]
          have h0 : ¬ a.v.length = 0 := by omega
          simp [cstep, IArr.setValue, hc, hn, h0, h2]
        apply map_ext
        · rfl
        · simp [absMap]; omega
        · intro i
          simp only [absMap, Function.update_apply]
          by_cases hi : i = t
          · subst hi
            rw [if_pos (by omega), if_pos rfl]
            rw [List.getElem?_append_right (by omega)]
            have : (i - a.k).toNat - a.v.length = 0 := by omega
            simp [this]
          · rw [if_neg hi]
            split_ifs with h
            · rw [List.getElem?_append]
              split_ifs with h5
              · rfl
              · rw [List.getElem?_eq_none (l := a.v) (by omega), List.getElem?_eq_none]
                simp; omega
            · rfl
      · have h3' : ¬ t = (absMap a).hi := h3
        simp only [step, h1', if_false, h2', h3']
        have : a.checkNext t = false := by
          simp [IArr.checkNext, h2]; omega
        simp [cstep, IArr.setValue, hc, this]

theorem sim_pushBack (d : α) (a : IArr α) (x : α) : Sim d a (.pushBack x) := by
  refine ⟨_, rfl, ?_⟩
  apply map_ext
  · rfl
  · simp [absMap, IArr.pushBack]; omega
  · intro i
    show _ = Function.update (absMap a).m (absMap a).hi (some x) i
    rw [Function.update_apply]
    show (if a.k ≤ i then (a.v ++ [x])[(i - a.k).toNat]? else none) =
      if i = a.k + a.v.length then some x else if a.k ≤ i then a.v[(i - a.k).toNat]? else none
    by_cases hi : i = a.k + a.v.length
    · rw [if_pos (by omega), if_pos hi, List.getElem?_append_right (by omega)]
      have : (i - a.k).toNat - a.v.length = 0 := by omega
      simp [this]
    · rw [if_neg hi]
      split_ifs with h
      · rw [List.getElem?_append]
        split_ifs with h5
        · rfl
        · rw [List.getElem?_eq_none (l := a.v) (by omega), List.getElem?_eq_none]
          simp; omega
      · rfl

theorem sim_popFront (d : α) (a : IArr α) : Sim d a .popFront := by
  unfold Sim
  rcases a with ⟨k, v⟩
  cases v with
  | nil => simp [step, absMap, cstep, IArr.popFront]
  | cons y t =>
    have : (absMap (⟨k, y :: t⟩ : IArr α)).lo < (absMap (⟨k, y :: t⟩ : IArr α)).hi := by
      simp [absMap]; omega
    simp only [step, this, if_true]
    refine ⟨⟨k + 1, t⟩, by simp [cstep, IArr.popFront], ?_⟩
    apply map_ext
    · rfl
    · simp [absMap]; omega
    · intro i
      simp only [absMap, Function.update_apply]
      by_cases hi : i = k
      · rw [if_pos hi, if_neg (by omega)]
      · rw [if_neg hi]
        by_cases h : k + 1 ≤ i
        · rw [if_pos h, if_pos (by omega)]
          have : (i - k).toNat = (i - (k + 1)).toNat + 1 := by omega
          rw [this, List.getElem?_cons_succ]
        · rw [if_neg h, if_neg (by omega)]

theorem sim_truncateAfter (d : α) (a : IArr α) (t : Int) : Sim d a (.truncateAfter t) := by
  refine ⟨_, rfl, ?_⟩
  unfold IArr.truncateAfter
  split_ifs with h1 h2 h3
  · -- resize
    simp only [IArr.getFirstIndex, IArr.getLastIndex] at h2 h3 ⊢
    apply map_ext
    · rfl
    · simp [absMap, IArr.resize]; omega
    · intro i
      simp only [absMap, IArr.resize]
      have hz : (t - a.k + 1).toNat - a.v.length = 0 := by omega
      simp only [hz, List.replicate_zero, List.append_nil]
      by_cases hi : a.k ≤ i
      · simp only [hi, if_true, List.getElem?_take]
        by_cases ht : i ≤ t
        · rw [if_pos ht, if_pos (by omega)]
        · rw [if_neg ht, if_neg (by omega)]
      · simp [hi]
  · simp only [IArr.getFirstIndex, IArr.getLastIndex] at h2 h3 ⊢
    apply map_ext
    · rfl
    · simp [absMap]; omega
    · intro i
      simp only [absMap]
      by_cases hi : a.k ≤ i
      · simp only [hi, if_true]
        by_cases ht : i ≤ t
        · rw [if_pos ht]
        · rw [if_neg ht, List.getElem?_eq_none]; omega
      · simp [hi]
  · simp only [IArr.getFirstIndex] at h2 ⊢
    apply map_ext
    · rfl
    · simp [absMap]; omega
    · intro i
      simp only [absMap]
      by_cases ht : i ≤ t
      · rw [if_pos ht, if_neg (by omega), if_neg (by omega)]
      · simp [ht]
  · have h0 : a.v = [] := by
      cases hv : a.v with
      | nil => rfl
      | cons y t => simp [hv] at h1
    apply map_ext
    · rfl
    · simp [absMap, h0]; omega
    · intro i; simp [absMap, h0]

theorem sim_setFirstIndex (d : α) (a : IArr α) (t : Int) : Sim d a (.setFirstIndex t) := by
  refine ⟨_, rfl, ?_⟩
  apply map_ext
  · rfl
  · simp [absMap, IArr.setFirstIndex]; omega
  · intro i
    show (if t ≤ i then a.v[(i - t).toNat]? else none) =
      if a.k ≤ i - t + a.k then a.v[(i - t + a.k - a.k).toNat]? else none
    by_cases h : t ≤ i
    · rw [if_pos h, if_pos (by omega)]
      congr 2; omega
    · rw [if_neg h, if_neg (by omega)]

theorem sim_get (d : α) (a : IArr α) (t : Int) : Sim d a (.get t) := by
  unfold Sim
  cases h : (absMap a).m t with
  | none =>
    have hc : a.checkIndex t = false := by
      rw [← Bool.not_eq_true, checkIndex_iff, ← absMap_isSome, h]; simp
    simp [step, h, cstep, IArr.get, hc]
  | some x =>
    have hs := (absMap_isSome a t).1 (by rw [h]; rfl)
    have hc : a.checkIndex t = true := (checkIndex_iff a t).2 hs
    have hx : a.v[(t - a.k).toNat]? = some x := by
      simpa [absMap, hs.1] using h
    simp [step, h, cstep, IArr.get, hc, hx]

theorem sim (d : α) (a : IArr α) (o : Op α) : Sim d a o := by
  cases o with
  | setValue x t => exact sim_setValue d a x t
  | pushBack x => exact sim_pushBack d a x
  | popFront => exact sim_popFront d a
  | clear =>
    refine ⟨_, rfl, ?_⟩
    apply map_ext <;> simp [absMap, IArr.clear]
  | reset =>
    refine ⟨_, rfl, ?_⟩
    apply map_ext <;> simp [absMap, IArr.reset]
  | truncateAfter t => exact sim_truncateAfter d a t
  | setFirstIndex t => exact sim_setFirstIndex d a t
  | get t => exact sim_get d a t
  | checkIndex t =>
    refine ⟨a, ?_, rfl⟩
    have : a.checkIndex t = ((absMap a).m t).isSome := by
      rw [Bool.eq_iff_iff, checkIndex_iff, absMap_isSome]
    simp [cstep, this]
  | size => exact ⟨a, by simp [cstep, absMap, IArr.size]; omega, rfl⟩
  | firstIndex => exact ⟨a, by simp [cstep, absMap, IArr.getFirstIndex], rfl⟩
  | lastIndex => exact ⟨a, by simp [cstep, absMap, IArr.getLastIndex], rfl⟩
  | nextIndex => exact ⟨a, by simp [cstep, absMap, IArr.getNextIndex], rfl⟩

theorem popLoop_ok (n : Nat) (v : List α) (h : n ≤ v.length) : IArr.popLoop n v = .ok (v.drop n) := by
  induction n generalizing v with
  | zero => simp [IArr.popLoop]
  | succ n ih =>
    cases v with
    | nil => simp at h
    | cons y t => simp only [IArr.popLoop]; rw [ih t (by simpa using h)]; simp

end StateObs.IArrSpec
