import Verif.Simulator.Model
import Verif.IndexedArray.Props
import Mathlib.Tactic.Tauto
import Mathlib.Order.Basic
import Mathlib.Data.Int.Order.Basic
/-! Helper lemmas for the simulator: indexed arrays seen as maps, the sorted input map, the loop. -/

set_option linter.unusedSectionVars false

namespace StateObs
open IArrSpec
variable {α : Type}

/-- The value stored at an index. -/
def IArr.at? (a : IArr α) (i : Int) : Option α := (absMap a).m i

namespace IArr

theorem at?_isSome (a : IArr α) (i : Int) : (a.at? i).isSome ↔ a.getFirstIndex ≤ i ∧ i ≤ a.getLastIndex := (C01_window a).2.2.2 i

theorem get_eq_ok (a : IArr α) (i : Int) (x : α) : a.get i = .ok x ↔ a.at? i = some x := by
  by_cases h : a.getFirstIndex ≤ i ∧ i ≤ a.getLastIndex
  · obtain ⟨y, h1, h2⟩ := (C02_get a i).1 h
    rw [h1, IArr.at?, h2]; simp
  · rw [(C02_get a i).2 h]
    have := (at?_isSome a i).not.2 h
    simp only [Option.not_isSome_iff_eq_none] at this
    simp [this]

theorem get_fail (a : IArr α) (i : Int) (h : a.at? i = none) : a.get i = .assertFail := by
  refine (C02_get a i).2 fun hc => ?_
  rw [← at?_isSome, h] at hc
  simp at hc

theorem setValue_spec {a a' : IArr α} {x : α} {t : Int} (h : a.setValue x t = .ok a') :
    a'.at? = Function.update a.at? t (some x) ∧ (a.v.length = 0 → a'.getFirstIndex = t ∧ a'.getNextIndex = t + 1) ∧
    (a.v.length ≠ 0 → a'.getFirstIndex = a.getFirstIndex ∧ a.getFirstIndex ≤ t ∧ t ≤ a.getNextIndex ∧
      a'.getNextIndex = max a.getNextIndex (t + 1)) := by
  have hs := sim_setValue x a x t
  unfold Sim at hs
  simp only [step, cstep, h, Res.ok_bind, Res.ok.injEq, Prod.mk.injEq, and_true] at hs
  have e1 : (absMap a).lo = a.k := rfl
  have e2 : (absMap a).hi = a.k + a.v.length := rfl
  rw [e1, e2] at hs
  simp only [IArr.getFirstIndex, IArr.getNextIndex]
  split_ifs at hs with h1 h2 h3
  all_goals try simp at hs
  all_goals
    have k0 := congrArg Map.m hs
    have k1 := congrArg Map.lo hs
    have k2 := congrArg Map.hi hs
    simp only [absMap] at k1 k2
    refine ⟨k0, fun h0 => ?_, fun h0 => ?_⟩ <;> omega

theorem setValue_isOk (a : IArr α) (x : α) (t : Int) (h : a.v.length = 0 ∨ (a.getFirstIndex ≤ t ∧ t ≤ a.getNextIndex)) :
    ∃ a', a.setValue x t = .ok a' := (Res.isOk_iff _).1 ((C02_setValue a x t).1 h)

theorem truncateAfter_spec (a : IArr α) (d : α) (t : Int) :
    (a.truncateAfter d t).at? = (fun i => if i ≤ t then a.at? i else none) ∧ (a.truncateAfter d t).getFirstIndex = a.getFirstIndex ∧
    (a.truncateAfter d t).getNextIndex = max a.getFirstIndex (min a.getNextIndex (t + 1)) := by
  obtain ⟨a', h1, h2⟩ := sim_truncateAfter d a t
  simp only [cstep, Res.ok.injEq, Prod.mk.injEq, and_true] at h1
  subst h1
  exact ⟨congrArg Map.m h2, congrArg Map.lo h2, congrArg Map.hi h2⟩

theorem window (a : IArr α) : a.getNextIndex = a.getFirstIndex + a.v.length ∧ a.getLastIndex = a.getFirstIndex + a.v.length - 1 := ⟨rfl, rfl⟩

end IArr

namespace Simulator
variable [Inhabited α]

theorem simulateDynamics_ok {s s' : Simulator α} (h : s.simulateDynamics = .ok s') :
    ∃ f u x y' x', s.f = some f ∧ s.getInput s.getCurrentTime = .ok u ∧ s.x.at? s.getCurrentTime = some x ∧
      s.y.setValue (f.measure x u s.getCurrentTime) s.getCurrentTime = .ok y' ∧
      s.x.setValue (f.state x u s.getCurrentTime) (s.getCurrentTime + 1) = .ok x' ∧ s' = { s with x := x', y := y' } := by
  unfold simulateDynamics at h
  split at h
  · simp at h
  · next f hf =>
    simp only [Res.bind_eq_ok] at h
    obtain ⟨u, h1, x, h2, y', h3, x', h4, h5⟩ := h
    exact ⟨f, u, x, y', x', hf, h1, (IArr.get_eq_ok _ _ _).1 h2, h3, h4, (Res.ok.inj h5).symm⟩

theorem simulateN_spec (n : ℕ) : ∀ {s s' : Simulator α}, simulateN n s = .ok s' →
    s'.f = s.f ∧ s'.u = s.u ∧ s'.getCurrentTime = s.getCurrentTime + n ∧ s'.x.getFirstIndex = s.x.getFirstIndex ∧
    (∀ i ≤ s.getCurrentTime, s'.x.at? i = s.x.at? i) ∧
    (∀ i, (i < s.getCurrentTime ∨ s.getCurrentTime + n ≤ i) → s'.y.at? i = s.y.at? i) ∧
    (∀ i, s.getCurrentTime ≤ i → i < s.getCurrentTime + n → ∃ f x u, s.f = some f ∧ s'.x.at? i = some x ∧ s.getInput i = .ok u ∧
      s'.x.at? (i + 1) = some (f.state x u i) ∧ s'.y.at? i = some (f.measure x u i)) := by
  induction n with
  | zero =>
    intro s s' h
    obtain rfl := Res.ok.inj h
    exact ⟨rfl, rfl, by simp, rfl, fun _ _ => rfl, fun _ _ => rfl, fun i h1 h2 => absurd h2 (by simpa using h1)⟩
  | succ n ih =>
    intro s s' h
    simp only [simulateN, Res.bind_eq_ok] at h
    obtain ⟨s1, h1, h2⟩ := h
    obtain ⟨f, u, x, y', x', hf, hu, hx, hy, hx', rfl⟩ := simulateDynamics_ok h1
    obtain ⟨e1, e2, e3, e4, e5, e6, e7⟩ := ih h2
    obtain ⟨ax, bx, cx⟩ := IArr.setValue_spec hx'
    obtain ⟨ay, by', cy⟩ := IArr.setValue_spec hy
    have hne : s.x.v.length ≠ 0 := by
      intro h0
      have : (s.x.at? s.getCurrentTime).isSome := by rw [hx]; rfl
      rw [IArr.at?_isSome] at this
      obtain ⟨w1, w2⟩ := IArr.window s.x
      omega
    obtain ⟨c1, c2, c3, c4⟩ := cx hne
    have ht : s.getCurrentTime + 1 = ({ s with x := x', y := y' } : Simulator α).getCurrentTime := by
      have := IArr.window s.x
      have := IArr.window x'
      simp only [getCurrentTime] at *
      omega
    rw [← ht] at e3 e5 e6 e7
    refine ⟨e1, e2, by push_cast; omega, e4.trans c1, fun i hi => ?_, fun i hi => ?_, fun i hi hi2 => ?_⟩
    · rw [e5 i (by omega)]
      show x'.at? i = _
      rw [ax, Function.update_of_ne (by omega)]
    · rw [e6 i (by push_cast at hi; omega)]
      show y'.at? i = _
      rw [ay, Function.update_of_ne (by push_cast at hi; omega)]
    · by_cases hc : i = s.getCurrentTime
      · subst hc
        refine ⟨f, x, u, hf, ?_, hu, ?_, ?_⟩
        · rw [e5 _ (by omega)]
          show x'.at? _ = _
          rw [ax, Function.update_of_ne (by omega), hx]
        · rw [e5 _ (by omega)]
          show x'.at? _ = _
          rw [ax, Function.update_self]
        · rw [e6 _ (by omega)]
          show y'.at? _ = _
          rw [ay, Function.update_self]
      · exact e7 i (by omega) (by push_cast at hi2; omega)

/-- The keys are strictly increasing. -/
def Sorted (l : List (Int × α)) : Prop := l.Pairwise fun a b => a.1 < b.1

theorem mem_mapInsert {l : List (Int × α)} (hl : Sorted l) (k : Int) (u : α) (e : Int × α) :
    e ∈ mapInsert l k u ↔ e ∈ l ∨ (e = (k, u) ∧ ∀ e' ∈ l, e'.1 ≠ k) := by
  induction l with
  | nil => simp [mapInsert]
  | cons a t ih =>
    obtain ⟨j, v⟩ := a
    obtain ⟨h1, h2⟩ := List.pairwise_cons.1 hl
    unfold mapInsert
    split_ifs with c1 c2
    · have : ∀ e' ∈ (j, v) :: t, e'.1 ≠ k := by
        intro e' he
        rcases List.mem_cons.1 he with rfl | he
        · simp only; omega
        · have := h1 _ he; simp only at this; omega
      rw [List.mem_cons]
      tauto
    · subst c2
      constructor
      · exact Or.inl
      · rintro (h | ⟨-, h⟩)
        · exact h
        · exact absurd rfl (h _ (List.mem_cons_self ..))
    · rw [List.mem_cons, ih h2, List.mem_cons]
      simp only [List.forall_mem_cons, ne_eq]
      have : ¬ j = k := fun h => c2 h.symm
      tauto

theorem sorted_mapInsert {l : List (Int × α)} (hl : Sorted l) (k : Int) (u : α) : Sorted (mapInsert l k u) := by
  induction l with
  | nil => simp [mapInsert, Sorted]
  | cons a t ih =>
    obtain ⟨j, v⟩ := a
    obtain ⟨h1, h2⟩ := List.pairwise_cons.1 hl
    unfold mapInsert
    split_ifs with c1 c2
    · refine List.pairwise_cons.2 ⟨fun e he => ?_, hl⟩
      rcases List.mem_cons.1 he with rfl | he
      · exact c1
      · have := h1 _ he; simp only at this ⊢; omega
    · exact hl
    · refine List.pairwise_cons.2 ⟨fun e he => ?_, ih h2⟩
      rcases (mem_mapInsert h2 _ _ _).1 he with he | ⟨rfl, -⟩
      · exact h1 _ he
      · simp only; omega

theorem takeWhile_last {l : List (Int × α)} (hl : Sorted l) (k : Int) (e : Int × α) :
    (l.takeWhile fun e => decide (e.1 ≤ k)).getLast? = some e ↔ e ∈ l ∧ e.1 ≤ k ∧ ∀ e' ∈ l, e'.1 ≤ k → e'.1 ≤ e.1 := by
  induction l generalizing e with
  | nil => simp
  | cons a t ih =>
    obtain ⟨h1, h2⟩ := List.pairwise_cons.1 hl
    rw [List.takeWhile_cons]
    by_cases c : a.1 ≤ k
    · rw [if_pos (by simpa using c), List.getLast?_cons]
      cases ht : (t.takeWhile fun e => decide (e.1 ≤ k)).getLast? with
      | none =>
        have hn : ∀ e' ∈ t, ¬ e'.1 ≤ k := by
          rw [List.getLast?_eq_none_iff] at ht
          intro e' he hk
          cases t with
          | nil => simp at he
          | cons b t =>
            obtain ⟨g1, g2⟩ := List.pairwise_cons.1 h2
            have hb : b.1 ≤ k := by
              rcases List.mem_cons.1 he with rfl | he
              · exact hk
              · have := g1 _ he; omega
            rw [List.takeWhile_cons, if_pos (by simpa using hb)] at ht
            simp at ht
        simp only [Option.getD_none, Option.some.injEq, List.mem_cons]
        constructor
        · rintro rfl
          exact ⟨.inl rfl, c, fun e' he' hk => by
            rcases he' with rfl | he'
            · exact le_refl _
            · exact absurd hk (hn _ he')⟩
        · rintro ⟨rfl | h, hk, -⟩
          · rfl
          · exact absurd hk (hn _ h)
      | some b =>
        obtain ⟨b1, b2, b3⟩ := (ih h2 b).1 ht
        simp only [Option.getD_some, Option.some.injEq, List.mem_cons]
        constructor
        · rintro rfl
          exact ⟨.inr b1, b2, fun e' he' hk => by
            rcases he' with rfl | he'
            · exact le_of_lt (h1 _ b1)
            · exact b3 _ he' hk⟩
        · rintro ⟨rfl | h, hk, hm⟩
          · have := hm b (.inr b1) b2
            have := h1 _ b1
            omega
          · have := (ih h2 e).2 ⟨h, hk, fun e' he' => hm e' (.inr he')⟩
            rw [ht] at this
            exact Option.some.inj this
    · rw [if_neg (by simpa using c)]
      simp only [List.getLast?_nil, reduceCtorEq, List.mem_cons, false_iff]
      rintro ⟨rfl | h, hk, -⟩
      · exact c hk
      · have := h1 _ h; omega

theorem getInput_iff {s : Simulator α} (hs : Sorted s.u) (k : Int) (v : α) :
    s.getInput k = .ok v ↔ ∃ j, (j, v) ∈ s.u ∧ j ≤ k ∧ ∀ e ∈ s.u, e.1 ≤ k → e.1 ≤ j := by
  unfold getInput
  simp only [Res.bind_eq_ok]
  constructor
  · rintro ⟨-, -, h⟩
    split at h
    · simp at h
    · next e he =>
      obtain ⟨e1, e2, e3⟩ := (takeWhile_last hs k e).1 he
      simp only [Res.bind_eq_ok, Res.ok.injEq] at h
      obtain ⟨-, -, rfl⟩ := h
      exact ⟨e.1, e1, e2, e3⟩
  · rintro ⟨j, h1, h2, h3⟩
    have hl : s.u.length > 0 := List.length_pos_of_mem h1
    refine ⟨(), by simp [hl], ?_⟩
    have := (takeWhile_last hs k (j, v)).2 ⟨h1, h2, h3⟩
    rw [this]
    simp [h2]

end Simulator
end StateObs
