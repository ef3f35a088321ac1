import Verif.ZeroDelay.Spec
import Verif.IndexedArray.Lemmas
/-! Helper lemmas for the observer loop. -/

namespace StateObs.Obs
open IArrSpec
variable {σ X Y U : Type}

theorem iter_congr (f : σ → X → Int → Y → Res U → Res U → Res (σ × X)) {yAt yAt' : Int → Res Y} {uAt uAt' : Int → Res U}
    (n : Nat) (st : σ) (x : X) (k : Int) (hy : ∀ i, k + 1 ≤ i → yAt i = yAt' i) (hu : ∀ i, k ≤ i → uAt i = uAt' i) :
    iter f yAt uAt n st x k = iter f yAt' uAt' n st x k := by
  induction n generalizing st x k with
  | zero => rfl
  | succ n ih =>
    simp only [iter]
    rw [hy (k + 1) (by omega), hu k (by omega), hu (k + 1) (by omega)]
    congr 1; funext y; congr 1; funext ⟨st', x'⟩
    exact ih st' x' (k + 1) (fun i hi => hy i (by omega)) (fun i hi => hu i (by omega))

theorem iter_add (f : σ → X → Int → Y → Res U → Res U → Res (σ × X)) (yAt : Int → Res Y) (uAt : Int → Res U)
    (n m : Nat) (st : σ) (x : X) (k : Int) :
    iter f yAt uAt (n + m) st x k = (iter f yAt uAt n st x k >>= fun p => iter f yAt uAt m p.1 p.2 (k + n)) := by
  induction n generalizing st x k with
  | zero => simp [iter]
  | succ n ih =>
    rw [show n + 1 + m = (n + m) + 1 by omega]
    simp only [iter, Res.bind_assoc]
    congr 1; funext y; congr 1; funext ⟨st', x'⟩
    rw [ih]
    congr 1; funext p
    congr 1; push_cast; omega

/-- Entries before `k` removed. -/
def from_ {α : Type} (k : Int) (a : IArr α) : IArr α := dropUpTo (k - 1) a.k a.v

theorem from_cons {α : Type} (K k : Int) (x : α) (t : List α) :
    from_ K ⟨k, x :: t⟩ = if k < K then from_ K ⟨k + 1, t⟩ else ⟨k, x :: t⟩ := by
  simp only [from_, dropUpTo]
  by_cases h : k < K
  · rw [if_pos h, if_pos (by omega)]
  · rw [if_neg h, if_neg (by omega)]

theorem from_of_ge {α : Type} (K : Int) (a : IArr α) (h : K ≤ a.k) : from_ K a = a := by
  rcases a with ⟨k, v⟩
  cases v with
  | nil => rfl
  | cons x t => rw [from_cons, if_neg (by simpa using h)]

theorem from_from {α : Type} (K1 K2 : Int) (h : K1 ≤ K2) (a : IArr α) : from_ K2 (from_ K1 a) = from_ K2 a := by
  rcases a with ⟨k, v⟩
  induction v generalizing k with
  | nil => rfl
  | cons x t ih =>
    rw [from_cons K1]
    split_ifs with h1
    · rw [ih, from_cons K2, if_pos (by omega)]
    · rfl

/-- The map view of `dropUpTo`. -/
theorem absMap_dropUpTo {α : Type} (b k : Int) (v : List α) (i : Int) :
    (absMap (dropUpTo b k v)).m i = if b < i then (absMap ⟨k, v⟩).m i else none := by
  induction v generalizing k with
  | nil => simp [dropUpTo, absMap]
  | cons x t ih =>
    simp only [dropUpTo]
    split_ifs with h1 h2 h2
    · rw [ih, if_pos h2]
      simp only [absMap]
      by_cases h3 : k + 1 ≤ i
      · rw [if_pos h3, if_pos (by omega)]
        have : (i - k).toNat = (i - (k + 1)).toNat + 1 := by omega
        rw [this, List.getElem?_cons_succ]
      · omega
    · rw [ih, if_neg h2]
    · rfl
    · simp only [absMap]; rw [if_neg (by omega)]

theorem absMap_from {α : Type} (K : Int) (a : IArr α) (i : Int) :
    (absMap (from_ K a)).m i = if K ≤ i then (absMap a).m i else none := by
  rw [from_, absMap_dropUpTo]
  by_cases h : K ≤ i
  · rw [if_pos h, if_pos (by omega)]
  · rw [if_neg h, if_neg (by omega)]

/-- Looking up depends on the map only. -/
theorem get_eq {α : Type} (a : IArr α) (t : Int) :
    a.get t = match (absMap a).m t with | some x => .ok x | none => .assertFail := by
  cases h : (absMap a).m t with
  | none =>
    have hc : a.checkIndex t = false := by
      rw [← Bool.not_eq_true, checkIndex_iff, ← absMap_isSome, h]; simp
    simp [IArr.get, hc]
  | some x =>
    have hs := (absMap_isSome a t).1 (by rw [h]; rfl)
    have hc : a.checkIndex t = true := (checkIndex_iff a t).2 hs
    have hx : a.v[(t - a.k).toNat]? = some x := by simpa [absMap, hs.1] using h
    simp [IArr.get, hc, hx]

theorem get_from {α : Type} (K : Int) (a : IArr α) (i : Int) (h : K ≤ i) : (from_ K a).get i = a.get i := by
  rw [get_eq, get_eq, absMap_from, if_pos h]

theorem get_ok_mem {α : Type} {a : IArr α} {t : Int} {x : α} (h : a.get t = .ok x) :
    a.k ≤ t ∧ t < a.k + a.v.length := by
  rw [get_eq] at h
  apply (absMap_isSome a t).1
  cases h1 : (absMap a).m t with
  | none => rw [h1] at h; simp at h
  | some y => rfl

/-- Popping once, when something older than `K` is stored. -/
theorem popIf_ok {α : Type} (K : Int) (a : IArr α) (h : a.v = [] → K ≤ a.k) :
    popIf K a = .ok (if a.k < K then ⟨a.k + 1, a.v.tail⟩ else a) := by
  rcases a with ⟨k, v⟩
  cases v with
  | nil =>
    have h' : ¬ k < K := by have := h rfl; simp only at this; omega
    simp [popIf, IArr.getFirstIndex, h']
  | cons x t =>
    by_cases h' : k < K <;> simp [popIf, IArr.getFirstIndex, IArr.popFront, h']

theorem from_popped {α : Type} (K : Int) (a : IArr α) (hne : a.v ≠ []) :
    from_ K (if a.k < K then ⟨a.k + 1, a.v.tail⟩ else a) = from_ K a := by
  rcases a with ⟨k, v⟩
  cases v with
  | nil => simp at hne
  | cons x t =>
    simp only [List.tail_cons]
    split_ifs with h
    · rw [from_cons, if_pos h]
    · rfl

theorem get_popped {α : Type} (K : Int) (a : IArr α) (hne : a.v ≠ []) (i : Int) (hi : a.k + 1 ≤ i) :
    (if a.k < K then (⟨a.k + 1, a.v.tail⟩ : IArr α) else a).get i = a.get i := by
  rcases a with ⟨k, v⟩
  cases v with
  | nil => simp at hne
  | cons x t =>
    simp only [List.tail_cons]
    split_ifs with h
    · have h1 := get_from (k + 1) ⟨k, x :: t⟩ i hi
      rw [from_cons, if_pos (by omega), from_of_ge _ _ (by simp)] at h1
      exact h1
    · rfl

/-- Buffers in which nothing older than the current time `k` is stored. -/
def NotOlder {α : Type} (k : Int) (a : IArr α) : Prop := a.v ≠ [] → k ≤ a.k

theorem from_notOlder {α : Type} (k : Int) (a : IArr α) (h : NotOlder k a) : from_ k a = a := by
  rcases a with ⟨i, v⟩
  cases v with
  | nil => rfl
  | cons x t => exact from_of_ge _ _ (h (by simp))

/-- Inputs for the times `k` to `K-1` are stored and nothing older (or there are no inputs at all). -/
def InputsFor (p : Nat) (k K : Int) (a : IArr U) : Prop := p = 0 ∨ (a.k = k ∧ K ≤ a.k + a.v.length)

/-- The loop performs the documented recursion and then removes what is older than `K`. Exact for all outcomes. -/
theorem loop_eq (c : ObsCfg X Y U) (f : σ → X → Int → Y → Res U → Res U → Res (σ × X)) (n : Nat) :
    ∀ (x : X) (k : Int) (y : IArr Y) (u : IArr U) (st : σ), NotOlder k y → InputsFor c.p k (k + n) u →
    loop c (kalmanStep f) (k + n) n ⟨some (x, k), y, u, st⟩ =
      (iter f y.get u.get n st x k >>= fun q =>
        .ok ⟨some (q.2, k + n), from_ (k + n) y,
          if c.p = 0 then u else from_ (k + n) u, q.1⟩) := by
  induction n with
  | zero =>
    intro x k y u st hy hu
    simp only [loop, iter, Res.ok_bind]
    congr 2
    · simp
    · rw [from_notOlder]; simpa using hy
    · split_ifs with h
      · rfl
      · rcases hu with h' | h'
        · exact absurd h' h
        · rw [from_of_ge]; simp [h'.1]
  | succ n ih =>
    intro x k y u st hy hu
    simp only [loop, loopBody, kalmanStep, iter, Res.bind_assoc]
    cases hg : y.get (k + 1) with
    | assertFail => rfl
    | ub => rfl
    | exn => rfl
    | ok y1 =>
      simp only [Res.ok_bind]
      cases hf : f st x k y1 (u.get k) (u.get (k + 1)) with
      | assertFail => rfl
      | ub => rfl
      | exn => rfl
      | ok q =>
        obtain ⟨st', x'⟩ := q
        simp only [Res.ok_bind]
        have hm := get_ok_mem hg
        have hne : y.v ≠ [] := by intro h; rw [h] at hm; simp at hm; omega
        have hyk := hy hne
        have hK : (k + ((n + 1 : Nat) : Int)) = (k + 1) + (n : Int) := by push_cast; omega
        rw [hK, popIf_ok _ _ (fun h => absurd h hne), Res.ok_bind]
        -- the remaining measurements
        have hy' : NotOlder (k + 1) (if y.k < k + 1 + (n : Int) then (⟨y.k + 1, y.v.tail⟩ : IArr Y) else y) := by
          intro _
          split_ifs with h
          · show k + 1 ≤ y.k + 1; omega
          · omega
        have gy : ∀ i, k + 1 + 1 ≤ i →
            (if y.k < k + 1 + (n : Int) then (⟨y.k + 1, y.v.tail⟩ : IArr Y) else y).get i = y.get i :=
          fun i hi => get_popped _ y hne i (by omega)
        have fy := from_popped (k + 1 + (n : Int)) y hne
        by_cases hp : c.p = 0
        · have hp' : ¬ c.p > 0 := by omega
          rw [if_neg hp', Res.ok_bind, ih x' (k + 1) _ u st' hy' (Or.inl hp)]
          rw [iter_congr f n st' x' (k + 1) gy (fun i _ => rfl)]
          simp only [fy]
        · have hp' : c.p > 0 := by omega
          rcases hu with h | h
          · exact absurd h hp
          have hune : u.v ≠ [] := by intro h'; rw [h'] at h; simp at h; omega
          have huk : u.k < k + 1 + (n : Int) := by omega
          rw [if_pos hp', popIf_ok _ _ (fun h => absurd h hune), Res.ok_bind, Res.ok_bind, if_pos huk]
          have hu' : InputsFor c.p (k + 1) (k + 1 + n) (⟨u.k + 1, u.v.tail⟩ : IArr U) := by
            refine Or.inr ⟨by simp [h.1], ?_⟩
            have := List.length_pos_iff.2 hune
            simp only [List.length_tail]; omega
          have gu : ∀ i, k + 1 ≤ i → (⟨u.k + 1, u.v.tail⟩ : IArr U).get i = u.get i := by
            intro i hi
            have := get_popped (k + 1 + (n : Int)) u hune i (by omega)
            rwa [if_pos huk] at this
          have fu := from_popped (k + 1 + (n : Int)) u hune
          rw [if_pos huk] at fu
          rw [ih x' (k + 1) _ _ st' hy' hu', iter_congr f n st' x' (k + 1) gy gu]
          simp only [fy, fu, hp, if_false]

theorem from_window {α : Type} (K : Int) (a : IArr α) (h1 : a.k ≤ K) (h2 : K ≤ a.k + a.v.length) :
    (from_ K a).k = K ∧ (from_ K a).k + (from_ K a).v.length = a.k + a.v.length := by
  rcases a with ⟨k, v⟩
  induction v generalizing k with
  | nil => simp at h1 h2 ⊢; simp [from_, dropUpTo]; omega
  | cons x t ih =>
    rw [from_cons]
    split_ifs with h
    · have := ih (k + 1) (by simp only; omega) (by simp only [List.length_cons] at h2 ⊢; push_cast at h2; omega)
      refine ⟨this.1, ?_⟩
      rw [this.2]; simp only [List.length_cons]; push_cast; omega
    · exact ⟨by simp only at h1 ⊢; omega, rfl⟩

theorem notOlder_from {α : Type} (K : Int) (a : IArr α) : NotOlder K (from_ K a) := by
  rcases a with ⟨k, v⟩
  induction v generalizing k with
  | nil => intro h; simp [from_, dropUpTo] at h
  | cons x t ih =>
    rw [from_cons]
    split_ifs with h
    · exact ih (k + 1)
    · intro _; simp only; omega

/-- `getEstimatedState` performs the documented recursion, for all outcomes. -/
theorem getEstimatedState_eq (c : ObsCfg X Y U) (f : σ → X → Int → Y → Res U → Res U → Res (σ × X))
    (x : X) (k K : Int) (y : IArr Y) (u : IArr U) (st : σ) (hk : k ≤ K)
    (hy : NotOlder k y) (hu : InputsFor c.p k K u) :
    getEstimatedState c (kalmanStep f) ⟨some (x, k), y, u, st⟩ K =
      (iter f y.get u.get (K - k).toNat st x k >>= fun q =>
        .ok ⟨some (q.2, K), from_ K y, if c.p = 0 then u else from_ K u, q.1⟩) := by
  have hK : k + ((K - k).toNat : Int) = K := by omega
  have := loop_eq c f (K - k).toNat x k y u st hy (by rw [hK]; exact hu)
  rw [hK] at this
  simp only [getEstimatedState, getCurrentTime, Res.ok_bind, hk, decide_true, Res.assert_true, this]

/-- A step that moves the time by one and leaves the buffers alone. -/
def StepKeepsBuffers (oneStep : Obs σ X Y U → Res (Obs σ X Y U)) : Prop :=
  ∀ s s', oneStep s = .ok s' → s'.y = s.y ∧ s'.u = s.u ∧
    ∃ x k x', s.x = some (x, k) ∧ s'.x = some (x', k + 1)

theorem kalmanStep_keeps (f : σ → X → Int → Y → Res U → Res U → Res (σ × X)) :
    StepKeepsBuffers (kalmanStep f : Obs σ X Y U → _) := by
  intro s s' h
  unfold kalmanStep at h
  cases hx : s.x with
  | none => simp [hx] at h
  | some q =>
    obtain ⟨x, k⟩ := q
    simp only [hx, Res.bind_eq_ok] at h
    obtain ⟨y, -, ⟨st, x'⟩, -, he⟩ := h
    simp only [Res.ok.injEq] at he
    subst he
    exact ⟨rfl, rfl, x, k, x', rfl, rfl⟩

theorem popIf_of_ok {α : Type} {K : Int} {a a' : IArr α} (h : popIf K a = .ok a') :
    from_ K a' = from_ K a ∧ ∀ k, k < K → NotOlder k a → NotOlder (k + 1) a' := by
  rcases a with ⟨i, v⟩
  cases v with
  | nil =>
    change (if i < K then Res.assertFail else Res.ok (⟨i, []⟩ : IArr α)) = .ok a' at h
    split_ifs at h with h1
    cases h
    exact ⟨rfl, fun k _ _ hn => absurd rfl hn⟩
  | cons x t =>
    change (if i < K then Res.ok (⟨i + 1, t⟩ : IArr α) else Res.ok ⟨i, x :: t⟩) = .ok a' at h
    split_ifs at h with h1
    · cases h
      refine ⟨by rw [from_cons, if_pos h1], fun k _ hn _ => ?_⟩
      have := hn (by simp); simp only at this ⊢; omega
    · cases h
      refine ⟨rfl, fun k hk hn _ => ?_⟩
      simp only; omega

/-- Buffers after a successful estimation, for any such step and whatever inputs were stored. -/
theorem loop_ok (c : ObsCfg X Y U) (oneStep : Obs σ X Y U → Res (Obs σ X Y U)) (hs : StepKeepsBuffers oneStep) (n : Nat) :
    ∀ (x : X) (k : Int) (y : IArr Y) (u : IArr U) (st : σ) (s' : Obs σ X Y U), NotOlder k y → (c.p ≠ 0 → NotOlder k u) →
    loop c oneStep (k + n) n ⟨some (x, k), y, u, st⟩ = .ok s' →
    s'.y = from_ (k + n) y ∧ s'.u = (if c.p = 0 then u else from_ (k + n) u) ∧ ∃ x', s'.x = some (x', k + n) := by
  induction n with
  | zero =>
    intro x k y u st s' hy hu h
    simp only [loop, Res.ok.injEq] at h
    subst h
    simp only [Int.natCast_zero, Int.add_zero, from_notOlder k y hy, true_and]
    refine ⟨?_, x, rfl⟩
    split_ifs with hp
    · rfl
    · rw [from_notOlder k u (hu hp)]
  | succ n ih =>
    intro x k y u st s' hy hu h
    simp only [loop, loopBody, Res.bind_eq_ok] at h
    obtain ⟨s2, ⟨s1, h1, y2, hy2, h2⟩, h3⟩ := h
    obtain ⟨e1, e2, x0, k0, x1, e3, e4⟩ := hs _ _ h1
    simp only [Option.some.injEq, Prod.mk.injEq] at e3
    obtain ⟨rfl, rfl⟩ := e3
    simp only at e1 e2
    rw [e1] at hy2
    have hK : (k + ((n + 1 : Nat) : Int)) = (k + 1) + (n : Int) := by push_cast; omega
    rw [hK] at hy2 h2 h3 ⊢
    obtain ⟨fy, ny⟩ := popIf_of_ok hy2
    by_cases hp : c.p = 0
    · rw [if_neg (by omega)] at h2
      cases h2
      rw [e4, e2] at h3
      obtain ⟨r1, r2, r3⟩ := ih x1 (k + 1) y2 u s1.st s' (ny k (by omega) hy) (fun h => absurd hp h) h3
      rw [fy] at r1
      exact ⟨r1, r2, r3⟩
    · rw [if_pos (by omega)] at h2
      simp only [Res.bind_eq_ok] at h2
      obtain ⟨u2, hu2, h2⟩ := h2
      rw [e2] at hu2
      obtain ⟨fu, nu⟩ := popIf_of_ok hu2
      cases h2
      rw [e4] at h3
      obtain ⟨r1, r2, r3⟩ := ih x1 (k + 1) y2 u2 s1.st s' (ny k (by omega) hy) (fun h => nu k (by omega) (hu h)) h3
      rw [fy] at r1
      rw [if_neg hp] at r2 ⊢
      rw [fu] at r2
      exact ⟨r1, r2, r3⟩

end StateObs.Obs
