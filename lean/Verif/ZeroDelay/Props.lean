import Verif.ZeroDelay.Lemmas
/-!
# Properties C07-C13 of zero-delay observers
-/

namespace StateObs.Obs
open IArrSpec
variable {σ X Y U : Type}

/-! ## C07 -/

/-- **C07**. Current time `k`, nothing older than `k` stored, inputs for `k .. K-1` stored (or no inputs, `p = 0`): the call
`getEstimatedState(K)` is exactly the recursion that applies the one-step estimator to `y_{k+1}, ..., y_K`, in that order,
each once, with the inputs of the matching times; it ends at time `K`. This holds for every outcome:
the call fails if and only if a measurement is missing or the one-step estimator itself fails. -/
theorem C07_getEstimatedState (c : ObsCfg X Y U) (f : σ → X → Int → Y → Res U → Res U → Res (σ × X))
    (s : Obs σ X Y U) (x : X) (k K : Int) (hx : s.x = some (x, k)) (hk : k ≤ K)
    (hy : s.y.size ≠ 0 → k ≤ s.y.getFirstIndex)
    (hu : c.p = 0 ∨ (s.u.getFirstIndex = k ∧ K ≤ s.u.getNextIndex)) :
    (getEstimatedState c (kalmanStep f) s K >>= fun s' => .ok (s'.st, s'.x)) =
      (iter f s.y.get s.u.get (K - k).toNat s.st x k >>= fun q => .ok (q.1, some (q.2, K))) := by
  rcases s with ⟨x0, y, u, st⟩
  simp only at hx hy hu
  subst hx
  have hy' : NotOlder k y := fun h => hy (by simpa [IArr.size] using h)
  rw [getEstimatedState_eq c f x k K y u st hk hy' hu, Res.bind_assoc]
  rfl

/-- **C07**, for an estimator that cannot fail: if `y_{k+1} .. y_{k+n}` are the stored measurements `ys` (the one of time `k` may
still be stored in front), the call succeeds and folds the one-step estimator over them. -/
theorem C07_fold (c : ObsCfg X Y U) (g : σ → X → Int → Y → σ × X) (hp : c.p = 0)
    (s : Obs σ X Y U) (x : X) (k : Int) (hx : s.x = some (x, k)) (ys : List Y)
    (hy : s.y = ⟨k + 1, ys⟩ ∨ ∃ y0, s.y = ⟨k, y0 :: ys⟩) :
    ∃ s', getEstimatedState c (kalmanStep fun st x t y _ _ => .ok (g st x t y)) s (k + ys.length) = .ok s' ∧
      (s'.st, s'.x) =
        ((ys.foldl (fun (q : (σ × X) × Int) y => (g q.1.1 q.1.2 q.2 y, q.2 + 1)) ((s.st, x), k)).1.1,
         some ((ys.foldl (fun (q : (σ × X) × Int) y => (g q.1.1 q.1.2 q.2 y, q.2 + 1)) ((s.st, x), k)).1.2,
          k + ys.length)) := by
  have h1 : s.y.size ≠ 0 → k ≤ s.y.getFirstIndex := by
    rcases hy with h | ⟨y0, h⟩ <;> rw [h] <;> simp only [IArr.getFirstIndex] <;> omega
  have key : ∀ (zs : List Y) (st : σ) (x : X) (t : Int) (yAt : Int → Res Y) (uAt : Int → Res U),
      (∀ i : Nat, ∀ z, zs[i]? = some z → yAt (t + 1 + i) = .ok z) →
      iter (fun st x t y _ _ => .ok (g st x t y)) yAt uAt zs.length st x t =
        .ok (zs.foldl (fun (q : (σ × X) × Int) y => (g q.1.1 q.1.2 q.2 y, q.2 + 1)) ((st, x), t)).1 := by
    intro zs
    induction zs with
    | nil => intro st x t yAt uAt _; rfl
    | cons z zs ih =>
      intro st x t yAt uAt h
      have h0 := h 0 z rfl
      simp only [Int.natCast_zero, Int.add_zero] at h0
      simp only [List.length_cons, iter, h0, Res.ok_bind, List.foldl_cons]
      apply ih
      intro i z' hz
      have := h (i + 1) z' hz
      rw [← this]; congr 1; push_cast; omega
  have hlook : ∀ i : Nat, ∀ z, ys[i]? = some z → s.y.get (k + 1 + i) = .ok z := by
    intro i z hz
    rw [get_eq]
    rcases hy with h | ⟨y0, h⟩ <;> rw [h] <;> simp only [absMap]
    · rw [if_pos (by omega)]
      have : (k + 1 + (i : Int) - (k + 1)).toNat = i := by omega
      rw [this, hz]
    · rw [if_pos (by omega)]
      have : (k + 1 + (i : Int) - k).toNat = i + 1 := by omega
      rw [this, List.getElem?_cons_succ, hz]
  have h2 := C07_getEstimatedState c (fun st x t y _ _ => .ok (g st x t y)) s x k (k + ys.length) hx (by omega) h1
    (Or.inl hp)
  have h3 : (k + (ys.length : Int) - k).toNat = ys.length := by omega
  rw [h3, key ys s.st x k _ _ hlook, Res.ok_bind, Res.bind_eq_ok] at h2
  obtain ⟨s', h4, h5⟩ := h2
  refine ⟨s', h4, ?_⟩
  injection h5

/-- Non-vacuity of C07: three buffered measurements, the one of the current time still stored. -/
example : getEstimatedState (⟨fun _ => true, fun _ => true, fun _ => true, 0⟩ : ObsCfg Int Int Int)
    (kalmanStep fun st x _ y _ _ => .ok (st, 2 * x + y)) ⟨some (1, 5), ⟨5, [9, 1, 2, 3]⟩, ⟨0, []⟩, ()⟩ 8
      = .ok ⟨some (19, 8), ⟨8, [3]⟩, ⟨0, []⟩, ()⟩ := rfl

/-! ## C08 -/

/-- **C08**. Estimating up to `K1` and then up to `K2` is the same as estimating up to `K2` at once: same state, filter data,
time and remaining buffers, and the same failures. -/
theorem C08_split (c : ObsCfg X Y U) (f : σ → X → Int → Y → Res U → Res U → Res (σ × X))
    (s : Obs σ X Y U) (x : X) (k K1 K2 : Int) (hx : s.x = some (x, k)) (h1 : k ≤ K1) (h2 : K1 ≤ K2)
    (hy : s.y.size ≠ 0 → k ≤ s.y.getFirstIndex)
    (hu : c.p = 0 ∨ (s.u.getFirstIndex = k ∧ K2 ≤ s.u.getNextIndex)) :
    (getEstimatedState c (kalmanStep f) s K1 >>= fun s' => getEstimatedState c (kalmanStep f) s' K2) =
      getEstimatedState c (kalmanStep f) s K2 := by
  rcases s with ⟨x0, y, u, st⟩
  simp only at hx hy hu
  subst hx
  have hy' : NotOlder k y := fun h => hy (by simpa [IArr.size] using h)
  have hu1 : InputsFor c.p k K1 u := by
    rcases hu with h | h
    · exact Or.inl h
    · exact Or.inr ⟨h.1, by have := h.2; simp only [IArr.getNextIndex] at this; omega⟩
  have hu2 : InputsFor c.p K1 K2 (if c.p = 0 then u else from_ K1 u) := by
    rcases hu with h | h
    · exact Or.inl h
    · by_cases hp : c.p = 0
      · exact Or.inl hp
      · rw [if_neg hp]
        simp only [IArr.getFirstIndex, IArr.getNextIndex] at h
        have := from_window K1 u (by omega) (by omega)
        exact Or.inr ⟨this.1, by rw [this.2]; exact h.2⟩
  rw [getEstimatedState_eq c f x k K1 y u st h1 hy' hu1, getEstimatedState_eq c f x k K2 y u st (by omega) hy' hu]
  rw [Res.bind_assoc]
  have hn : (K2 - k).toNat = (K1 - k).toNat + (K2 - K1).toNat := by omega
  rw [hn, iter_add, Res.bind_assoc]
  congr 1; funext q
  rw [Res.ok_bind, getEstimatedState_eq c f q.2 K1 K2 _ _ q.1 h2 (notOlder_from K1 y) hu2]
  have hk : k + ((K1 - k).toNat : Int) = K1 := by omega
  rw [hk, from_from K1 K2 h2]
  have e : (if c.p = 0 then (if c.p = 0 then u else from_ K1 u) else from_ K2 (if c.p = 0 then u else from_ K1 u)) =
      (if c.p = 0 then u else from_ K2 u) := by
    split_ifs
    · rfl
    · rw [from_from K1 K2 h2]
  rw [e]
  congr 1
  apply iter_congr
  · intro i hi; exact get_from K1 y i (by omega)
  · intro i hi
    split_ifs
    · rfl
    · exact get_from K1 u i (by omega)

/-- **C08**, any number of intermediate stops. -/
theorem C08_any_split (c : ObsCfg X Y U) (f : σ → X → Int → Y → Res U → Res U → Res (σ × X)) (stops : List Int) :
    ∀ (s : Obs σ X Y U) (x : X) (k K : Int), s.x = some (x, k) → (stops ++ [K]).Pairwise (· ≤ ·) →
    (∀ t ∈ stops ++ [K], k ≤ t) → (s.y.size ≠ 0 → k ≤ s.y.getFirstIndex) →
    (c.p = 0 ∨ (s.u.getFirstIndex = k ∧ K ≤ s.u.getNextIndex)) →
    (stops.foldlM (fun s t => getEstimatedState c (kalmanStep f) s t) s >>=
      fun s' => getEstimatedState c (kalmanStep f) s' K) = getEstimatedState c (kalmanStep f) s K := by
  induction stops with
  | nil => intro s x k K _ _ _ _ _; rfl
  | cons t ts ih =>
    intro s x k K hx hs hk hy hu
    have hkt : k ≤ t := hk t (by simp)
    have htK : t ≤ K := by
      simp only [List.cons_append, List.pairwise_cons] at hs
      exact hs.1 K (by simp)
    rw [List.foldlM_cons, Res.bind_assoc, ← C08_split c f s x k t K hx hkt htK hy hu]
    -- the intermediate state satisfies the hypotheses again
    have hy' : NotOlder k s.y := fun h => hy (by simpa [IArr.size] using h)
    have hu1 : InputsFor c.p k t s.u := by
      rcases hu with h | h
      · exact Or.inl h
      · exact Or.inr ⟨h.1, by have := h.2; simp only [IArr.getNextIndex] at this; omega⟩
    have hs0 : s = ⟨some (x, k), s.y, s.u, s.st⟩ := by rw [← hx]
    rw [hs0, getEstimatedState_eq c f x k t s.y s.u s.st hkt hy' hu1]
    simp only [Res.bind_assoc]
    congr 1; funext q
    simp only [Res.ok_bind]
    apply ih _ q.2 t K rfl
    · simp only [List.cons_append, List.pairwise_cons] at hs; exact hs.2
    · simp only [List.cons_append, List.pairwise_cons] at hs
      exact hs.1
    · intro hne
      exact notOlder_from t s.y (by simpa [IArr.size] using hne)
    · rcases hu with h | h
      · exact Or.inl h
      · by_cases hp : c.p = 0
        · exact Or.inl hp
        · simp only [if_neg hp]
          simp only [IArr.getFirstIndex, IArr.getNextIndex] at h ⊢
          have := from_window t s.u (by omega) (by omega)
          exact Or.inr ⟨this.1, by rw [this.2]; exact h.2⟩

/-- Feed the measurements one at a time, estimating after each. -/
def feedEach (c : ObsCfg X Y U) (oneStep : Obs σ X Y U → Res (Obs σ X Y U)) :
    List Y → Obs σ X Y U → Res (Obs σ X Y U)
  | [], s => .ok s
  | y :: ys, s => do
    let s ← pushMeasurement c s y
    let (s, _) ← estimateState c oneStep s
    feedEach c oneStep ys s

/-- Feed all measurements, then estimate once. -/
def feedAll (c : ObsCfg X Y U) (oneStep : Obs σ X Y U → Res (Obs σ X Y U)) (ys : List Y) (s : Obs σ X Y U) :
    Res (Obs σ X Y U) := do
  let s ← ys.foldlM (pushMeasurement c) s
  let (s, _) ← estimateState c oneStep s
  .ok s

theorem push_all (c : ObsCfg X Y U) (ys : List Y) (hok : ∀ y ∈ ys, c.okY y = true) :
    ∀ (s : Obs σ X Y U), s.y.v ≠ [] →
    ys.foldlM (pushMeasurement c) s = .ok { s with y := ⟨s.y.k, s.y.v ++ ys⟩ } := by
  induction ys with
  | nil => intro s _; simp
  | cons y ys ih =>
    intro s hne
    have h0 : s.y.size > 0 := List.length_pos_iff.2 hne
    have : pushMeasurement c s y = .ok { s with y := ⟨s.y.k, s.y.v ++ [y]⟩ } := by
      simp [pushMeasurement, hok y (by simp), h0, IArr.pushBack]
    rw [List.foldlM_cons, this, Res.ok_bind, ih (fun z hz => hok z (by simp [hz])) _ (by simp)]
    simp

/-- The measurement buffer of an observer that is up to date: empty, or just the measurement of the current time. -/
def UpToDate (k : Int) (y : IArr Y) : Prop := y.v = [] ∨ (y.k = k ∧ y.v.length = 1)

theorem push_first (c : ObsCfg X Y U) (s : Obs σ X Y U) (x : X) (k : Int) (hx : s.x = some (x, k)) (hs : UpToDate k s.y)
    (y : Y) (hok : c.okY y = true) :
    ∃ i v, pushMeasurement c s y = .ok { s with y := ⟨i, v ++ [y]⟩ } ∧ i + v.length = k + 1 ∧ k ≤ i := by
  rcases hs with h | h
  · have h0 : ¬ s.y.size > 0 := by simp [IArr.size, h]
    refine ⟨k + 1, [], ?_, by simp, by omega⟩
    simp [pushMeasurement, hok, h0, hx, IArr.setValue, IArr.checkIndex, IArr.checkNext, h]
  · have h0 : s.y.size > 0 := by simp [IArr.size, h.2]
    refine ⟨s.y.k, s.y.v, ?_, by rw [h.1, h.2]; simp, by omega⟩
    simp [pushMeasurement, hok, h0, IArr.pushBack]

theorem estimate_after (c : ObsCfg X Y U) (oneStep : Obs σ X Y U → Res (Obs σ X Y U)) (s : Obs σ X Y U)
    (hne : s.y.v ≠ []) :
    (estimateState c oneStep s >>= fun q => .ok q.1) =
      (getEstimatedState c oneStep s s.y.getLastIndex >>= fun s' => s'.getCurrentTime >>= fun _ => .ok s') := by
  have h0 : s.y.size > 0 := List.length_pos_iff.2 hne
  simp only [estimateState, getMeasurementTime, h0, if_true, decide_true, Res.assert_true, Res.ok_bind, Res.bind_assoc]

theorem from_append_last {α : Type} (i : Int) (v : List α) (y : α) (K : Int) (h : i + v.length = K) :
    from_ K ⟨i, v ++ [y]⟩ = ⟨K, [y]⟩ := by
  induction v generalizing i with
  | nil => simp at h; subst h; exact from_of_ge _ _ (by simp)
  | cons a t ih =>
    rw [List.cons_append, from_cons, if_pos (by simp only [List.length_cons] at h; push_cast at h; omega)]
    exact ih (i + 1) (by simp only [List.length_cons] at h; push_cast at h; omega)

/-- **C08**, feeding. Starting from an observer that is up to date, pushing measurements one at a time with an estimation after
each gives the same observer (state, filter data, time, buffers) or the same failure as pushing them all and
estimating once. Inputs, if any, are given beforehand. -/
theorem C08_feed (c : ObsCfg X Y U) (f : σ → X → Int → Y → Res U → Res U → Res (σ × X)) (ys : List Y) :
    ∀ (s : Obs σ X Y U) (x : X) (k : Int), s.x = some (x, k) → UpToDate k s.y → (∀ y ∈ ys, c.okY y = true) →
    (c.p = 0 ∨ (s.u.getFirstIndex = k ∧ k + ys.length ≤ s.u.getNextIndex)) →
    feedEach c (kalmanStep f) ys s = feedAll c (kalmanStep f) ys s := by
  induction ys with
  | nil =>
    intro s x k hx hs _ hu
    simp only [feedEach, feedAll, List.foldlM_nil, Res.pure_eq, Res.ok_bind, estimateState]
    rcases hs with h | h
    · have h0 : ¬ s.y.size > 0 := by simp [IArr.size, h]
      simp [h0, getCurrentTime, hx]
    · have h0 : s.y.size > 0 := by simp [IArr.size, h.2]
      have : s.y.getLastIndex = k := by simp [IArr.getLastIndex, h.1, h.2]
      simp only [h0, if_true, getMeasurementTime, decide_true, Res.assert_true, Res.ok_bind, this]
      simp [getEstimatedState, getCurrentTime, hx, loop]
  | cons y ys ih =>
    intro s x k hx hs hok hu
    obtain ⟨i, v, hpush, hi, hki⟩ := push_first c s x k hx hs y (hok y (by simp))
    rcases s with ⟨x0, yb, u, st⟩
    simp only at hx; subst hx
    simp only at hpush hu
    have hN : ∀ w : List Y, NotOlder k (⟨i, w⟩ : IArr Y) := fun w _ => hki
    have hu1 : InputsFor c.p k (k + 1) u := by
      rcases hu with h | h
      · exact Or.inl h
      · refine Or.inr ⟨h.1, ?_⟩
        have := h.2; simp only [IArr.getNextIndex, List.length_cons] at this; push_cast at this; omega
    have huA : InputsFor c.p k (k + 1 + ys.length) u := by
      rcases hu with h | h
      · exact Or.inl h
      · refine Or.inr ⟨h.1, ?_⟩
        have := h.2; simp only [IArr.getNextIndex, List.length_cons] at this; push_cast at this; omega
    have h1n : (k + 1 - k).toNat = 1 := by omega
    -- left-hand side: one step, then the induction hypothesis
    have lhs : feedEach c (kalmanStep f) (y :: ys) ⟨some (x, k), yb, u, st⟩ =
        (iter f (⟨i, v ++ [y]⟩ : IArr Y).get u.get 1 st x k >>= fun q =>
          feedAll c (kalmanStep f) ys ⟨some (q.2, k + 1), ⟨k + 1, [y]⟩, if c.p = 0 then u else from_ (k + 1) u, q.1⟩) := by
      simp only [feedEach, hpush, Res.ok_bind]
      have e := estimate_after c (kalmanStep f) (⟨some (x, k), ⟨i, v ++ [y]⟩, u, st⟩ : Obs σ X Y U) (by simp)
      have hl : (⟨i, v ++ [y]⟩ : IArr Y).getLastIndex = k + 1 := by
        simp only [IArr.getLastIndex, List.length_append, List.length_singleton]; push_cast; omega
      simp only [hl] at e
      rw [getEstimatedState_eq c f x k (k + 1) _ u st (by omega) (hN _) hu1, h1n, from_append_last i v y (k + 1) hi] at e
      simp only [Res.bind_assoc, Res.ok_bind, getCurrentTime] at e
      have e2 : ∀ (r : Res (Obs σ X Y U × Int)) (g : Obs σ X Y U → Res (Obs σ X Y U)),
          (r >>= fun q => g q.1) = ((r >>= fun q => .ok q.1) >>= g) := by
        intro r g; rw [Res.bind_assoc]; rfl
      show (estimateState c (kalmanStep f) _ >>= fun q => feedEach c (kalmanStep f) ys q.1) = _
      rw [e2, e, Res.bind_assoc]
      congr 1; funext q
      rw [Res.ok_bind]
      apply ih _ q.2 (k + 1) rfl (Or.inr ⟨rfl, rfl⟩) (fun z hz => hok z (by simp [hz]))
      rcases hu with h | h
      · exact Or.inl h
      · by_cases hp : c.p = 0
        · exact Or.inl hp
        · simp only [if_neg hp]
          simp only [IArr.getFirstIndex, IArr.getNextIndex, List.length_cons] at h ⊢
          push_cast at h
          have := from_window (k + 1) u (by omega) (by omega)
          exact Or.inr ⟨this.1, by rw [this.2]; omega⟩
    -- both sides computed
    have fin : ∀ (w : List Y) (j : Int) (x : X) (t K : Int) (u : IArr U) (st : σ), w ≠ [] → t ≤ j → t ≤ K → j + w.length = K + 1 →
        InputsFor c.p t K u →
        (estimateState c (kalmanStep f) (⟨some (x, t), ⟨j, w⟩, u, st⟩ : Obs σ X Y U) >>= fun q => .ok q.1) =
          (iter f (⟨j, w⟩ : IArr Y).get u.get (K - t).toNat st x t >>= fun q =>
            .ok ⟨some (q.2, K), from_ K ⟨j, w⟩, if c.p = 0 then u else from_ K u, q.1⟩) := by
      intro w j x t K u st hw htj htK hlen hI
      rw [estimate_after c _ _ hw]
      have hl : (⟨j, w⟩ : IArr Y).getLastIndex = K := by simp only [IArr.getLastIndex]; omega
      simp only [hl]
      rw [getEstimatedState_eq c f x t K _ u st htK (fun _ => htj) hI]
      simp only [Res.bind_assoc, Res.ok_bind, getCurrentTime]
    rw [lhs]
    have pall := push_all (σ := σ) c ys (fun z hz => hok z (by simp [hz]))
    have rhs : feedAll c (kalmanStep f) (y :: ys) ⟨some (x, k), yb, u, st⟩ =
        (iter f (⟨i, v ++ [y] ++ ys⟩ : IArr Y).get u.get (1 + ys.length) st x k >>= fun q =>
          .ok ⟨some (q.2, k + 1 + ys.length), from_ (k + 1 + ys.length) ⟨i, v ++ [y] ++ ys⟩,
            if c.p = 0 then u else from_ (k + 1 + ys.length) u, q.1⟩) := by
      simp only [feedAll, List.foldlM_cons, hpush, Res.ok_bind]
      rw [pall _ (by simp)]
      simp only [Res.ok_bind]
      have := fin (v ++ [y] ++ ys) i x k (k + 1 + ys.length) u st (by simp) hki (by omega) (by
        simp only [List.length_append, List.length_singleton]; push_cast; omega) huA
      have hn : (k + 1 + (ys.length : Int) - k).toNat = 1 + ys.length := by omega
      rw [hn] at this
      exact this
    rw [rhs, iter_add, Res.bind_assoc]
    have hy1 : ∀ j, k + 1 ≤ j → j ≤ k + 1 → (⟨i, v ++ [y]⟩ : IArr Y).get j = (⟨i, v ++ [y] ++ ys⟩ : IArr Y).get j := by
      intro j h1 h2
      rw [get_eq, get_eq]
      have : (absMap (⟨i, v ++ [y]⟩ : IArr Y)).m j = (absMap (⟨i, v ++ [y] ++ ys⟩ : IArr Y)).m j := by
        simp only [absMap]
        rw [List.getElem?_append_left (l₁ := v ++ [y]) (l₂ := ys)]
        simp only [List.length_append, List.length_singleton]; omega
      rw [this]
    have it1 : iter f (⟨i, v ++ [y]⟩ : IArr Y).get u.get 1 st x k = iter f (⟨i, v ++ [y] ++ ys⟩ : IArr Y).get u.get 1 st x k := by
      simp only [iter]
      rw [hy1 (k + 1) (by omega) (by omega)]
    rw [it1]
    congr 1; funext q
    simp only [feedAll]
    rw [pall _ (by simp)]
    simp only [Res.ok_bind]
    have hu2 : InputsFor c.p (k + 1) (k + 1 + ys.length) (if c.p = 0 then u else from_ (k + 1) u) := by
      by_cases hp : c.p = 0
      · exact Or.inl hp
      · rcases huA with h | h
        · exact absurd h hp
        · rw [if_neg hp]
          have := from_window (k + 1) u (by omega) (by omega)
          exact Or.inr ⟨this.1, by rw [this.2]; exact h.2⟩
    have := fin ([y] ++ ys) (k + 1) q.2 (k + 1) (k + 1 + ys.length) (if c.p = 0 then u else from_ (k + 1) u) q.1
      (by simp) (by omega) (by omega) (by simp only [List.length_append, List.length_singleton]; push_cast; omega) hu2
    have hn : (k + 1 + (ys.length : Int) - (k + 1)).toNat = ys.length := by omega
    rw [hn] at this
    refine Eq.trans this ?_
    have hff : from_ (k + 1) (⟨i, v ++ [y] ++ ys⟩ : IArr Y) = ⟨k + 1, [y] ++ ys⟩ := by
      rw [List.append_assoc]
      clear lhs rhs hpush this it1 hy1 hN fin
      have : ∀ (v : List Y) (i : Int), i + v.length = k + 1 → from_ (k + 1) (⟨i, v ++ ([y] ++ ys)⟩ : IArr Y) = ⟨k + 1, [y] ++ ys⟩ := by
        intro v
        induction v with
        | nil => intro i hi; simp at hi; subst hi; exact from_of_ge _ _ (by simp)
        | cons a t ih =>
          intro i hi
          simp only [List.length_cons] at hi; push_cast at hi
          rw [List.cons_append, from_cons, if_pos (by omega)]
          exact ih (i + 1) (by omega)
      exact this v i hi
    have hfK : from_ (k + 1 + (ys.length : Int)) (⟨k + 1, [y] ++ ys⟩ : IArr Y) =
        from_ (k + 1 + (ys.length : Int)) ⟨i, v ++ [y] ++ ys⟩ := by
      rw [← hff, from_from _ _ (by omega)]
    have hcast : k + ((1 : Nat) : Int) = k + 1 := by simp
    rw [hcast, hfK]
    have hue : (if c.p = 0 then (if c.p = 0 then u else from_ (k + 1) u)
        else from_ (k + 1 + (ys.length : Int)) (if c.p = 0 then u else from_ (k + 1) u)) =
        (if c.p = 0 then u else from_ (k + 1 + (ys.length : Int)) u) := by
      split_ifs
      · rfl
      · rw [from_from _ _ (by omega)]
    rw [hue]
    congr 1
    apply iter_congr
    · intro j hj
      have := get_from (k + 1) (⟨i, v ++ [y] ++ ys⟩ : IArr Y) j (by omega)
      rw [hff] at this
      exact this
    · intro j hj
      split_ifs
      · rfl
      · exact get_from (k + 1) u j hj

/-- Non-vacuity of C08: feeding two measurements each way, with inputs. -/
example :
    let c : ObsCfg Int Int Int := ⟨fun _ => true, fun _ => true, fun _ => true, 1⟩
    let f : Unit → Int → Int → Int → Res Int → Res Int → Res (Unit × Int) :=
      fun _ x _ y u _ => do let u ← u; .ok ((), 2 * x + y + 10 * u)
    let s : Obs Unit Int Int Int := ⟨some (1, 5), ⟨0, []⟩, ⟨5, [7, 8]⟩, ()⟩
    feedEach c (kalmanStep f) [3, 4] s = .ok ⟨some (234, 7), ⟨7, [4]⟩, ⟨7, []⟩, ()⟩ := rfl

/-! ## C09 -/

/-- **C09**. After a successful `getEstimatedState(K)`, whatever the filter (as long as its step does not touch the buffers):
exactly the measurements with time `≥ K` are still stored, at their time; the same for the inputs if the system has
inputs, otherwise they are untouched; the current time is `K`. -/
theorem C09_buffers (c : ObsCfg X Y U) (oneStep : Obs σ X Y U → Res (Obs σ X Y U)) (hs : StepKeepsBuffers oneStep)
    (s s' : Obs σ X Y U) (x : X) (k K : Int) (hx : s.x = some (x, k))
    (hy : s.y.size ≠ 0 → k ≤ s.y.getFirstIndex) (hu : c.p ≠ 0 → s.u.size ≠ 0 → k ≤ s.u.getFirstIndex)
    (h : getEstimatedState c oneStep s K = .ok s') :
    (∀ t, (absMap s'.y).m t = if K ≤ t then (absMap s.y).m t else none) ∧
    (∀ t, (absMap s'.u).m t = if c.p = 0 ∨ K ≤ t then (absMap s.u).m t else none) ∧
    ∃ x', s'.x = some (x', K) := by
  rcases s with ⟨x0, y, u, st⟩
  simp only at hx hy hu
  subst hx
  have hkK : k ≤ K := by
    by_contra hc
    simp [getEstimatedState, getCurrentTime, hc] at h
  have hK : k + ((K - k).toNat : Int) = K := by omega
  have h' : loop c oneStep (k + ((K - k).toNat : Int)) (K - k).toNat ⟨some (x, k), y, u, st⟩ = .ok s' := by
    rw [hK]; simpa [getEstimatedState, getCurrentTime, hkK] using h
  obtain ⟨h1, h2, h3⟩ := loop_ok c oneStep hs _ x k y u st s' (fun h => hy (by simpa [IArr.size] using h))
    (fun hp h => hu hp (by simpa [IArr.size] using h)) h'
  rw [hK] at h1 h2 h3
  refine ⟨fun t => by rw [h1, absMap_from], fun t => ?_, h3⟩
  rw [h2]
  split_ifs with hp ht ht
  · rfl
  · simp [hp] at ht
  · rw [absMap_from, if_pos (by simpa [hp] using ht)]
  · rw [absMap_from, if_neg (by simpa [hp] using ht)]

/-- **C09**, memory: an observer that is kept up to date (estimating up to the last measurement) stores at most one
measurement after each estimation. -/
theorem C09_bounded (c : ObsCfg X Y U) (oneStep : Obs σ X Y U → Res (Obs σ X Y U)) (hs : StepKeepsBuffers oneStep)
    (s s' : Obs σ X Y U) (x : X) (k : Int) (t : Int) (hx : s.x = some (x, k))
    (hy : s.y.size ≠ 0 → k ≤ s.y.getFirstIndex) (hu : c.p ≠ 0 → s.u.size ≠ 0 → k ≤ s.u.getFirstIndex)
    (h : estimateState c oneStep s = .ok (s', t)) : s'.y.size ≤ 1 := by
  by_cases h0 : s.y.size > 0
  · simp only [estimateState, h0, if_true, getMeasurementTime, decide_true, Res.assert_true, Res.ok_bind,
      Res.bind_eq_ok] at h
    obtain ⟨s1, h1, t', -, he⟩ := h
    cases he
    have hm := (C09_buffers c oneStep hs s s' x k _ hx hy hu h1).1
    have hb := hm (s'.y.k + 1)
    by_contra hc
    have hc : 1 < s'.y.v.length := by simpa [IArr.size] using hc
    have s0 : ((absMap s'.y).m s'.y.k).isSome := (absMap_isSome _ _).2 (by omega)
    have s1' : ((absMap s'.y).m (s'.y.k + 1)).isSome := (absMap_isSome _ _).2 (by omega)
    have ha := hm s'.y.k
    rw [ha] at s0
    rw [hb] at s1'
    split_ifs at s0 s1' with h3 h4
    · have := (absMap_isSome _ _).1 s1'
      simp only [IArr.getLastIndex] at h3
      omega
    · simp at s1'
    · simp at s0
    · simp at s0
  · simp only [estimateState, h0, if_false, Res.ok_bind, Res.bind_eq_ok] at h
    obtain ⟨t', -, he⟩ := h
    cases he
    omega

/-! ## C10 -/

/-- The documented behaviour of `setState` (zero-delay-observer.hpp 62-65): "If k < current time then the measurements and the
inputs are also cleared. Otherwise only past measurements and inputs are removed." -/
def C10_statement (σ X Y U : Type) : Prop :=
  ∀ (c : ObsCfg X Y U) (s s' : Obs σ X Y U) (x0 x : X) (k0 k : Int), s.x = some (x0, k0) →
    setState c s x k = .ok s' →
    s'.x = some (x, k) ∧
    (k < k0 → s'.y.size = 0 ∧ s'.u.size = 0) ∧
    (k0 ≤ k → (∀ t, (absMap s'.y).m t = if k < t then (absMap s.y).m t else none) ∧
      (∀ t, (absMap s'.u).m t = if c.p = 0 ∨ k ≤ t then (absMap s.u).m t else none))

/-- What `setState` does, for every state and time: the state is replaced, and exactly the measurements up to `k` and (if the
system has inputs) the inputs before `k` are removed – never more. -/
theorem C10_setState_partial (c : ObsCfg X Y U) (s : Obs σ X Y U) (x : X) (k : Int) (hok : c.okX x = true) :
    ∃ s', setState c s x k = .ok s' ∧ s'.x = some (x, k) ∧ s'.st = s.st ∧
      (∀ t, (absMap s'.y).m t = if k < t then (absMap s.y).m t else none) ∧
      (∀ t, (absMap s'.u).m t = if c.p = 0 ∨ k ≤ t then (absMap s.u).m t else none) := by
  refine ⟨_, by simp [setState, hok, getCurrentTime]; rfl, ?_⟩
  split_ifs with hp
  · refine ⟨rfl, rfl, fun t => absMap_dropUpTo k s.y.k s.y.v t, fun t => ?_⟩
    show (absMap (dropUpTo (k - 1) s.u.k s.u.v)).m t = _
    rw [absMap_dropUpTo]
    by_cases ht : k ≤ t
    · rw [if_pos (by omega), if_pos (Or.inr ht)]
    · rw [if_neg (by omega), if_neg (by omega)]
  · have hp0 : c.p = 0 := by omega
    exact ⟨rfl, rfl, fun t => absMap_dropUpTo k s.y.k s.y.v t, fun t => by simp [hp0]⟩

/-- The documented clearing never happens: going back to an earlier time keeps every pending measurement (all of them are
later than `k`), for every observer with pending measurements. -/
theorem C10_measurements_survive (c : ObsCfg X Y U) (s : Obs σ X Y U) (x0 x : X) (k0 k : Int) (_hx : s.x = some (x0, k0))
    (hk : k < k0) (hy : s.y.size ≠ 0 → k0 ≤ s.y.getFirstIndex) (hok : c.okX x = true) :
    ∃ s', setState c s x k = .ok s' ∧ ∀ t, (absMap s'.y).m t = (absMap s.y).m t := by
  obtain ⟨s', h1, -, -, h2, -⟩ := C10_setState_partial c s x k hok
  refine ⟨s', h1, fun t => ?_⟩
  rw [h2]
  split_ifs with ht
  · rfl
  · cases h : (absMap s.y).m t with
    | none => rfl
    | some y =>
      have := (absMap_isSome s.y t).1 (by rw [h]; rfl)
      have h3 := hy (by simp only [IArr.size]; omega)
      simp only [IArr.getFirstIndex] at h3
      omega

theorem C10_false : ¬ C10_statement Unit Int Int Int := by
  intro h
  have := (h ⟨fun _ => true, fun _ => true, fun _ => true, 0⟩ ⟨some (0, 10), ⟨11, [5]⟩, ⟨0, []⟩, ()⟩
    ⟨some (1, 3), ⟨11, [5]⟩, ⟨0, []⟩, ()⟩ 0 1 10 3 rfl rfl).2.1 (by omega)
  simp [IArr.size] at this

/-! ## C11 -/

/-- **C11** is false: with `p > 0` and no input ever given, *no* filter can be run to a positive time, whatever its dynamics:
after the first step the (empty) input buffer is popped. -/
theorem C11_no_inputs_fails (c : ObsCfg X Y U) (oneStep : Obs σ X Y U → Res (Obs σ X Y U)) (hs : StepKeepsBuffers oneStep)
    (hp : c.p > 0) (s : Obs σ X Y U) (x : X) (k K : Int) (hx : s.x = some (x, k)) (hk : k < K) (hK : 0 < K)
    (hu : s.u = IArr.empty) : ¬ (getEstimatedState c oneStep s K).isOk := by
  intro h
  rw [Res.isOk_iff] at h
  obtain ⟨s', h⟩ := h
  have h1 : k ≤ K := by omega
  obtain ⟨n, hn⟩ : ∃ n : Nat, (K - k).toNat = n + 1 := ⟨(K - k).toNat - 1, by omega⟩
  simp only [getEstimatedState, getCurrentTime, hx, Res.ok_bind, h1, decide_true, Res.assert_true, hn, loop, loopBody,
    Res.bind_eq_ok] at h
  obtain ⟨s2, ⟨s1, h2, y2, -, h3⟩, -⟩ := h
  rw [if_pos hp] at h3
  simp only [Res.bind_eq_ok] at h3
  obtain ⟨u2, h4, -⟩ := h3
  rw [(hs _ _ h2).2.1, hu] at h4
  simp [popIf, IArr.empty, IArr.getFirstIndex, hK, IArr.popFront] at h4

/-- Partial **C11**: with `p = 0`, or with (arbitrary) inputs provided for every step, a filter whose steps ignore the inputs and
never fail runs on the measurements alone. -/
theorem C11_partial (c : ObsCfg X Y U) (g : σ → X → Int → Y → σ × X) (s : Obs σ X Y U) (x : X) (k K : Int)
    (hx : s.x = some (x, k)) (hk : k ≤ K) (hy : s.y.size ≠ 0 → k ≤ s.y.getFirstIndex)
    (hm : ∀ t, k < t → t ≤ K → ∃ y, s.y.get t = .ok y)
    (hu : c.p = 0 ∨ (s.u.getFirstIndex = k ∧ K ≤ s.u.getNextIndex)) :
    (getEstimatedState c (kalmanStep fun st x t y _ _ => .ok (g st x t y)) s K).isOk := by
  have h := C07_getEstimatedState c (fun st x t y _ _ => .ok (g st x t y)) s x k K hx hk hy hu
  have : ∀ (n : Nat) (st : σ) (x : X) (t : Int), k ≤ t → t + n ≤ K →
      ∃ q, iter (fun st x t y _ _ => .ok (g st x t y)) s.y.get s.u.get n st x t = .ok q := by
    intro n
    induction n with
    | zero => intro st x t _ _; exact ⟨_, rfl⟩
    | succ n ih =>
      intro st x t h1 h2
      obtain ⟨y, hy⟩ := hm (t + 1) (by omega) (by push_cast at h2; omega)
      simp only [iter, hy, Res.ok_bind]
      exact ih _ _ _ (by omega) (by push_cast at h2; omega)
  obtain ⟨q, hq⟩ := this (K - k).toNat s.st x k (by omega) (by omega)
  rw [hq, Res.ok_bind, Res.bind_eq_ok] at h
  obtain ⟨s', h1, -⟩ := h
  rw [h1]; trivial

/-! ## C12 -/

/-- **C12**, measurements: with a vector of the right size the call is accepted exactly for a stored index or the next one; on an
empty buffer exactly for the time after the current state (any time if no state is set). Otherwise it fails its
assertion. -/
theorem C12_setMeasurement (c : ObsCfg X Y U) (s : Obs σ X Y U) (y : Y) (k : Int) (hok : c.okY y = true) :
    let legal := if s.y.size = 0 then (∀ x t, s.x = some (x, t) → k = t + 1)
      else s.y.getFirstIndex ≤ k ∧ k ≤ s.y.getNextIndex
    (legal → (setMeasurement c s y k).isOk) ∧ (¬ legal → setMeasurement c s y k = .assertFail) := by
  intro legal
  by_cases h0 : s.y.size = 0
  · have hv : s.y.v = [] := by simpa [IArr.size] using h0
    have h0' : ¬ s.y.size > 0 := by omega
    have hl : legal ↔ (∀ x t, s.x = some (x, t) → k = t + 1) := by simp [legal, h0]
    rw [hl]
    have hset : s.y.setValue y k = .ok ⟨k, [y]⟩ := by
      simp [IArr.setValue, IArr.checkIndex, IArr.checkNext, hv]
    cases hx : s.x with
    | none => simp [setMeasurement, hok, h0', hx, hset]
    | some q =>
      obtain ⟨x, t⟩ := q
      by_cases ht : t = k - 1
      · have : k = t + 1 := by omega
        simp [setMeasurement, hok, h0', hx, hset, ht]
      · have : ¬ k = t + 1 := by omega
        simp [setMeasurement, hok, h0', hx, ht, this]
  · have h0' : s.y.size > 0 := by omega
    have hl : legal ↔ (s.y.getFirstIndex ≤ k ∧ k ≤ s.y.getNextIndex) := by simp [legal, h0]
    rw [hl]
    have hc : (decide (s.y.getNextIndex = k) || s.y.checkIndex k) = true ↔
        (s.y.getFirstIndex ≤ k ∧ k ≤ s.y.getNextIndex) := by
      rw [Bool.or_eq_true, checkIndex_iff, decide_eq_true_eq]
      simp only [IArr.size] at h0'
      show s.y.k + (s.y.v.length : Int) = k ∨ _ ↔ s.y.k ≤ k ∧ k ≤ s.y.k + (s.y.v.length : Int)
      omega
    constructor
    · intro h
      have hset : ∃ y', s.y.setValue y k = .ok y' := by
        by_cases hi : s.y.checkIndex k = true
        · exact ⟨_, by simp [IArr.setValue, hi]; rfl⟩
        · have hn : s.y.checkNext k = true := by
            rw [checkIndex_iff] at hi
            simp only [IArr.getFirstIndex, IArr.getNextIndex] at h
            simp [IArr.checkNext]; omega
          simp only [Bool.not_eq_true] at hi
          exact ⟨_, by simp [IArr.setValue, hi, hn]; rfl⟩
      obtain ⟨y', hy'⟩ := hset
      simp [setMeasurement, hok, h0', hc.2 h, hy']
    · intro h
      have : (decide (s.y.getNextIndex = k) || s.y.checkIndex k) = false := by
        rw [← Bool.not_eq_true, hc]; exact h
      simp [setMeasurement, hok, h0', this]

/-- **C12**, inputs (`p > 0`): as for measurements, and on an empty buffer the current time or the next one. -/
theorem C12_setInput (c : ObsCfg X Y U) (s : Obs σ X Y U) (u : U) (k : Int) (hp : c.p > 0) (hok : c.okU u = true) :
    let legal := if s.u.size = 0 then (∀ x t, s.x = some (x, t) → k = t ∨ k = t + 1)
      else s.u.getFirstIndex ≤ k ∧ k ≤ s.u.getNextIndex
    (legal → (setInput c s u k).isOk) ∧ (¬ legal → setInput c s u k = .assertFail) := by
  intro legal
  by_cases h0 : s.u.size = 0
  · have hv : s.u.v = [] := by simpa [IArr.size] using h0
    have h0' : ¬ s.u.size > 0 := by omega
    have hl : legal ↔ (∀ x t, s.x = some (x, t) → k = t ∨ k = t + 1) := by simp [legal, h0]
    rw [hl]
    have hset : s.u.setValue u k = .ok ⟨k, [u]⟩ := by
      simp [IArr.setValue, IArr.checkIndex, IArr.checkNext, hv]
    cases hx : s.x with
    | none => simp [setInput, hp, hok, h0', hx, hset]
    | some q =>
      obtain ⟨x, t⟩ := q
      by_cases ht : t = k ∨ t = k - 1
      · have : k = t ∨ k = t + 1 := by omega
        have hb : (decide (t = k) || decide (t = k - 1)) = true := by simpa using ht
        refine ⟨fun _ => ?_, fun hn => absurd (fun x' t' he => by cases he; exact this) hn⟩
        simp only [setInput, hp, if_true, hok, Res.assert_true, Res.ok_bind, h0', if_false, hx, hb, hset]
        trivial
      · have : ¬ (k = t ∨ k = t + 1) := by omega
        have hb : (decide (t = k) || decide (t = k - 1)) = false := by
          rw [← Bool.not_eq_true]; simpa using ht
        refine ⟨fun hn => absurd (hn x t rfl) this, fun _ => ?_⟩
        simp only [setInput, hp, if_true, hok, Res.assert_true, Res.ok_bind, h0', if_false, hx, hb, Res.assert_false,
          Res.assertFail_bind]
  · have h0' : s.u.size > 0 := by omega
    have hl : legal ↔ (s.u.getFirstIndex ≤ k ∧ k ≤ s.u.getNextIndex) := by simp [legal, h0]
    rw [hl]
    have hc : (decide (s.u.getNextIndex = k) || s.u.checkIndex k) = true ↔
        (s.u.getFirstIndex ≤ k ∧ k ≤ s.u.getNextIndex) := by
      rw [Bool.or_eq_true, checkIndex_iff, decide_eq_true_eq]
      simp only [IArr.size] at h0'
      show s.u.k + (s.u.v.length : Int) = k ∨ _ ↔ s.u.k ≤ k ∧ k ≤ s.u.k + (s.u.v.length : Int)
      omega
    constructor
    · intro h
      have hset : ∃ y', s.u.setValue u k = .ok y' := by
        by_cases hi : s.u.checkIndex k = true
        · exact ⟨_, by simp [IArr.setValue, hi]; rfl⟩
        · have hn : s.u.checkNext k = true := by
            rw [checkIndex_iff] at hi
            simp only [IArr.getFirstIndex, IArr.getNextIndex] at h
            simp [IArr.checkNext]; omega
          simp only [Bool.not_eq_true] at hi
          exact ⟨_, by simp [IArr.setValue, hi, hn]; rfl⟩
      obtain ⟨y', hy'⟩ := hset
      simp [setInput, hp, hok, h0', hc.2 h, hy']
    · intro h
      have : (decide (s.u.getNextIndex = k) || s.u.checkIndex k) = false := by
        rw [← Bool.not_eq_true, hc]; exact h
      simp [setInput, hp, hok, h0', this]

/-- All calls of the public interface that change an observer. -/
inductive Op (X Y U : Type) where
  | setState (x : X) (k : Int)
  | setCurrentState (x : X)
  | clearStates
  | setMeasurement (y : Y) (k : Int)
  | pushMeasurement (y : Y)
  | clearMeasurements
  | setInput (u : U) (k : Int)
  | pushInput (u : U)
  | clearInputs
  | clearInputsAndMeasurements
  | estimateState
  | getEstimatedState (k : Int)

/-- Perform a call. -/
def exec (c : ObsCfg X Y U) (oneStep : Obs σ X Y U → Res (Obs σ X Y U)) (s : Obs σ X Y U) :
    Op X Y U → Res (Obs σ X Y U)
  | .setState x k => setState c s x k
  | .setCurrentState x => setCurrentState c s x
  | .clearStates => .ok (clearStates s)
  | .setMeasurement y k => setMeasurement c s y k
  | .pushMeasurement y => pushMeasurement c s y
  | .clearMeasurements => .ok (clearMeasurements s)
  | .setInput u k => setInput c s u k
  | .pushInput u => pushInput c s u
  | .clearInputs => .ok (clearInputs s)
  | .clearInputsAndMeasurements => .ok (clearInputsAndMeasurements s)
  | .estimateState => do let q ← estimateState c oneStep s; .ok q.1
  | .getEstimatedState k => getEstimatedState c oneStep s k

/-- The order invariant: with a state at time `k`, every stored measurement and input is at time `k` or later; with `p = 0` no input
is stored. -/
def Ordered (c : ObsCfg X Y U) (s : Obs σ X Y U) : Prop :=
  (c.p = 0 → s.u.v = []) ∧
  ∀ x k, s.x = some (x, k) → NotOlder k s.y ∧ NotOlder k s.u

theorem setValue_notOlder {α : Type} {a a' : IArr α} {y : α} {t : Int} (k : Int) (h : a.setValue y t = .ok a')
    (ha : NotOlder k a) (hk : a.v = [] → k ≤ t) : NotOlder k a' := by
  intro _
  unfold IArr.setValue at h
  split_ifs at h with h1 h2
  · cases h
    have : a.v ≠ [] := by intro h0; simp [IArr.checkIndex, h0] at h1
    exact ha this
  all_goals
    rw [Res.bind_eq_ok] at h
    obtain ⟨-, -, he⟩ := h
    cases he
  · exact hk (by simpa using h2)
  · exact ha (by intro h0; simp [h0] at h2)

theorem setValue_ne_nil_k {α : Type} {a a' : IArr α} {y : α} {t : Int} (h : a.setValue y t = .ok a') :
    a.v ≠ [] → a'.k = a.k := by
  intro hne
  unfold IArr.setValue at h
  have : ¬ a.v.length = 0 := by simpa using hne
  split_ifs at h with h1
  · cases h; rfl
  · rw [Res.bind_eq_ok] at h
    obtain ⟨-, -, he⟩ := h
    cases he; rfl

theorem ordered_exec (c : ObsCfg X Y U) (oneStep : Obs σ X Y U → Res (Obs σ X Y U)) (hs : StepKeepsBuffers oneStep)
    (s s' : Obs σ X Y U) (op : Op X Y U) (ho : Ordered c s) (h : exec c oneStep s op = .ok s') : Ordered c s' := by
  have getE : ∀ (K : Int) (s' : Obs σ X Y U), getEstimatedState c oneStep s K = .ok s' → Ordered c s' := by
    intro K s' h
    cases hx : s.x with
    | none => simp [getEstimatedState, getCurrentTime, hx] at h
    | some q =>
      obtain ⟨x, k⟩ := q
      obtain ⟨hy, hu⟩ := ho.2 x k hx
      have hkK : k ≤ K := by
        by_contra hc
        simp [getEstimatedState, getCurrentTime, hx, hc] at h
      have hK : k + ((K - k).toNat : Int) = K := by omega
      have hs0 : s = ⟨some (x, k), s.y, s.u, s.st⟩ := by rw [← hx]
      have h' : loop c oneStep (k + ((K - k).toNat : Int)) (K - k).toNat ⟨some (x, k), s.y, s.u, s.st⟩ = .ok s' := by
        rw [hK, ← hs0]; simpa [getEstimatedState, getCurrentTime, hx, hkK] using h
      obtain ⟨h1, h2, x', h3⟩ := loop_ok c oneStep hs _ x k s.y s.u s.st s' hy (fun _ => hu) h'
      rw [hK] at h1 h2 h3
      refine ⟨fun hp => by rw [h2, if_pos hp]; exact ho.1 hp, fun x2 k2 hx2 => ?_⟩
      rw [h3] at hx2
      cases hx2
      refine ⟨by rw [h1]; exact notOlder_from K s.y, ?_⟩
      rw [h2]
      split_ifs with hp
      · intro hne; exact absurd (ho.1 hp) hne
      · exact notOlder_from K s.u
  cases op with
  | setState x k =>
    simp only [exec, setState, getCurrentTime, Res.bind_eq_ok] at h
    obtain ⟨-, -, k', hk', h⟩ := h
    cases hk'
    rw [if_neg (by omega)] at h
    have hD : ∀ {α : Type} (b : Int) (a : IArr α), NotOlder (b + 1) (dropUpTo b a.k a.v) := by
      intro α b a
      have := notOlder_from (b + 1) a
      simpa [from_] using this
    split_ifs at h with hp
    · cases h
      refine ⟨fun hp0 => by omega, fun x2 k2 hx2 => ?_⟩
      cases hx2
      refine ⟨fun hne => by have := hD k s.y hne; simp only at this ⊢; omega, fun hne => ?_⟩
      have := hD (k - 1) s.u hne; simp only at this ⊢; omega
    · cases h
      have hu0 := ho.1 (by omega)
      refine ⟨fun hp0 => hu0, fun x2 k2 hx2 => ?_⟩
      cases hx2
      exact ⟨fun hne => by have := hD k s.y hne; simp only at this ⊢; omega, fun hne => absurd hu0 hne⟩
  | setCurrentState x =>
    simp only [exec, setCurrentState] at h
    cases hx : s.x with
    | none => simp [hx] at h
    | some q =>
      simp only [hx, Res.bind_eq_ok] at h
      obtain ⟨-, -, h⟩ := h
      cases h
      refine ⟨ho.1, fun x2 k2 hx2 => ?_⟩
      cases hx2
      exact ho.2 q.1 q.2 hx
  | clearStates =>
    cases h
    exact ⟨ho.1, fun x2 k2 hx2 => by simp [clearStates] at hx2⟩
  | setMeasurement y k =>
    simp only [exec, setMeasurement, Res.bind_eq_ok] at h
    obtain ⟨-, -, h⟩ := h
    refine ⟨?_, ?_⟩
    · intro hp
      split_ifs at h <;> (simp only [Res.bind_eq_ok] at h; obtain ⟨-, -, y', -, h⟩ := h; cases h; exact ho.1 hp)
    · intro x2 k2 hx2
      split_ifs at h with h0
      · simp only [Res.bind_eq_ok] at h
        obtain ⟨-, -, y', hy', h⟩ := h
        cases h
        obtain ⟨h1, h2⟩ := ho.2 x2 k2 hx2
        refine ⟨setValue_notOlder k2 hy' h1 (fun h' => ?_), h2⟩
        simp [IArr.size, h'] at h0
      · simp only [Res.bind_eq_ok] at h
        obtain ⟨_, ha, y', hy', h⟩ := h
        cases h
        simp only at hx2
        obtain ⟨h1, h2⟩ := ho.2 x2 k2 hx2
        refine ⟨setValue_notOlder k2 hy' h1 (fun _ => ?_), h2⟩
        rw [hx2] at ha
        by_contra hc
        have : ¬ k2 = k - 1 := by omega
        simp [this] at ha
  | pushMeasurement y =>
    simp only [exec, pushMeasurement, Res.bind_eq_ok] at h
    obtain ⟨-, -, h⟩ := h
    split_ifs at h with h0
    · cases h
      refine ⟨ho.1, fun x2 k2 hx2 => ?_⟩
      obtain ⟨h1, h2⟩ := ho.2 x2 k2 hx2
      refine ⟨fun _ => h1 ?_, h2⟩
      intro h'; simp [IArr.size, h'] at h0
    · cases hx : s.x with
      | none => simp [hx] at h
      | some q =>
        simp only [hx, Res.bind_eq_ok] at h
        obtain ⟨y', hy', h⟩ := h
        cases h
        refine ⟨ho.1, fun x2 k2 hx2 => ?_⟩
        cases hx2
        obtain ⟨h1, h2⟩ := ho.2 _ _ hx
        exact ⟨setValue_notOlder _ hy' h1 (fun _ => by omega), h2⟩
  | clearMeasurements =>
    cases h
    refine ⟨ho.1, fun x2 k2 hx2 => ?_⟩
    exact ⟨fun hne => absurd rfl hne, (ho.2 x2 k2 hx2).2⟩
  | setInput u k =>
    simp only [exec, setInput] at h
    by_cases hp : c.p > 0
    · simp only [hp, if_true, Res.bind_eq_ok] at h
      obtain ⟨-, -, h⟩ := h
      refine ⟨fun hp0 => by omega, fun x2 k2 hx2 => ?_⟩
      split_ifs at h with h0
      · simp only [Res.bind_eq_ok] at h
        obtain ⟨-, -, y', hy', h⟩ := h
        cases h
        obtain ⟨h1, h2⟩ := ho.2 x2 k2 hx2
        refine ⟨h1, setValue_notOlder k2 hy' h2 (fun h' => ?_)⟩
        simp [IArr.size, h'] at h0
      · simp only [Res.bind_eq_ok] at h
        obtain ⟨_, ha, y', hy', h⟩ := h
        cases h
        simp only at hx2
        obtain ⟨h1, h2⟩ := ho.2 x2 k2 hx2
        refine ⟨h1, setValue_notOlder k2 hy' h2 (fun _ => ?_)⟩
        rw [hx2] at ha
        by_contra hc
        have e1 : ¬ k2 = k - 1 := by omega
        have e2 : ¬ k2 = k := by omega
        simp [e1, e2] at ha
    · simp only [hp, if_false] at h
      cases h
      exact ho
  | pushInput u =>
    simp only [exec, pushInput] at h
    by_cases hp : c.p > 0
    · simp only [hp, if_true, Res.bind_eq_ok] at h
      obtain ⟨-, -, h⟩ := h
      refine ⟨fun hp0 => by omega, ?_⟩
      split_ifs at h with h0
      · cases h
        intro x2 k2 hx2
        obtain ⟨h1, h2⟩ := ho.2 x2 k2 hx2
        refine ⟨h1, fun _ => h2 ?_⟩
        intro h'; simp [IArr.size, h'] at h0
      · cases hx : s.x with
        | none => simp [hx] at h
        | some q =>
          simp only [hx, Res.bind_eq_ok] at h
          obtain ⟨y', hy', h⟩ := h
          cases h
          intro x2 k2 hx2
          cases hx2
          obtain ⟨h1, h2⟩ := ho.2 _ _ hx
          exact ⟨h1, setValue_notOlder _ hy' h2 (fun _ => by omega)⟩
    · simp only [hp, if_false] at h
      cases h
      exact ho
  | clearInputs =>
    cases h
    refine ⟨fun _ => rfl, fun x2 k2 hx2 => ?_⟩
    exact ⟨(ho.2 x2 k2 hx2).1, fun hne => absurd rfl hne⟩
  | clearInputsAndMeasurements =>
    cases h
    exact ⟨fun _ => rfl, fun x2 k2 hx2 => ⟨fun hne => absurd rfl hne, fun hne => absurd rfl hne⟩⟩
  | estimateState =>
    simp only [exec] at h
    by_cases h0 : s.y.size > 0
    · simp only [estimateState, h0, if_true, Res.bind_assoc, Res.bind_eq_ok] at h
      obtain ⟨k, -, s1, h1, t, -, h3⟩ := h
      have h4 : s1 = s' := by simpa using h3
      exact getE k _ (h4 ▸ h1)
    · simp only [estimateState, h0, if_false, Res.ok_bind, Res.bind_assoc, Res.bind_eq_ok] at h
      obtain ⟨t, -, h3⟩ := h
      cases h3
      exact ho
  | getEstimatedState k => exact getE k s' h

/-- **C12**, histories: after any sequence of public calls that fails no assertion, starting from a new observer, every stored
measurement and input is at the current time or later, so the hypotheses of C07-C09 about the buffers hold in every reachable
state. -/
theorem C12_reachable (c : ObsCfg X Y U) (oneStep : Obs σ X Y U → Res (Obs σ X Y U)) (hs : StepKeepsBuffers oneStep)
    (st : σ) (ops : List (Op X Y U)) (s : Obs σ X Y U)
    (h : ops.foldlM (exec c oneStep) (⟨none, IArr.empty, IArr.empty, st⟩ : Obs σ X Y U) = .ok s) :
    ∀ x k, s.x = some (x, k) →
      (s.y.size ≠ 0 → k ≤ s.y.getFirstIndex) ∧ (s.u.size ≠ 0 → k ≤ s.u.getFirstIndex) ∧ (c.p = 0 → s.u.size = 0) := by
  have : ∀ (ops : List (Op X Y U)) (s0 s : Obs σ X Y U), Ordered c s0 → ops.foldlM (exec c oneStep) s0 = .ok s →
      Ordered c s := by
    intro ops
    induction ops with
    | nil => intro s0 s h0 h; cases h; exact h0
    | cons o os ih =>
      intro s0 s h0 h
      rw [List.foldlM_cons, Res.bind_eq_ok] at h
      obtain ⟨s1, h1, h2⟩ := h
      exact ih s1 s (ordered_exec c oneStep hs s0 s1 o h0 h1) h2
  have hO := this ops _ s ⟨fun _ => rfl, fun x k hx => by simp at hx⟩ h
  intro x k hx
  obtain ⟨h1, h2⟩ := hO.2 x k hx
  exact ⟨fun hn => h1 (by simpa [IArr.size] using hn), fun hn => h2 (by simpa [IArr.size] using hn),
    fun hp => by simpa [IArr.size] using hO.1 hp⟩

/-- Non-vacuity: a reachable state with pending data. -/
example : ([.setState 0 5, .setInput 1 5, .setMeasurement 3 6, .pushMeasurement 4, .getEstimatedState 6, .pushInput 2] :
      List (Op Int Int Int)).foldlM
    (exec (⟨fun _ => true, fun _ => true, fun _ => true, 1⟩ : ObsCfg Int Int Int)
      (kalmanStep fun st x _ y _ _ => .ok (st, x + y)))
    (⟨none, IArr.empty, IArr.empty, ()⟩ : Obs Unit Int Int Int)
    = .ok ⟨some (3, 6), ⟨6, [3, 4]⟩, ⟨6, [2]⟩, ()⟩ := rfl

/-! ## C13 -/

/-- Full statement of **C13**. -/
def C13_statement (σ X Y U : Type) : Prop :=
  ∀ s : Obs σ X Y U, (s.y.size ≠ 0 → getMeasurementTime s = .ok s.y.getLastIndex) ∧
    (s.u.size ≠ 0 → getInputTime s = .ok s.u.getLastIndex)

/-- **C13** for measurements, and for inputs as long as a measurement is stored too. -/
theorem C13_partial (s : Obs σ X Y U) (h : s.y.size ≠ 0) :
    getMeasurementTime s = .ok s.y.getLastIndex ∧ getInputTime s = .ok s.u.getLastIndex := by
  have : s.y.size > 0 := by omega
  simp [getMeasurementTime, getInputTime, this]

/-- Whatever inputs are stored, `getInputTime` fails if no measurement is stored (it asserts on the wrong buffer). -/
theorem C13_inputTime_fails (s : Obs σ X Y U) (h : s.y.size = 0) : getInputTime s = .assertFail := by
  simp [getInputTime, h]

theorem C13_false : ¬ C13_statement Unit Int Int Int := by
  intro h
  have := (h ⟨none, ⟨0, []⟩, ⟨0, [1]⟩, ()⟩).2 (by decide)
  rw [C13_inputTime_fails _ rfl] at this
  simp at this

end StateObs.Obs
