import Verif.ZeroDelay.ShiftSpec
/-!
# C136: the origin of the time does not matter
-/

namespace StateObs.Obs
open StateObs ShiftSpec

variable {σ X Y U : Type} {strict : Prop}

theorem corr_bind {α β γ δ : Type} {R : α → β → Prop} {Q : γ → δ → Prop} {r : Res α} {r' : Res β} {f : α → Res γ} {f' : β → Res δ}
    (h : Corr strict R r r') (hf : ∀ a b, r = .ok a → R a b → Corr strict Q (f a) (f' b)) : Corr strict Q (r >>= f) (r' >>= f') := by
  cases r with
  | ok a =>
    cases r' with
    | ok b => exact hf a b rfl h
    | assertFail => simp only [Res.ok_bind, Res.assertFail_bind]; cases f a <;> first | trivial | exact h
    | ub => simp only [Res.ok_bind, Res.ub_bind]; cases f a <;> first | trivial | exact h
    | exn => simp only [Res.ok_bind, Res.exn_bind]; cases f a <;> first | trivial | exact h
  | assertFail =>
    cases r' with
    | ok b => simp only [Res.ok_bind, Res.assertFail_bind]; cases f' b <;> first | trivial | exact h
    | _ => exact h
  | ub =>
    cases r' with
    | ok b => simp only [Res.ok_bind, Res.ub_bind]; cases f' b <;> first | trivial | exact h
    | _ => exact h
  | exn =>
    cases r' with
    | ok b => simp only [Res.ok_bind, Res.exn_bind]; cases f' b <;> first | trivial | exact h
    | _ => exact h

theorem corr_assert {b b' : Bool} (h : b = b') : Corr strict (fun _ _ => True) (Res.assert b) (Res.assert b') := by
  subst h
  cases b <;> trivial

theorem corr_refl {α : Type} {R : α → α → Prop} (r : Res α) (h : ∀ a, R a a) : Corr strict R r r := by
  cases r with
  | ok a => exact h a
  | _ => trivial

theorem corr_mono {α β : Type} {R Q : α → β → Prop} {r : Res α} {r' : Res β} (h : Corr strict R r r') (hm : ∀ a b, R a b → Q a b) :
    Corr strict Q r r' := by
  cases r <;> cases r' <;> first | exact hm _ _ h | exact h

variable {d : Int} {α : Type} {a b : IArr α}

theorem later_length (h : Later d a b) : b.v.length = a.v.length := by rw [h.1]

theorem later_check (h : Later d a b) (t : Int) : b.checkIndex (t + d) = a.checkIndex t := by
  unfold IArr.checkIndex
  rw [later_length h]
  rcases a with ⟨k, v⟩
  cases v with
  | nil => simp
  | cons x v =>
    have hk := h.2 (by simp)
    simp only [hk]
    congr 1
    · congr 1
      exact decide_eq_decide.2 (by omega)
    · exact decide_eq_decide.2 (by simp only [List.length_cons]; omega)

theorem later_get (h : Later d a b) (t : Int) : b.get (t + d) = a.get t := by
  unfold IArr.get
  rw [later_check h, h.1]
  cases hc : a.checkIndex t with
  | false => rfl
  | true =>
    have hne : a.v ≠ [] := by intro h0; simp [IArr.checkIndex, h0] at hc
    rw [h.2 hne, show t + d - (a.k + d) = t - a.k by omega]

theorem later_nil {a b : IArr α} (ha : a.v = []) (hb : b.v = []) : Later d a b := ⟨by rw [ha, hb], fun h => absurd ha h⟩

theorem later_set (h : Later d a b) (x : α) (t : Int) : Corr strict (Later d) (a.setValue x t) (b.setValue x (t + d)) := by
  unfold IArr.setValue
  rw [later_check h]
  by_cases hc : a.checkIndex t = true
  · rw [if_pos hc, if_pos hc]
    have hne : a.v ≠ [] := by intro h0; simp [IArr.checkIndex, h0] at hc
    refine ⟨?_, fun _ => h.2 hne⟩
    simp only [h.1, h.2 hne]
    rw [show t + d - (a.k + d) = t - a.k by omega]
  · rw [if_neg hc, if_neg hc]
    refine corr_bind (corr_assert ?_) fun _ _ _ _ => ?_
    · unfold IArr.checkNext
      rw [later_length h]
      by_cases h0 : a.v.length = 0
      · simp [h0]
      · have hne : a.v ≠ [] := by intro e; simp [e] at h0
        rw [h.2 hne]
        congr 1
        exact decide_eq_decide.2 (by omega)
    · refine ⟨by simp only [h.1], fun _ => ?_⟩
      simp only [h.1]
      by_cases h0 : a.v.length = 0
      · rw [if_pos h0, if_pos h0]
      · rw [if_neg h0, if_neg h0]
        exact h.2 (by intro e; simp [e] at h0)

theorem later_push (h : Later d a b) (hne : a.v ≠ []) (x : α) : Later d (a.pushBack x) (b.pushBack x) :=
  ⟨by simp only [IArr.pushBack, h.1], fun _ => h.2 hne⟩

theorem later_drop (K : Int) : ∀ (v : List α) (i j : Int), (v ≠ [] → j = i + d) →
    Later d (dropUpTo K i v) (dropUpTo (K + d) j v)
  | [], i, j, _ => ⟨rfl, fun h => absurd rfl h⟩
  | x :: v, i, j, hj => by
    have hj := hj (by simp)
    simp only [dropUpTo]
    by_cases hc : i ≤ K
    · rw [if_pos hc, if_pos (by omega)]
      exact later_drop K v _ _ fun _ => by omega
    · rw [if_neg hc, if_neg (by omega)]
      exact ⟨rfl, fun _ => hj⟩

theorem later_drop' (h : Later d a b) (K : Int) : Later d (dropUpTo K a.k a.v) (dropUpTo (K + d) b.k b.v) := by
  rw [h.1]
  exact later_drop K a.v a.k b.k h.2

theorem later_pop (h : Later d a b) (K : Int) (hne : strict → b.k = a.k + d) : Corr strict (Later d) (popIf K a) (popIf (K + d) b) := by
  rcases a with ⟨k, v⟩
  rcases b with ⟨k', v'⟩
  obtain ⟨h1, h2⟩ := h
  simp only at h1 h2 hne
  subst h1
  cases v' with
  | nil =>
    show Corr strict (Later d) (if k < K then Res.assertFail else Res.ok ⟨k, []⟩) (if k' < K + d then Res.assertFail else Res.ok ⟨k', []⟩)
    by_cases h3 : k < K <;> by_cases h4 : k' < K + d
    · rw [if_pos h3, if_pos h4]; trivial
    · rw [if_pos h3, if_neg h4]; exact fun hs => h4 (by have := hne hs; omega)
    · rw [if_neg h3, if_pos h4]; exact fun hs => h3 (by have := hne hs; omega)
    · rw [if_neg h3, if_neg h4]; exact later_nil rfl rfl
  | cons x v =>
    have hk := h2 (by simp)
    show Corr strict (Later d) (if k < K then Res.ok ⟨k + 1, v⟩ else Res.ok ⟨k, x :: v⟩)
      (if k' < K + d then Res.ok ⟨k' + 1, v⟩ else Res.ok ⟨k', x :: v⟩)
    by_cases h3 : k < K
    · rw [if_pos h3, if_pos (by omega)]
      exact ⟨rfl, fun _ => by simp only; omega⟩
    · rw [if_neg h3, if_neg (by omega)]
      exact ⟨rfl, fun _ => hk⟩

variable {g : σ → σ} {c : ObsCfg X Y U}

theorem shifted_time {s s' : Obs σ X Y U} (h : Shifted d g s s') :
    Corr strict (fun t t' => t' = t + d) s.getCurrentTime s'.getCurrentTime := by
  unfold getCurrentTime
  rw [h.x]
  cases s.x with
  | none => trivial
  | some q => exact rfl

theorem later_size {a b : IArr α} (h : Later d a b) : b.size = a.size := later_length h

section Run
variable {oneStep : Obs σ X Y U → Res (Obs σ X Y U)} {I : σ → Prop}

/-- What is asked from the step of the filter. -/
structure StepShifts (strict : Prop) (c : ObsCfg X Y U) (d : Int) (g : σ → σ) (I : σ → Prop)
    (oneStep : Obs σ X Y U → Res (Obs σ X Y U)) : Prop where
  shift : ∀ s s', I s.st → Shifted d g s s' → Corr strict (fun t t' => Shifted d g t t' ∧
    (strict → t'.y.k = t.y.k + d ∧ (c.p > 0 → t'.u.k = t.u.k + d))) (oneStep s) (oneStep s')
  keeps : ∀ s t, I s.st → oneStep s = .ok t → I t.st

theorem shifted_body (H : StepShifts strict c d g I oneStep) (K : Int) {s s' : Obs σ X Y U} (hI : I s.st) (h : Shifted d g s s') :
    Corr strict (fun t t' => I t.st ∧ Shifted d g t t') (loopBody c oneStep K s) (loopBody c oneStep (K + d) s') := by
  unfold loopBody
  refine corr_bind (H.shift s s' hI h) fun t t' ht hQ => ?_
  obtain ⟨hR, hk⟩ := hQ
  have hI' := H.keeps _ _ hI ht
  refine corr_bind (later_pop hR.y K fun hs => (hk hs).1) fun y y' _ hy => ?_
  dsimp only
  split
  · rename_i hp
    exact corr_bind (later_pop hR.u K fun hs => (hk hs).2 hp) fun u u' _ hu => ⟨hI', hR.x, hy, hu, hR.st⟩
  · exact ⟨hI', hR.x, hy, hR.u, hR.st⟩

theorem shifted_loop (H : StepShifts strict c d g I oneStep) (K : Int) : ∀ (n : Nat) {s s' : Obs σ X Y U}, I s.st → Shifted d g s s' →
    Corr strict (fun t t' => I t.st ∧ Shifted d g t t') (loop c oneStep K n s) (loop c oneStep (K + d) n s')
  | 0, _, _, hI, h => ⟨hI, h⟩
  | n + 1, _, _, hI, h => corr_bind (shifted_body H K hI h) fun _ _ _ hR => shifted_loop H K n hR.1 hR.2

theorem shifted_get (H : StepShifts strict c d g I oneStep) (K : Int) {s s' : Obs σ X Y U} (hI : I s.st) (h : Shifted d g s s') :
    Corr strict (fun t t' => I t.st ∧ Shifted d g t t') (getEstimatedState c oneStep s K) (getEstimatedState c oneStep s' (K + d)) := by
  unfold getEstimatedState
  refine corr_bind (shifted_time h) fun t t' _ ht => ?_
  subst ht
  refine corr_bind (corr_assert (decide_eq_decide.2 (by omega))) fun _ _ _ _ => ?_
  rw [show K + d - (t + d) = K - t by omega]
  exact shifted_loop H K _ hI h

theorem shifted_exec (H : StepShifts strict c d g I oneStep) {s s' : Obs σ X Y U} (hI : I s.st) (h : Shifted d g s s') (op : Op X Y U) :
    Corr strict (fun t t' => I t.st ∧ Shifted d g t t') (exec c oneStep s op) (exec c oneStep s' (shiftOp d op)) := by
  cases op with
  | setState x k =>
    simp only [exec, shiftOp, setState]
    refine corr_bind (corr_assert rfl) fun _ _ _ _ => ?_
    simp only [getCurrentTime, Res.ok_bind, if_neg (Int.lt_irrefl _)]
    have hy := later_drop' h.y k
    have hu := later_drop' h.u (k - 1)
    rw [show k - 1 + d = k + d - 1 by omega] at hu
    split
    · exact ⟨hI, rfl, hy, hu, h.st⟩
    · exact ⟨hI, rfl, hy, h.u, h.st⟩
  | setCurrentState x =>
    simp only [exec, shiftOp, setCurrentState, h.x]
    cases s.x with
    | none => trivial
    | some q => exact corr_bind (corr_assert rfl) fun _ _ _ _ => ⟨hI, rfl, h.y, h.u, h.st⟩
  | clearStates => exact ⟨hI, rfl, h.y, h.u, h.st⟩
  | setMeasurement y k =>
    simp only [exec, shiftOp, setMeasurement]
    refine corr_bind (corr_assert rfl) fun _ _ _ _ => ?_
    rw [later_size h.y]
    by_cases h0 : s.y.size > 0
    · rw [if_pos h0, if_pos h0]
      have hne : s.y.v ≠ [] := by intro e; simp [IArr.size, e] at h0
      refine corr_bind (R := fun _ _ => True) (corr_assert ?_) fun _ _ _ _ =>
        corr_bind (later_set h.y y k) fun a b _ hab => ⟨hI, h.x, hab, h.u, h.st⟩
      rw [later_check h.y]
      congr 1
      exact decide_eq_decide.2 (by simp only [IArr.getNextIndex, later_length h.y, h.y.2 hne]; omega)
    · rw [if_neg h0, if_neg h0]
      refine corr_bind (R := fun _ _ => True) (corr_assert ?_) fun _ _ _ _ =>
        corr_bind (later_set h.y y k) fun a b _ hab => ⟨hI, h.x, hab, h.u, h.st⟩
      rw [h.x]
      cases s.x with
      | none => rfl
      | some q => exact decide_eq_decide.2 (by omega)
  | pushMeasurement y =>
    simp only [exec, shiftOp, pushMeasurement]
    refine corr_bind (corr_assert rfl) fun _ _ _ _ => ?_
    rw [later_size h.y]
    by_cases h0 : s.y.size > 0
    · rw [if_pos h0, if_pos h0]
      have hne : s.y.v ≠ [] := by intro e; simp [IArr.size, e] at h0
      exact ⟨hI, h.x, later_push h.y hne y, h.u, h.st⟩
    · rw [if_neg h0, if_neg h0, h.x]
      cases hx : s.x with
      | none => trivial
      | some q =>
        simp only [Option.map_some, show q.2 + d + 1 = q.2 + 1 + d by omega]
        exact corr_bind (later_set h.y y _) fun a b _ hab => ⟨hI, rfl, hab, h.u, h.st⟩
  | clearMeasurements => exact ⟨hI, h.x, later_nil rfl rfl, h.u, h.st⟩
  | setInput u k =>
    simp only [exec, shiftOp, setInput]
    split
    · refine corr_bind (corr_assert rfl) fun _ _ _ _ => ?_
      rw [later_size h.u]
      by_cases h0 : s.u.size > 0
      · rw [if_pos h0, if_pos h0]
        have hne : s.u.v ≠ [] := by intro e; simp [IArr.size, e] at h0
        refine corr_bind (R := fun _ _ => True) (corr_assert ?_) fun _ _ _ _ =>
          corr_bind (later_set h.u u k) fun a b _ hab => ⟨hI, h.x, h.y, hab, h.st⟩
        rw [later_check h.u]
        congr 1
        exact decide_eq_decide.2 (by simp only [IArr.getNextIndex, later_length h.u, h.u.2 hne]; omega)
      · rw [if_neg h0, if_neg h0]
        refine corr_bind (R := fun _ _ => True) (corr_assert ?_) fun _ _ _ _ =>
          corr_bind (later_set h.u u k) fun a b _ hab => ⟨hI, h.x, h.y, hab, h.st⟩
        rw [h.x]
        cases s.x with
        | none => rfl
        | some q =>
          show (_ || _) = (_ || _)
          congr 1
          · exact decide_eq_decide.2 (by omega)
          · exact decide_eq_decide.2 (by omega)
    · exact ⟨hI, h⟩
  | pushInput u =>
    simp only [exec, shiftOp, pushInput]
    split
    · refine corr_bind (corr_assert rfl) fun _ _ _ _ => ?_
      rw [later_size h.u]
      by_cases h0 : s.u.size > 0
      · rw [if_pos h0, if_pos h0]
        have hne : s.u.v ≠ [] := by intro e; simp [IArr.size, e] at h0
        exact ⟨hI, h.x, h.y, later_push h.u hne u, h.st⟩
      · rw [if_neg h0, if_neg h0, h.x]
        cases hx : s.x with
        | none => trivial
        | some q =>
          simp only [Option.map_some]
          exact corr_bind (later_set h.u u _) fun a b _ hab => ⟨hI, rfl, h.y, hab, h.st⟩
    · exact ⟨hI, h⟩
  | clearInputs => exact ⟨hI, h.x, h.y, later_nil rfl rfl, h.st⟩
  | clearInputsAndMeasurements => exact ⟨hI, h.x, later_nil rfl rfl, later_nil rfl rfl, h.st⟩
  | estimateState =>
    simp only [exec, shiftOp, estimateState]
    rw [later_size h.y]
    by_cases h0 : s.y.size > 0
    · rw [if_pos h0, if_pos h0]
      have hne : s.y.v ≠ [] := by intro e; simp [IArr.size, e] at h0
      have hk : s'.y.getLastIndex = s.y.getLastIndex + d := by
        simp only [IArr.getLastIndex, later_length h.y, h.y.2 hne]; omega
      simp only [getMeasurementTime, later_size h.y, h0, decide_true, Res.assert_true, Res.ok_bind, hk, Res.bind_assoc]
      refine corr_bind (shifted_get H _ hI h) fun t t' _ hR => ?_
      exact corr_bind (shifted_time hR.2) fun _ _ _ _ => hR
    · rw [if_neg h0, if_neg h0]
      simp only [Res.bind_assoc, Res.ok_bind]
      exact corr_bind (shifted_time h) fun _ _ _ _ => ⟨hI, h⟩
  | getEstimatedState k => exact shifted_get H k hI h

theorem shifted_run (H : StepShifts strict c d g I oneStep) : ∀ (ops : List (Op X Y U)) {s s' : Obs σ X Y U}, I s.st → Shifted d g s s' →
    Corr strict (Shifted d g) (ops.foldlM (exec c oneStep) s) ((ops.map (shiftOp d)).foldlM (exec c oneStep) s')
  | [], _, _, _, h => h
  | op :: ops, _, _, hI, h => by
    rw [List.map_cons, List.foldlM_cons, List.foldlM_cons]
    exact corr_bind (shifted_exec H hI h op) fun _ _ _ hR => shifted_run H ops hR.1 hR.2

end Run

theorem kalman_shifts (f : σ → X → Int → Y → Res U → Res U → Res (σ × X)) (I : σ → Prop)
    (hf : ∀ st x k y u v, I st → f (g st) x (k + d) y u v = (f st x k y u v >>= fun q => .ok (g q.1, q.2)))
    (hI : ∀ st x k y u v q, I st → f st x k y u v = .ok q → I q.1)
    (hr : strict → ∀ st x k y v q, I st → c.p > 0 → f st x k y .assertFail v ≠ .ok q) : StepShifts strict c d g I (kalmanStep f) where
  shift s s' hs h := by
    unfold kalmanStep
    rw [h.x]
    cases s.x with
    | none => trivial
    | some q =>
      obtain ⟨x, k⟩ := q
      simp only [Option.map_some]
      have e : k + d + 1 = k + 1 + d := by omega
      rw [e, later_get h.y]
      refine corr_bind (corr_refl (R := Eq) _ fun _ => rfl) fun y y' hg hy => ?_
      subst hy
      have hy : s.y.v ≠ [] := fun e => by simp [IArr.get, IArr.checkIndex, e] at hg
      rw [later_get h.u, later_get h.u, h.st, hf _ _ _ _ _ _ hs]
      cases hq : f s.st x k y (s.u.get k) (s.u.get (k + 1)) with
      | ok q =>
        refine ⟨⟨by simp, h.y, h.u, rfl⟩, fun hst => ⟨h.y.2 hy, fun hp => h.u.2 fun e => ?_⟩⟩
        have : s.u.get k = .assertFail := by simp [IArr.get, IArr.checkIndex, e]
        rw [this] at hq
        exact hr hst _ _ _ _ _ _ hs hp hq
      | _ => trivial
  keeps s t hs h := by
    unfold kalmanStep at h
    cases hx : s.x with
    | none => rw [hx] at h; cases h
    | some q =>
      rw [hx] at h
      simp only [Res.bind_eq_ok] at h
      obtain ⟨y, -, q', hq, h⟩ := h
      cases h
      exact hI _ _ _ _ _ _ _ hs hq

/-- **C136**, any observer of this family. Take two observers that are the same except that all the times of the second are `d` later, and give
them the same calls, `d` later for the second. If both return from all the calls, they are still the same except for the times. If moreover the
step of the filter fails when the input of the time step is missing (or there are no inputs at all), one of them fails exactly when the other does.
(`hf`: the step itself counts the time from any origin; `I` is any property of the members of the filter that the step preserves.) -/
theorem C136_observer_partial (c : ObsCfg X Y U) (d : Int) (g : σ → σ) (I : σ → Prop) (strict : Prop)
    (f : σ → X → Int → Y → Res U → Res U → Res (σ × X))
    (hf : ∀ st x k y u v, I st → f (g st) x (k + d) y u v = (f st x k y u v >>= fun q => .ok (g q.1, q.2)))
    (hI : ∀ st x k y u v q, I st → f st x k y u v = .ok q → I q.1)
    (hr : strict → ∀ st x k y v q, I st → c.p > 0 → f st x k y .assertFail v ≠ .ok q)
    (s s' : Obs σ X Y U) (hs : I s.st) (h : Shifted d g s s') (ops : List (Op X Y U)) :
    Corr strict (Shifted d g) (ops.foldlM (exec c (kalmanStep f)) s) ((ops.map (shiftOp d)).foldlM (exec c (kalmanStep f)) s') :=
  shifted_run (kalman_shifts f I hf hI hr) ops hs h

end StateObs.Obs
