import Verif.ZeroDelay.Model
import Mathlib.Tactic.SplitIfs
/-!
# Observers whose vectors are renamed
-/

namespace StateObs

/-- The outcome, with another value. -/
def Res.map {α β : Type} (f : α → β) : Res α → Res β
  | .ok a => .ok (f a)
  | .assertFail => .assertFail
  | .ub => .ub
  | .exn => .exn

namespace Res
variable {α β γ δ : Type}

@[simp] theorem map_ok (f : α → β) (a : α) : (ok a).map f = ok (f a) := rfl
@[simp] theorem map_assertFail (f : α → β) : (assertFail : Res α).map f = assertFail := rfl
@[simp] theorem map_ub (f : α → β) : (ub : Res α).map f = ub := rfl

theorem bind_congr' {r : Res α} {k k' : α → Res β} (h : ∀ a, k a = k' a) : (r >>= k) = (r >>= k') := by
  rw [funext h]

/-- Two computations in step. -/
theorem bind_map {r : Res α} {r' : Res β} {f : α → β} {k : α → Res γ} {k' : β → Res δ} {g : γ → δ} (hr : r' = r.map f) (hk : ∀ a, k' (f a) = (k a).map g) :
    (r' >>= k') = (r >>= k).map g := by
  subst hr
  cases r <;> simp [Res.map, hk]

/-- The same, for a common first step. -/
theorem bind_same {r : Res α} {k : α → Res γ} {k' : α → Res δ} {g : γ → δ} (hk : ∀ a, k' a = (k a).map g) : (r >>= k') = (r >>= k).map g := by
  cases r <;> simp [Res.map, hk]

end Res

namespace IArr
variable {α β : Type} (f : α → β) (a : IArr α)

/-- The same indexes, other values. -/
def map : IArr β := ⟨a.k, a.v.map f⟩

@[simp] theorem map_size : (a.map f).size = a.size := by simp [map, size]
@[simp] theorem map_first : (a.map f).getFirstIndex = a.getFirstIndex := rfl
@[simp] theorem map_last : (a.map f).getLastIndex = a.getLastIndex := by simp [map, getLastIndex]
@[simp] theorem map_next : (a.map f).getNextIndex = a.getNextIndex := by simp [map, getNextIndex]
@[simp] theorem map_check (t : Int) : (a.map f).checkIndex t = a.checkIndex t := by
  unfold checkIndex map
  simp only [List.length_map]
@[simp] theorem map_reset : (a.map f).reset = (a.reset).map f := rfl
@[simp] theorem map_clear : (a.map f).clear = (a.clear).map f := by simp [map, clear]
@[simp] theorem map_empty : (IArr.empty : IArr α).map f = IArr.empty := rfl

theorem map_get (t : Int) : (a.map f).get t = (a.get t).map f := by
  unfold get
  rw [map_check]
  refine Res.bind_same fun _ => ?_
  simp only [map, List.getElem?_map]
  cases a.v[(t - a.k).toNat]? <;> rfl

theorem map_setValue (x : α) (t : Int) : (a.map f).setValue (f x) t = (a.setValue x t).map (map f) := by
  have hl : (a.map f).v.length = a.v.length := by simp [map]
  have hn : (a.map f).checkNext t = a.checkNext t := by simp only [checkNext, hl]; rfl
  unfold setValue
  rw [map_check, hn, hl]
  by_cases h : a.checkIndex t = true
  · rw [if_pos h, if_pos h]
    simp [map, List.map_set]
  · rw [if_neg h, if_neg h]
    refine Res.bind_same fun _ => ?_
    simp [map]

theorem map_pushBack (x : α) : (a.map f).pushBack (f x) = (a.pushBack x).map f := by simp [map, pushBack]

theorem map_popFront : (a.map f).popFront = (a.popFront).map (map f) := by
  obtain ⟨k, v⟩ := a
  cases v <;> rfl

end IArr

namespace Obs
variable {σ σ' X X' Y Y' U : Type} (h : σ → σ') (f : X → X') (g : Y → Y')

/-- The same observer, other values. -/
def map (s : Obs σ X Y U) : Obs σ' X' Y' U := ⟨s.x.map fun p => (f p.1, p.2), s.y.map g, s.u, h s.st⟩

variable {c : ObsCfg X Y U} {c' : ObsCfg X' Y' U} (s : Obs σ X Y U)

/-- The tests of the sizes agree. -/
structure CfgMap (c : ObsCfg X Y U) (c' : ObsCfg X' Y' U) : Prop where
  okX : ∀ x, c'.okX (f x) = c.okX x
  okY : ∀ y, c'.okY (g y) = c.okY y
  p : c'.p = c.p

theorem map_dropUpTo (k i : Int) (v : List Y) : dropUpTo k i (v.map g) = (dropUpTo k i v).map g := by
  induction v generalizing i with
  | nil => rfl
  | cons a v ih =>
    simp only [List.map_cons, dropUpTo]
    split_ifs
    · exact ih _
    · rfl

theorem map_popIf (k : Int) (a : IArr Y) : popIf k (a.map g) = (popIf k a).map (IArr.map g) := by
  unfold popIf
  rw [IArr.map_first]
  split_ifs
  · exact IArr.map_popFront g a
  · rfl

theorem map_time : (s.map h f g).getCurrentTime = s.getCurrentTime := by
  obtain ⟨x, y, u, st⟩ := s
  cases x <;> rfl

theorem map_setState (hc : CfgMap f g c c') (x : X) (k : Int) : setState c' (s.map h f g) (f x) k = (setState c s x k).map (map h f g) := by
  unfold setState
  rw [hc.okX, hc.p]
  refine Res.bind_same fun _ => ?_
  simp only [getCurrentTime, Res.ok_bind]
  split_ifs
  · simp [map]
  all_goals simp [map, map_dropUpTo, IArr.map]

theorem map_setCurrentState (hc : CfgMap f g c c') (x : X) : setCurrentState c' (s.map h f g) (f x) = (setCurrentState c s x).map (map h f g) := by
  obtain ⟨x0, y, u, st⟩ := s
  cases x0 with
  | none => rfl
  | some p =>
    simp only [setCurrentState, map, Option.map]
    rw [hc.okX]
    exact Res.bind_same fun _ => rfl

theorem map_clearStates : (s.map h f g).clearStates = s.clearStates.map h f g := rfl
theorem map_clearMeasurements : (s.map h f g).clearMeasurements = s.clearMeasurements.map h f g := rfl

theorem map_setMeasurement (hc : CfgMap f g c c') (y : Y) (k : Int) :
    setMeasurement c' (s.map h f g) (g y) k = (setMeasurement c s y k).map (map h f g) := by
  unfold setMeasurement
  rw [hc.okY]
  refine Res.bind_same fun _ => ?_
  have e : ((s.map h f g).y) = s.y.map g := rfl
  rw [e, IArr.map_size, IArr.map_next, IArr.map_check]
  split_ifs
  · refine Res.bind_same fun _ => ?_
    exact Res.bind_map (IArr.map_setValue g s.y y k) fun _ => rfl
  · obtain ⟨x0, y0, u, st⟩ := s
    cases x0 <;>
    · refine Res.bind_same fun _ => ?_
      exact Res.bind_map (IArr.map_setValue g y0 y k) fun _ => rfl

theorem map_pushMeasurement (hc : CfgMap f g c c') (y : Y) : pushMeasurement c' (s.map h f g) (g y) = (pushMeasurement c s y).map (map h f g) := by
  unfold pushMeasurement
  rw [hc.okY]
  refine Res.bind_same fun _ => ?_
  have e : ((s.map h f g).y) = s.y.map g := rfl
  rw [e, IArr.map_size]
  split_ifs
  · rw [IArr.map_pushBack]; rfl
  · obtain ⟨x0, y0, u, st⟩ := s
    cases x0 with
    | none => rfl
    | some p => exact Res.bind_map (IArr.map_setValue g y0 y (p.2 + 1)) fun _ => rfl

variable {step : Obs σ X Y U → Res (Obs σ X Y U)} {step' : Obs σ' X' Y' U → Res (Obs σ' X' Y' U)}

theorem map_loopBody (hc : CfgMap f g c c') (hs : ∀ s, step' (s.map h f g) = (step s).map (map h f g)) (k : Int) :
    loopBody c' step' k (s.map h f g) = (loopBody c step k s).map (map h f g) := by
  unfold loopBody
  refine Res.bind_map (hs s) fun s => ?_
  refine Res.bind_map (map_popIf g k s.y) fun y => ?_
  rw [hc.p]
  split_ifs
  · exact Res.bind_same fun _ => rfl
  · rfl

theorem map_loop (hc : CfgMap f g c c') (hs : ∀ s, step' (s.map h f g) = (step s).map (map h f g)) (k : Int) (n : Nat) :
    loop c' step' k n (s.map h f g) = (loop c step k n s).map (map h f g) := by
  induction n generalizing s with
  | zero => rfl
  | succ n ih => exact Res.bind_map (map_loopBody h f g s hc hs k) fun s => ih s

theorem map_getEstimatedState (hc : CfgMap f g c c') (hs : ∀ s, step' (s.map h f g) = (step s).map (map h f g)) (k : Int) :
    getEstimatedState c' step' (s.map h f g) k = (getEstimatedState c step s k).map (map h f g) := by
  unfold getEstimatedState
  rw [map_time]
  refine Res.bind_same fun k0 => ?_
  exact Res.bind_same fun _ => map_loop h f g s hc hs k _

theorem map_estimateState (hc : CfgMap f g c c') (hs : ∀ s, step' (s.map h f g) = (step s).map (map h f g)) :
    estimateState c' step' (s.map h f g) = (estimateState c step s).map fun p => (p.1.map h f g, p.2) := by
  have hy : ((s.map h f g).y) = s.y.map g := rfl
  have hm : (s.map h f g).getMeasurementTime = s.getMeasurementTime := by simp [getMeasurementTime, hy]
  have hj : ∀ s : Obs σ X Y U, ((s.map h f g).getCurrentTime >>= fun t => Res.ok (s.map h f g, t)) =
      (s.getCurrentTime >>= fun t => Res.ok (s, t)).map fun p => (p.1.map h f g, p.2) := fun s => by
    rw [map_time]
    exact Res.bind_same fun _ => rfl
  unfold estimateState
  dsimp only
  rw [hm, hy, IArr.map_size]
  by_cases h0 : s.y.size > 0
  · rw [if_pos h0, if_pos h0]
    refine Res.bind_same fun k => ?_
    exact Res.bind_map (map_getEstimatedState h f g s hc hs k) hj
  · rw [if_neg h0, if_neg h0]
    exact hj s

end Obs
end StateObs
