import Verif.IndexedArray.Model
import Mathlib.Logic.Function.Basic
/-!
# What a time-indexed array is

A partial map from time indexes to values, defined exactly on the interval `[lo, hi)`. The operations say in terms of
the map what the API documentation (definitions.hpp 393-470) says. `none` means "the call is a usage error".
-/

namespace StateObs.IArrSpec
variable {α : Type}

/-- A time-indexed map together with its first index and its next index. -/
structure Map (α : Type) where
  lo : Int
  hi : Int
  m : Int → Option α

/-- The map is defined exactly on `[lo, hi)`. -/
def Map.Window (s : Map α) : Prop := s.lo ≤ s.hi ∧ ∀ t, (s.m t).isSome ↔ s.lo ≤ t ∧ t < s.hi

/-- API calls (those that change the array and those that look at it). -/
inductive Op (α : Type) where
  | setValue (x : α) (t : Int)
  | pushBack (x : α)
  | popFront
  | clear
  | reset
  | truncateAfter (t : Int)
  | setFirstIndex (t : Int)
  | get (t : Int)
  | checkIndex (t : Int)
  | size
  | firstIndex
  | lastIndex
  | nextIndex

/-- What a call returns. -/
inductive Out (α : Type) where
  | unit
  | val (x : α)
  | bool (b : Bool)
  | int (i : Int)

/-- Meaning of the calls on the map. -/
noncomputable def step (s : Map α) : Op α → Option (Map α × Out α)
  | .setValue x t =>
      if s.lo ≤ t ∧ t < s.hi then some ({ s with m := Function.update s.m t (some x) }, .unit)
      else if s.lo = s.hi then some (⟨t, t + 1, Function.update s.m t (some x)⟩, .unit)
      else if t = s.hi then some (⟨s.lo, s.hi + 1, Function.update s.m t (some x)⟩, .unit)
      else none
  | .pushBack x => some (⟨s.lo, s.hi + 1, Function.update s.m s.hi (some x)⟩, .unit)
  | .popFront => if s.lo < s.hi then some (⟨s.lo + 1, s.hi, Function.update s.m s.lo none⟩, .unit) else none
  | .clear => some (⟨s.hi, s.hi, fun _ => none⟩, .unit)
  | .reset => some (⟨0, 0, fun _ => none⟩, .unit)
  | .truncateAfter t =>
      some (⟨s.lo, max s.lo (min s.hi (t + 1)), fun i => if i ≤ t then s.m i else none⟩, .unit)
  | .setFirstIndex t => some (⟨t, t + (s.hi - s.lo), fun i => s.m (i - t + s.lo)⟩, .unit)
  | .get t => (s.m t).map fun x => (s, .val x)
  | .checkIndex t => some (s, .bool (s.m t).isSome)
  | .size => some (s, .int (s.hi - s.lo))
  | .firstIndex => some (s, .int s.lo)
  | .lastIndex => some (s, .int (s.hi - 1))
  | .nextIndex => some (s, .int s.hi)

/-- The same calls on the modelled array. -/
def cstep (d : α) (a : IArr α) : Op α → Res (IArr α × Out α)
  | .setValue x t => do let a' ← a.setValue x t; .ok (a', .unit)
  | .pushBack x => .ok (a.pushBack x, .unit)
  | .popFront => do let a' ← a.popFront; .ok (a', .unit)
  | .clear => .ok (a.clear, .unit)
  | .reset => .ok (a.reset, .unit)
  | .truncateAfter t => .ok (a.truncateAfter d t, .unit)
  | .setFirstIndex t => .ok (a.setFirstIndex t, .unit)
  | .get t => do let x ← a.get t; .ok (a, .val x)
  | .checkIndex t => .ok (a, .bool (a.checkIndex t))
  | .size => .ok (a, .int a.size)
  | .firstIndex => .ok (a, .int a.getFirstIndex)
  | .lastIndex => .ok (a, .int a.getLastIndex)
  | .nextIndex => .ok (a, .int a.getNextIndex)

/-- Run a sequence of calls on the map, collecting the outputs. -/
noncomputable def run (s : Map α) : List (Op α) → Option (Map α × List (Out α))
  | [] => some (s, [])
  | o :: os => do
      let (s', out) ← step s o
      let (s'', outs) ← run s' os
      some (s'', out :: outs)

/-- Run a sequence of calls on the array. -/
def crun (d : α) (a : IArr α) : List (Op α) → Res (IArr α × List (Out α))
  | [] => .ok (a, [])
  | o :: os => do
      let (a', out) ← cstep d a o
      let (a'', outs) ← crun d a' os
      .ok (a'', out :: outs)

/-- The map an array stands for. -/
def absMap (a : IArr α) : Map α :=
  ⟨a.k, a.k + a.v.length, fun t => if a.k ≤ t then a.v[(t - a.k).toNat]? else none⟩

end StateObs.IArrSpec
