import Verif.Outcome
/-!
# `IndexedMatrixArrayT`

`include/state-observation/tools/definitions.hpp` 386-530 (class), `definitions.hxx` 256-672 (functions).
The matrix type is an arbitrary type `α`; `TimeIndex` (`long`) and the `int` arguments are `ℤ` (no overflow);
`std::deque v_` is a `List`, front first.
-/

namespace StateObs

/-- Members `k_`, `v_` (definitions.hpp 521-527). -/
structure IArr (α : Type) where
  k : Int
  v : List α
  deriving Repr, DecidableEq

namespace IArr
variable {α : Type}

/-- Default constructor, definitions.hxx 429-433. -/
def empty : IArr α := ⟨0, []⟩

/-- Sized constructor, definitions.hxx 436-440 (`d` is the default-constructed matrix). -/
def sized (n : Nat) (initial : Int) (d : α) : IArr α := ⟨initial, List.replicate n d⟩

/-- definitions.hxx 368-371. -/
def size (a : IArr α) : Nat := a.v.length

/-- definitions.hxx 350-353. -/
def getFirstIndex (a : IArr α) : Int := a.k

/-- definitions.hxx 335-338. -/
def getLastIndex (a : IArr α) : Int := a.k + a.v.length - 1

/-- definitions.hxx 342-345. -/
def getNextIndex (a : IArr α) : Int := a.k + a.v.length

/-- definitions.hxx 389-394. -/
def checkIndex (a : IArr α) (time : Int) : Bool :=
  decide (a.v.length > 0) && decide (a.k ≤ time) && decide (a.k + a.v.length > time)

/-- definitions.hxx 414-419 (the condition asserted by `checkNext_`). -/
def checkNext (a : IArr α) (time : Int) : Bool :=
  decide (a.v.length = 0) || decide (a.k + a.v.length = time)

/-- `operator[]`, definitions.hxx 290-302: assert `checkIndex`, then `v_[size_t(time-k_)]`;
the raw access is undefined behaviour out of range. -/
def get (a : IArr α) (time : Int) : Res α := do
  Res.assert (a.checkIndex time)
  match a.v[(time - a.k).toNat]? with
  | some x => .ok x
  | none => .ub

/-- `setValue`, definitions.hxx 258-272. -/
def setValue (a : IArr α) (x : α) (time : Int) : Res (IArr α) :=
  if a.checkIndex time then
    .ok { a with v := a.v.set (time - a.k).toNat x }
  else do
    Res.assert (a.checkNext time)
    let k' := if a.v.length = 0 then time else a.k
    .ok ⟨k', a.v ++ [x]⟩

/-- `pushBack`, definitions.hxx 275-278. -/
def pushBack (a : IArr α) (x : α) : IArr α := { a with v := a.v ++ [x] }

/-- `popFront`, definitions.hxx 281-286 (`check_()` 408-411 asserts non-empty). -/
def popFront (a : IArr α) : Res (IArr α) :=
  match a.v with
  | [] => .assertFail
  | _ :: t => .ok ⟨a.k + 1, t⟩

/-- `front`, definitions.hxx 307-317: `deque::front` of an empty deque is undefined, no assertion. -/
def front (a : IArr α) : Res α := match a.v.head? with | some x => .ok x | none => .ub

/-- `back`, definitions.hxx 321-331. -/
def back (a : IArr α) : Res α := match a.v.getLast? with | some x => .ok x | none => .ub

/-- `setLastIndex`, definitions.hxx 356-359: `k_=index-(v_.size()+1)`. -/
def setLastIndex (a : IArr α) (index : Int) : IArr α := { a with k := index - (a.v.length + 1) }

/-- `setFirstIndex`, definitions.hxx 362-365. -/
def setFirstIndex (a : IArr α) (index : Int) : IArr α := { a with k := index }

/-- `reset`, definitions.hxx 375-379. -/
def reset (_ : IArr α) : IArr α := ⟨0, []⟩

/-- `clear`, definitions.hxx 382-386. -/
def clear (a : IArr α) : IArr α := ⟨a.k + a.v.length, []⟩

/-- `resize(i,m)`, definitions.hxx 423-426 (`std::deque::resize`). -/
def resize (a : IArr α) (i : Nat) (m : α) : IArr α :=
  { a with v := a.v.take i ++ List.replicate (i - a.v.length) m }

/-- `getArray`, definitions.hxx 443-453. -/
def getArray (a : IArr α) : List α := a.v

/-- `truncateAfter`, definitions.hxx 456-472. `d` is the default-constructed filler of `resize`
(never used, as the resize shrinks). -/
def truncateAfter (a : IArr α) (d : α) (time : Int) : IArr α :=
  if a.v.length > 0 then
    if time ≥ a.getFirstIndex then
      if time < a.getLastIndex then
        a.resize (time - a.getFirstIndex + 1).toNat d
      else a
    else { a with v := [] }
  else a

/-- The loop `for (i=first; i<time; ++i) v_.pop_front()` of `truncateBefore`, run `n` times;
`pop_front` of an empty deque is undefined. -/
def popLoop : Nat → List α → Res (List α)
  | 0, v => .ok v
  | _ + 1, [] => .ub
  | n + 1, _ :: t => popLoop n t

/-- `truncateBefore`, definitions.hxx 475-493. The loop runs `time - first` times (0 when negative). -/
def truncateBefore (a : IArr α) (time : Int) : Res (IArr α) :=
  if a.v.length > 0 then
    if time < a.getLastIndex then do
      let v' ← popLoop (time - a.getFirstIndex).toNat a.v
      .ok (setFirstIndex ⟨a.k, v'⟩ time)
    else .ok { a with v := [] }
  else .ok a

end IArr
end StateObs
