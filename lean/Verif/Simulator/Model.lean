import Verif.IndexedArray.Model
import Mathlib.Data.Nat.Notation
/-!
# `DynamicalSystemSimulator`

`include/state-observation/dynamical-system/dynamical-system-simulator.hpp` 31-100,
`src/dynamical-system-simulator.cpp` 1-127. Vectors are an arbitrary type `α`. The dynamics functor is a pair of functions of
the state, the input and the time index (a functor with a changing internal state is not modelled); the null pointer is `none`.
-/

namespace StateObs

/-- The two functions of `DynamicalSystemFunctorBase` used by the simulator
(dynamical-system-functor-base.hpp 38-42). -/
structure Dynamics (α : Type) where
  state : α → α → Int → α
  measure : α → α → Int → α

/-- Members `f_`, `x_`, `y_`, `u_` (hpp 93-99). The `std::map` is the list of its entries in increasing key order. -/
structure Simulator (α : Type) where
  f : Option (Dynamics α)
  x : IArr α
  y : IArr α
  u : List (Int × α)

namespace Simulator
variable {α : Type} [Inhabited α]

/-- Constructor, cpp 5-8. -/
def new : Simulator α := ⟨none, IArr.empty, IArr.empty, []⟩

/-- `setDynamicsFunctor`, cpp 15-18. -/
def setDynamicsFunctor (s : Simulator α) (f : Option (Dynamics α)) : Simulator α := { s with f := f }

/-- `setState`, cpp 20-27. -/
def setState (s : Simulator α) (x : α) (k : Int) : Res (Simulator α) := do
  Res.assert (decide (s.x.size = 0) || (decide (s.x.getFirstIndex ≤ k) && decide (s.x.getNextIndex ≥ k)))
  let x' ← (s.x.truncateAfter default (k - 1)).setValue x k
  .ok { s with x := x' }

/-- `std::map::insert`: an entry with an existing key is left alone. -/
def mapInsert : List (Int × α) → Int → α → List (Int × α)
  | [], k, u => [(k, u)]
  | (j, v) :: t, k, u => if k < j then (k, u) :: (j, v) :: t else if k = j then (j, v) :: t else (j, v) :: mapInsert t k u

/-- `setInput`, cpp 29-32. -/
def setInput (s : Simulator α) (u : α) (k : Int) : Simulator α := { s with u := mapInsert s.u k u }

/-- `getInput`, cpp 60-70. `upper_bound(k)` is the first entry with key `> k`; decrementing `begin()` is undefined. -/
def getInput (s : Simulator α) (k : Int) : Res α := do
  Res.assert (decide (s.u.length > 0))
  match (s.u.takeWhile fun e => decide (e.1 ≤ k)).getLast? with
  | none => .ub
  | some e => do
    Res.assert (decide (e.1 ≤ k))
    .ok e.2

/-- `simulateDynamics`, cpp 72-80. -/
def simulateDynamics (s : Simulator α) : Res (Simulator α) :=
  match s.f with
  | none => .assertFail
  | some f => do
    let k := s.x.getLastIndex
    let u ← s.getInput k
    let xk ← s.x.get k
    let y' ← s.y.setValue (f.measure xk u k) k
    let x' ← s.x.setValue (f.state xk u k) (k + 1)
    .ok { s with x := x', y := y' }

/-- `n` turns of the loop of `simulateDynamicsTo`. -/
def simulateN : ℕ → Simulator α → Res (Simulator α)
  | 0, s => .ok s
  | n + 1, s => do
    let s' ← s.simulateDynamics
    simulateN n s'

/-- `simulateDynamicsTo`, cpp 82-88: the loop starts at the last index. -/
def simulateDynamicsTo (s : Simulator α) (k : Int) : Res (Simulator α) := simulateN (k - s.x.getLastIndex).toNat s

/-- `if(c) simulateDynamicsTo(k);` (cpp 37, 45). -/
def simulateIf (s : Simulator α) (c : Prop) [Decidable c] (k : Int) : Res (Simulator α) := if c then s.simulateDynamicsTo k else .ok s

/-- `getMeasurement`, cpp 34-40. -/
def getMeasurement (s : Simulator α) (k : Int) : Res (α × Simulator α) := do
  Res.assert (decide (s.y.size = 0) || decide (s.y.getFirstIndex < k))
  let s' ← s.simulateIf (s.y.getNextIndex < k) k
  let y ← s'.y.get k
  .ok (y, s')

/-- `getState`, cpp 42-48. -/
def getState (s : Simulator α) (k : Int) : Res (α × Simulator α) := do
  Res.assert (decide (s.x.size = 0) || decide (s.x.getFirstIndex ≤ k))
  let s' ← s.simulateIf (s.x.getLastIndex < k) (k - 1)
  let x ← s'.x.get k
  .ok (x, s')

/-- `getCurrentState`, cpp 50-53. -/
def getCurrentState (s : Simulator α) : Res α := s.x.get s.x.getLastIndex

/-- `getCurrentTime`, cpp 55-58. -/
def getCurrentTime (s : Simulator α) : Int := s.x.getLastIndex

/-- The loop of `getMeasurementArray` (cpp 95-98), `n` turns from index `i`. -/
def measurementLoop : ℕ → Int → IArr α → Simulator α → Res (IArr α × Simulator α)
  | 0, _, a, s => .ok (a, s)
  | n + 1, i, a, s => do
    let (y, s') ← s.getMeasurement i
    let a' ← a.setValue y i
    measurementLoop n (i + 1) a' s'

/-- `getMeasurementArray`, cpp 90-100. -/
def getMeasurementArray (s : Simulator α) (start : Int) (duration : ℕ) : Res (IArr α × Simulator α) := do
  Res.assert (decide (start > s.y.getFirstIndex))
  measurementLoop duration start IArr.empty s

/-- The loop of `getStateArray` (cpp 108-111), `n` turns from index `i`. -/
def stateLoop : ℕ → Int → IArr α → Simulator α → Res (IArr α × Simulator α)
  | 0, _, a, s => .ok (a, s)
  | n + 1, i, a, s => do
    let (x, s') ← s.getState i
    let a' ← a.setValue x i
    stateLoop n (i + 1) a' s'

/-- `getStateArray`, cpp 102-113. -/
def getStateArray (s : Simulator α) (start : Int) (duration : ℕ) : Res (IArr α × Simulator α) := do
  Res.assert (decide (start > s.x.getFirstIndex))
  stateLoop duration start IArr.empty s

/-- `resetDynamics`, cpp 115-120. -/
def resetDynamics (s : Simulator α) : Simulator α := { s with x := s.x.reset, y := s.y.reset, u := [] }

/-- `resetSimulator`, cpp 122-126. -/
def resetSimulator (s : Simulator α) : Simulator α := { s.resetDynamics with f := none }

end Simulator
end StateObs
