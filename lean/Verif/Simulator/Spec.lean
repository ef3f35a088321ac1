import Verif.Simulator.Model
/-!
# Histories of simulator calls
-/

namespace StateObs.Simulator
variable {α : Type} [Inhabited α]

/-- The calls that can change the simulator. -/
inductive Call (α : Type) where
  | setDynamicsFunctor (f : Option (Dynamics α))
  | setState (x : α) (k : Int)
  | setInput (u : α) (k : Int)
  | simulateDynamics
  | simulateDynamicsTo (k : Int)
  | getState (k : Int)
  | getMeasurement (k : Int)
  | getStateArray (start : Int) (duration : ℕ)
  | getMeasurementArray (start : Int) (duration : ℕ)
  | resetDynamics
  | resetSimulator

/-- One call. -/
def Call.exec (s : Simulator α) : Call α → Res (Simulator α)
  | .setDynamicsFunctor f => .ok (s.setDynamicsFunctor f)
  | .setState x k => s.setState x k
  | .setInput u k => .ok (s.setInput u k)
  | .simulateDynamics => s.simulateDynamics
  | .simulateDynamicsTo k => s.simulateDynamicsTo k
  | .getState k => do let r ← s.getState k; .ok r.2
  | .getMeasurement k => do let r ← s.getMeasurement k; .ok r.2
  | .getStateArray a n => do let r ← s.getStateArray a n; .ok r.2
  | .getMeasurementArray a n => do let r ← s.getMeasurementArray a n; .ok r.2
  | .resetDynamics => .ok s.resetDynamics
  | .resetSimulator => .ok s.resetSimulator

/-- A sequence of calls. -/
def run (s : Simulator α) : List (Call α) → Res (Simulator α)
  | [] => .ok s
  | c :: l => do
    let s' ← c.exec s
    run s' l

/-- The value *first* set for time `j` since the last reset, from the calls alone. -/
def inputOf (j : Int) : Option α → List (Call α) → Option α
  | r, [] => r
  | r, .setInput u k :: l => inputOf j (if j = k then r.or (some u) else r) l
  | _, .resetDynamics :: l => inputOf j none l
  | _, .resetSimulator :: l => inputOf j none l
  | r, _ :: l => inputOf j r l

/-- The value *last* set for time `j` since the last reset, from the calls alone: what the documentation promises. -/
def lastInputOf (j : Int) : Option α → List (Call α) → Option α
  | r, [] => r
  | r, .setInput u k :: l => lastInputOf j (if j = k then some u else r) l
  | _, .resetDynamics :: l => lastInputOf j none l
  | _, .resetSimulator :: l => lastInputOf j none l
  | r, _ :: l => lastInputOf j r l

/-- `v` is the input in force at time `i` for the schedule `m`: the entry with the greatest time not after `i`. -/
def InForce (m : Int → Option α) (i : Int) (v : α) : Prop := ∃ j ≤ i, m j = some v ∧ ∀ j', j < j' → j' ≤ i → m j' = none

end StateObs.Simulator
