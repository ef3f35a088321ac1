import Verif.Logger.Model
import Mathlib.Data.Nat.Notation
/-!
# What the logger is documented to record

`include/state-observation/tools/logger.hpp` 20-58 (comments). The expected record of an address is computed from the calls alone.
-/

namespace StateObs.Logger
variable {β : Type}

/-- The calls that can change what is recorded. -/
inductive Call (β : Type) where
  | setPath (p : String)
  | record (a : Int) (t : LogType) (filename : String)
  | push (m : Memory β)
  | pushOne (m : Memory β) (a : Int)
  | updateAddress (old new : Int) (t : LogType)
  | clearTracking
  | clearLogs

/-- One call. -/
def Call.exec (s : Logger β) : Call β → Res (Logger β)
  | .setPath p => .ok (s.setPath p)
  | .record a t f => s.record a t f
  | .push m => .ok (s.push m)
  | .pushOne m a => s.pushOne m a
  | .updateAddress o n t => s.updateAddress o n t
  | .clearTracking => .ok s.clearTracking
  | .clearLogs => .ok s.clearLogs

/-- A sequence of calls. -/
def run (s : Logger β) : List (Call β) → Res (Logger β)
  | [] => .ok s
  | c :: l => do
    let s' ← c.exec s
    run s' l

/-- A tracked variable: its type, its file, the number of pushes since it was recorded, the values at the pushes since the logs were
last cleared. -/
structure Track (β : Type) where
  type : LogType
  filename : String
  count : ℕ
  values : List (List β)

/-- The documented effect of a call on what is tracked. -/
def expect (m : Int → Option (Track β)) : Call β → Int → Option (Track β)
  | .setPath _, a => m a
  | .record a' t f, a => if a = a' then (m a).or (some ⟨t, f, 0, []⟩) else m a
  | .push mem, a => (m a).map fun r => { r with count := r.count + 1, values := r.values ++ [mem a r.type] }
  | .pushOne mem a', a =>
    if a = a' then (m a).map fun r => { r with count := r.count + 1, values := r.values ++ [mem a r.type] } else m a
  | .updateAddress old new t, a => if a = new then (m old).map fun r => { r with type := t } else if a = old then none else m a
  | .clearTracking, _ => none
  | .clearLogs, a => (m a).map fun r => { r with values := [] }

/-- What is tracked after a history. -/
def expected (l : List (Call β)) : Int → Option (Track β) := l.foldl expect fun _ => none

/-- `getRecord a` gives what is tracked: the values in order, the last one at the number of pushes minus one. -/
def Records (s : Logger β) (a : Int) : Option (Track β) → Prop
  | none => s.getRecord a = .assertFail
  | some r => ∃ arr, s.getRecord a = .ok arr ∧ arr.getArray = r.values ∧ arr.getNextIndex = r.count

/-- The full statement of **C68**. -/
def C68_statement (β : Type) : Prop :=
  ∀ (z : β) (l : List (Call β)) (s : Logger β), run (new z) l = .ok s → ∀ a, Records s a (expected l a)

end StateObs.Logger
