import Verif.ZeroDelay.Props
/-!
# Counting the time from another origin (C136)
-/

namespace StateObs.ShiftSpec
open StateObs

/-- Two outcomes that correspond: values related by `R`, or the same failure. With `strict = False`, an outcome that is a failure
corresponds to anything: only two calls that both return are compared. -/
def Corr {α β : Type} (strict : Prop) (R : α → β → Prop) : Res α → Res β → Prop
  | .ok a, .ok b => R a b
  | .assertFail, .assertFail => True
  | .ub, .ub => True
  | .exn, .exn => True
  | _, _ => ¬ strict

/-- The same content, `d` later. (The indexes of an empty array are not compared.) -/
def Later {α : Type} (d : Int) (a b : IArr α) : Prop := b.v = a.v ∧ (a.v ≠ [] → b.k = a.k + d)

/-- The same observer, `d` later: state, waiting measurements and inputs; `g` says what the other members are in the second one. -/
structure Shifted {σ X Y U : Type} (d : Int) (g : σ → σ) (s s' : Obs σ X Y U) : Prop where
  x : s'.x = s.x.map fun q => (q.1, q.2 + d)
  y : Later d s.y s'.y
  u : Later d s.u s'.u
  st : s'.st = g s.st

/-- The same call, `d` later. -/
def shiftOp {X Y U : Type} (d : Int) : Obs.Op X Y U → Obs.Op X Y U
  | .setState x k => .setState x (k + d)
  | .setMeasurement y k => .setMeasurement y (k + d)
  | .setInput u k => .setInput u (k + d)
  | .getEstimatedState k => .getEstimatedState (k + d)
  | op => op

end StateObs.ShiftSpec
