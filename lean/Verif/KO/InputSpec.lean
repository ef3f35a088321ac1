import Verif.KO.ClockProps
/-!
# Specification of the inputs given without their derivatives (C110)

Only the calls of a history are used here: which ones give the centre of mass, the angular momentum, the inertia, and in which iteration.
-/

namespace StateObs.KO
open StateObs Matrix Rot Kine
open Classical

/-- The number of estimations done, and whether data were given since the last one. -/
noncomputable def tick (c : ℕ × Bool) (op : Op) : ℕ × Bool :=
  if op = .update then (if c.2 then (c.1 + 1, false) else c) else if op.BringsData then (c.1, true) else c

/-- The state of the clock after a history. -/
noncomputable def clockOf (l : List Op) : ℕ × Bool := l.foldl tick (0, false)

/-- The iteration under way after a history: the last one estimated, or the next one if it has data. -/
noncomputable def iteration (l : List Op) : ℕ := (clockOf l).1 + if (clockOf l).2 then 1 else 0

/-- The centre of mass that a call gives. -/
def Op.com? : Op → Option V3
  | .setCenterOfMass3 c _ _ | .setCenterOfMass2 c _ | .setCenterOfMass c => some c
  | _ => none
/-- The angular momentum that a call gives. -/
def Op.momentum? : Op → Option V3
  | .setAngularMomentum2 s _ | .setAngularMomentum s => some s
  | _ => none
/-- The symmetric matrix with the diagonal `(v0, v1, v2)` and, under it, `v3` (row 1, column 0), `v4` (row 2, column 0), `v5` (row 2, column 1). -/
def symmetric (v : V6) : M3 := fun i j => if h : i = j then v ⟨i, by omega⟩ else v ⟨i + j + 2, by have := Fin.val_ne_of_ne h; omega⟩
/-- The inertia that a call gives. -/
def Op.inertia? : Op → Option M3
  | .setInertiaMatrix2 I _ | .setInertiaMatrix I => some I
  | .setInertiaVector2 v _ | .setInertiaVector v => some (symmetric v)
  | _ => none

/-- The last call of the history that gives the quantity `f` gives the value `v`, in the iteration `k`. -/
def GivenLast {α : Type} (f : Op → Option α) (l : List Op) (v : α) (k : ℕ) : Prop :=
  ∃ l1 op l2, l = l1 ++ op :: l2 ∧ f op = some v ∧ (∀ q ∈ l2, f q = none) ∧ iteration (l1 ++ [op]) = k

end StateObs.KO
