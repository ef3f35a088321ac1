import Verif.Kin.Model
import Verif.Kin.OriLemmas
import Verif.Rot.Motion
/-!
# What a `Kinematics` object means

`Value` is what the user can observe of an object: the value of each field that is set. `Motion` is a moving frame with its derivatives.
-/

namespace StateObs.Kine
open StateObs Matrix Rot

/-- The fields that are set, and their values. -/
@[ext] structure Value where
  pos : Option V3
  ori : Option M3
  linVel : Option V3
  angVel : Option V3
  linAcc : Option V3
  angAcc : Option V3

/-- A checked vector is not set, or holds `x`. -/
def Item (i : CItem V3) : Option V3 → Prop
  | none => i.flag = false
  | some x => i = ⟨true, some x⟩

/-- The object `k` has the value `a`. -/
structure Kin.Has (k : Kin) (a : Value) : Prop where
  pos : Item k.pos a.pos
  ori : k.ori.Holds a.ori
  linVel : Item k.linVel a.linVel
  angVel : Item k.angVel a.angVel
  linAcc : Item k.linAcc a.linAcc
  angAcc : Item k.angAcc a.angAcc

/-- A frame that moves: `R t` and `p t` are its orientation and position at time `t`, `ω`, `α`, `v`, `a` are the angular velocity and acceleration, and the
derivatives of `p`, all in the fixed frame. -/
structure Motion where
  R : ℝ → M3
  ω : ℝ → V3
  α : ℝ → V3
  p : ℝ → V3
  v : ℝ → V3
  a : ℝ → V3
  rot : ∀ t, IsRot (R t)
  turns : Turns R ω
  dω : Deriv ω α
  dp : Deriv p v
  dv : Deriv v a

/-- The kinematics of a moving frame at time `t`. -/
def Motion.at (m : Motion) (t : ℝ) : Value := ⟨some (m.p t), some (m.R t), some (m.v t), some (m.ω t), some (m.a t), some (m.α t)⟩

/-- The kinematics of a frame at the origin, at rest. -/
def Value.zero : Value := ⟨some 0, some 1, some 0, some 0, some 0, some 0⟩

/-- All the fields are set. -/
def Value.Full (a : Value) : Prop := ∃ p R v w x y, a = ⟨some p, some R, some v, some w, some x, some y⟩

/-- `b` has all the fields of `a`, and maybe more. -/
structure Value.Le (a b : Value) : Prop where
  pos : ∀ x, a.pos = some x → b.pos = some x
  ori : ∀ x, a.ori = some x → b.ori = some x
  linVel : ∀ x, a.linVel = some x → b.linVel = some x
  angVel : ∀ x, a.angVel = some x → b.angVel = some x
  linAcc : ∀ x, a.linAcc = some x → b.linAcc = some x
  angAcc : ∀ x, a.angAcc = some x → b.angAcc = some x

/-- The flagged fields of `a`, the other ones of `b`. -/
def Value.select (f : KFlags) (a b : Value) : Value where
  pos := if f.pos then a.pos else b.pos
  ori := if f.ori then a.ori else b.ori
  linVel := if f.linVel then a.linVel else b.linVel
  angVel := if f.angVel then a.angVel else b.angVel
  linAcc := if f.linAcc then a.linAcc else b.linAcc
  angAcc := if f.angAcc then a.angAcc else b.angAcc

/-- The flagged fields are set. -/
def Value.Provides (a : Value) (f : KFlags) : Prop :=
  (f.pos → a.pos.isSome) ∧ (f.ori → a.ori.isSome) ∧ (f.linVel → a.linVel.isSome) ∧ (f.angVel → a.angVel.isSome) ∧ (f.linAcc → a.linAcc.isSome) ∧
    (f.angAcc → a.angAcc.isSome)

/-- The length of the vector for the given flags: three numbers for each field, four for the orientation. -/
def KFlags.size (f : KFlags) : ℕ := 3 * f.pos.toNat + 4 * f.ori.toNat + 3 * f.linVel.toNat + 3 * f.angVel.toNat + 3 * f.linAcc.toNat + 3 * f.angAcc.toNat

/-- The fields that are set. -/
def Value.flags (a : Value) : KFlags := ⟨a.pos.isSome, a.ori.isSome, a.linVel.isSome, a.angVel.isSome, a.linAcc.isSome, a.angAcc.isSome⟩

/-- The nothing-set value. -/
def Value.empty : Value := ⟨none, none, none, none, none, none⟩

/-- A field `x` (position, velocity, acceleration, in this order) can be deduced from the old values (`p`, `v`, `a`: which are known) and the new ones. -/
def DeduciblePos (p np : Bool) : Prop := np ∨ p
def DeducibleVel (p v np nv : Bool) : Prop := nv ∨ v ∨ (p ∧ np)
def DeducibleAcc (p v a np nv na : Bool) : Prop := na ∨ a ∨ (v ∧ nv) ∨ (p ∧ np)

/-- The flagged fields can be deduced from the old value `a` and the new one `b`. -/
def Value.Deducible (f : KFlags) (a b : Value) : Prop :=
  (f.pos → DeduciblePos a.pos.isSome b.pos.isSome) ∧
  (f.linVel → DeducibleVel a.pos.isSome a.linVel.isSome b.pos.isSome b.linVel.isSome) ∧
  (f.linAcc → DeducibleAcc a.pos.isSome a.linVel.isSome a.linAcc.isSome b.pos.isSome b.linVel.isSome b.linAcc.isSome) ∧
  (f.ori → DeduciblePos a.ori.isSome b.ori.isSome) ∧
  (f.angVel → DeducibleVel a.ori.isSome a.angVel.isSome b.ori.isSome b.angVel.isSome) ∧
  (f.angAcc → DeducibleAcc a.ori.isSome a.angVel.isSome a.angAcc.isSome b.ori.isSome b.angVel.isSome b.angAcc.isSome)

end StateObs.Kine
