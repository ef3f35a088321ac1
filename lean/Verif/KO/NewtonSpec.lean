import Verif.KO.Dyn
import Verif.Kin.Spec
/-!
# Specification of the Newton-Euler equations (C61)

A robot whose frame moves, and whose mass moves in the frame. Nothing here refers to the computation of the accelerations.
-/

namespace StateObs.KO
open StateObs Matrix Rot Kine

/-- A moving robot. `frame`: its frame in the world; in this frame: `c` centre of mass, `I` inertia about the origin of the frame, `σ` angular momentum about
this origin due to the motion of the parts in the frame; and their derivatives. -/
structure Robot where
  frame : Motion
  c : ℝ → V3
  c' : ℝ → V3
  c'' : ℝ → V3
  σ : ℝ → V3
  σ' : ℝ → V3
  I : ℝ → M3
  I' : ℝ → M3
  dc : Deriv c c'
  dc' : Deriv c' c''
  dσ : Deriv σ σ'
  dI : ∀ t w, HasDerivAt (fun t => I t *ᵥ w) (I' t *ᵥ w) t

/-- The centre of mass in the world. -/
def Robot.com (r : Robot) (t : ℝ) : V3 := r.frame.p t + r.frame.R t *ᵥ r.c t

/-- The angular momentum about the origin of the frame, in the world. -/
def Robot.momentum (r : Robot) (t : ℝ) : V3 := r.frame.R t *ᵥ (r.I t *ᵥ ((r.frame.R t)ᵀ *ᵥ r.frame.ω t) + r.σ t)

/-- Weight per unit of mass, opposite. -/
def g : V3 := ![0, 0, 9.8]

/-- What the observer knows describes the robot at the instant `t`. -/
structure Describes (o : Observer) (r : Robot) (t : ℝ) : Prop where
  kine : ∃ p v a b, o.stateKin.Has ⟨p, some (r.frame.R t), v, some (r.frame.ω t), a, b⟩
  com : ∃ i, o.com = some (r.c t, i)
  comd : ∃ i, o.comd = some (r.c' t, i)
  comdd : ∃ i, o.comdd = some (r.c'' t, i)
  sigma : ∃ i, o.sigma = some (r.σ t, i)
  sigmad : ∃ i, o.sigmad = some (r.σ' t, i)
  inertia : ∃ i, o.inertia = some (r.I t, i)
  inertiad : ∃ i, o.inertiad = some (r.I' t, i)

/-- The three numbers of a vector from a position on. -/
def at3 (x : DVec) (i : ℕ) : V3 := fun j => if h : i + j < x.size then x.val ⟨i + j, h⟩ else 0

/-- The wrench `w` (force and torque at the origin, both in the frame of the robot) of a contact with state in `x` from position `i` on. -/
def Contact.Applies (c : Contact) (x : DVec) (w : V3 × V3) : Prop :=
  if c.isSet then ∃ p R v ω a b, c.localKine.Has ⟨some p, some R, v, ω, a, b⟩ ∧
    w = (R *ᵥ at3 x (c.stateIndex.toNat + 7), R *ᵥ at3 x (c.stateIndex.toNat + 10) + p ⨯₃ (R *ᵥ at3 x (c.stateIndex.toNat + 7)))
  else w = 0

/-- The total force and torque on the robot, in its frame: the additional wrench, the one of the state vector that is not modeled, the contacts. -/
def TotalWrench (o : Observer) (F M : V3) : Prop := ∃ ws, List.Forall₂ (fun c w => Contact.Applies c o.x w) o.contacts ws ∧
  F = o.addForce + at3 o.x (13 + 3 * o.maxIMU) + (ws.map Prod.fst).sum ∧
  M = o.addTorque + at3 o.x (16 + 3 * o.maxIMU) + (ws.map Prod.snd).sum

/-- The robot has, at `t`, the accelerations that the observer holds. -/
def Robot.Moves (r : Robot) (o : Observer) (t : ℝ) : Prop := Item o.stateKin.linAcc (some (r.frame.a t)) ∧ Item o.stateKin.angAcc (some (r.frame.α t))

end StateObs.KO
