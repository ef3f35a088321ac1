import Verif.Elastic.Model
import Verif.KO.NewtonSpec
/-!
# Specification: the robot on elastic contacts

Which numbers of the state and input vectors are what, and the total wrench on the robot. Nothing here refers to the computation of the accelerations.
-/

namespace StateObs.Elastic
open StateObs Matrix Rot Kine
open StateObs.KO (Robot at3)

variable {G : Type}

/-- One number of a vector. -/
def at1 (x : DVec) (i : ℕ) : ℝ := if h : i < x.size then x.val ⟨i, h⟩ else 0

/-- The symmetric matrix `xx, yy, zz, xy, xz, yz` from position `i` on. -/
def sym (u : DVec) (i : ℕ) : M3 :=
  !![at1 u i, at1 u (i + 3), at1 u (i + 4); at1 u (i + 3), at1 u (i + 1), at1 u (i + 5); at1 u (i + 4), at1 u (i + 5), at1 u (i + 2)]

/-- The bias of the centre of mass. -/
def bias (s : Sys G) (x : DVec) : V3 := if s.withBias then ![at1 x 30, at1 x 31, 0] else 0

/-- The state `x` and the input `u` describe the robot `r` at the instant `t`. -/
structure Describes (s : Sys G) (x u : DVec) (r : Robot) (t : ℝ) : Prop where
  position : r.frame.p t = at3 x 0
  orientation : r.frame.R t = rotationVectorToRotationMatrix (at3 x 3)
  velocity : r.frame.v t = at3 x 6
  angularVelocity : r.frame.ω t = at3 x 9
  com : r.c t = at3 u 0 - bias s x
  comd : r.c' t = at3 u 3
  comdd : r.c'' t = at3 u 6
  inertia : r.I t = sym u 9
  sigma : r.σ t = at3 u 15
  inertiad : r.I' t = sym u 18
  sigmad : r.σ' t = at3 u 24

/-- The frame of contact `i` in the frame of the robot: position and orientation. -/
def contactPos (u : DVec) (i : ℕ) : V3 := at3 u (48 + 12 * i)
noncomputable def contactOri (u : DVec) (i : ℕ) : M3 := rotationVectorToRotationMatrix (at3 u (48 + 12 * i + 3))

/-- The velocity of contact `i` in the frame of the robot. -/
def contactVel (u : DVec) (i : ℕ) : V3 := at3 u (48 + 12 * i + 6)

/-- The frame of the robot moves as the state says. -/
structure Moves (x : DVec) (m : Motion) (t : ℝ) : Prop where
  position : m.p t = at3 x 0
  orientation : m.R t = rotationVectorToRotationMatrix (at3 x 3)
  velocity : m.v t = at3 x 6
  angularVelocity : m.ω t = at3 x 9

/-- The force of contact `i` in the world; the state has it in the frame of the contact. -/
noncomputable def contactForce (x u : DVec) (R : M3) (i : ℕ) : V3 := R *ᵥ (contactOri u i *ᵥ at3 x (12 + 6 * i))

/-- Its moment about the origin of the world. -/
noncomputable def contactMoment (x u : DVec) (p : V3) (R : M3) (i : ℕ) : V3 :=
  R *ᵥ (contactOri u i *ᵥ at3 x (12 + 6 * i + 3)) + (p + R *ᵥ contactPos u i) ⨯₃ contactForce x u R i

/-- The force of the contacts: of each of them if they are elastic, the first force of the state otherwise. -/
noncomputable def contactsForce (s : Sys G) (x u : DVec) (R : M3) : V3 :=
  if s.model = 1 then ∑ i ∈ Finset.range s.nb, contactForce x u R i else at3 x 12

/-- The moment of the contacts. -/
noncomputable def contactsMoment (s : Sys G) (x u : DVec) (p : V3) (R : M3) : V3 :=
  if s.model = 1 then ∑ i ∈ Finset.range s.nb, contactMoment x u p R i else at3 x 15

/-- The total force on the robot, without its weight: contacts, forces that are not modelled, and additional force (in the frame of the robot). -/
noncomputable def totalForce (s : Sys G) (x u : DVec) (R : M3) : V3 := contactsForce s x u R + at3 x 24 + R *ᵥ at3 u 42

/-- The total moment about the origin of the world, without the weight. -/
noncomputable def totalMoment (s : Sys G) (x u : DVec) (p : V3) (R : M3) : V3 :=
  contactsMoment s x u p R + at3 x 27 + (R *ᵥ at3 u 45 + p ⨯₃ (R *ᵥ at3 u 42))

/-- The velocity of the centre of mass in the world. -/
def comVelocity (r : Robot) (t : ℝ) : V3 := r.frame.v t + (r.frame.ω t ⨯₃ (r.frame.R t *ᵥ r.c t) + r.frame.R t *ᵥ r.c' t)

/-- The angular momentum about the origin of the world: the one about the origin of the frame when this one does not move, and what its motion adds. -/
def worldMomentum (m : ℝ) (r : Robot) (t : ℝ) : V3 :=
  r.momentum t + m • ((r.frame.R t *ᵥ r.c t) ⨯₃ r.frame.v t) + m • (r.frame.p t ⨯₃ comVelocity r t)

end StateObs.Elastic
