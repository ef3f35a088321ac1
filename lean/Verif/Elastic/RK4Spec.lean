import Verif.Elastic.Model
/-!
# Specification: one step of the method of Runge and Kutta

Nothing here refers to the functions of the system; of the model, only the structures of its inputs are used.
-/

namespace StateObs.Elastic
open StateObs Matrix Rot Kine

/-- A frame that moves: position, orientation, velocity, angular velocity. -/
structure Body where
  p : V3
  R : M3
  v : V3
  ω : V3

/-- The frame after `h` seconds with the given velocities and accelerations. -/
noncomputable def Body.move (x : Body) (h : ℝ) (v ω a α : V3) : Body :=
  ⟨x.p + h • v, rotationVectorToRotationMatrix (h • ω) * x.R, x.v + h • a, x.ω + h • α⟩

/-- One step of the method of Runge and Kutta of order four from `x` to `y` in `h` seconds, for laws that give the accelerations at each of the four stages. The
rotations of the four stages are done one after the other. -/
def RungeKutta (law1 law2 law3 law4 : Body → V3 → V3 → Prop) (h : ℝ) (x y : Body) : Prop :=
  ∃ (a1 α1 a2 α2 a3 α3 a4 α4 : V3) (x2 x3 x4 : Body),
    law1 x a1 α1 ∧ x2 = x.move (h / 2) x.v x.ω a1 α1 ∧
    law2 x2 a2 α2 ∧ x3 = x.move (h / 2) x2.v x2.ω a2 α2 ∧
    law3 x3 a3 α3 ∧ x4 = x.move h x3.v x3.ω a3 α3 ∧
    law4 x4 a4 α4 ∧
    y.p = x.p + (h / 6) • (x.v + (2 : ℝ) • x2.v + (2 : ℝ) • x3.v + x4.v) ∧
    y.v = x.v + (h / 6) • (a1 + (2 : ℝ) • a2 + (2 : ℝ) • a3 + a4) ∧
    y.ω = x.ω + (h / 6) • (α1 + (2 : ℝ) • α2 + (2 : ℝ) • α3 + α4) ∧
    y.R = rotationVectorToRotationMatrix ((h / 6) • x4.ω) * (rotationVectorToRotationMatrix ((h / 3) • x3.ω) *
      (rotationVectorToRotationMatrix ((h / 3) • x2.ω) * (rotationVectorToRotationMatrix ((h / 6) • x.ω) * x.R)))

/-- The acceleration of gravity. -/
noncomputable def gravityUp : V3 := ![0, 0, 9.8]

/-- The robot: its mass, the contact model, what is inside the frame and applied to it (`i`), the forces and moments of the contacts (`fc`, `tc`, in the frames of
the contacts if they are elastic), and the forces that are not modelled. -/
structure Loaded where
  mass : ℝ
  model : ℕ
  i : Input
  fc : Fin 2 → V3
  tc : Fin 2 → V3
  fm : V3
  tm : V3

/-- The force of contact `k` in the world, if there is such a contact. -/
noncomputable def Loaded.contactForce (l : Loaded) (x : Body) (k : Fin 2) : V3 :=
  (l.i.contacts[k.1]?).elim 0 fun c => x.R *ᵥ (rotationVectorToRotationMatrix c.ori *ᵥ l.fc k)

/-- Its moment about the origin of the world. -/
noncomputable def Loaded.contactMoment (l : Loaded) (x : Body) (k : Fin 2) : V3 :=
  (l.i.contacts[k.1]?).elim 0 fun c => x.R *ᵥ (rotationVectorToRotationMatrix c.ori *ᵥ l.tc k) + (x.p + x.R *ᵥ c.pos) ⨯₃ l.contactForce x k

/-- The total force, without the weight. -/
noncomputable def Loaded.force (l : Loaded) (x : Body) : V3 :=
  (if l.model = 1 then l.contactForce x 0 + l.contactForce x 1 else l.fc 0) + l.fm + x.R *ᵥ l.i.addForce

/-- The total moment about the origin of the world, without the weight. -/
noncomputable def Loaded.moment (l : Loaded) (x : Body) : V3 :=
  (if l.model = 1 then l.contactMoment x 0 + l.contactMoment x 1 else l.tc 0) + l.tm + (x.R *ᵥ l.i.addMoment + x.p ⨯₃ (x.R *ᵥ l.i.addForce))

/-- The acceleration of the centre of mass, when the frame has the accelerations `a`, `α`. -/
def Loaded.comAcc (l : Loaded) (x : Body) (a α : V3) : V3 :=
  a + α ⨯₃ (x.R *ᵥ l.i.com) + x.ω ⨯₃ (x.ω ⨯₃ (x.R *ᵥ l.i.com)) + (2 : ℝ) • (x.ω ⨯₃ (x.R *ᵥ l.i.comd)) + x.R *ᵥ l.i.comdd

/-- The rate of the angular momentum about the origin of the world. -/
def Loaded.momentumRate (l : Loaded) (x : Body) (a α : V3) : V3 :=
  x.R *ᵥ (l.i.inertia *ᵥ (x.Rᵀ *ᵥ α)) + x.R *ᵥ (l.i.inertiad *ᵥ (x.Rᵀ *ᵥ x.ω)) + x.R *ᵥ l.i.sigmad +
    x.ω ⨯₃ (x.R *ᵥ (l.i.inertia *ᵥ (x.Rᵀ *ᵥ x.ω)) + x.R *ᵥ l.i.sigma) + l.mass • ((x.R *ᵥ l.i.com) ⨯₃ a) + x.p ⨯₃ (l.mass • l.comAcc x a α)

/-- The equations of Newton and Euler. -/
def Loaded.NewtonEuler (l : Loaded) (x : Body) (a α : V3) : Prop :=
  l.mass • l.comAcc x a α = l.force x - l.mass • gravityUp ∧
  l.momentumRate x a α = l.moment x - (x.p + x.R *ᵥ l.i.com) ⨯₃ (l.mass • gravityUp)

/-- The robot with the forces and the moments of the contacts exchanged. -/
def Loaded.exchanged (l : Loaded) : Loaded := { l with fc := l.tc, tc := l.fc }

end StateObs.Elastic
