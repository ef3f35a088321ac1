import Verif.KO.ClientSpec
import Verif.KO.NewtonSpec
/-!
# Specification of the predicted state (C106)
-/

namespace StateObs.KO
open StateObs Matrix Rot Kine

/-- The entry of a state vector. -/
def entry (x : DVec) (i : ℕ) : ℝ := if h : i < x.size then x.val ⟨i, h⟩ else 0

/-! The components of a state vector of an observer with `ni` IMUs: see C53 for their places. -/

def statePos (x : DVec) : V3 := at3 x 0
def stateOri (x : DVec) : Quat := ⟨entry x 6, entry x 3, entry x 4, entry x 5⟩
def stateLinVel (x : DVec) : V3 := at3 x 7
def stateAngVel (x : DVec) : V3 := at3 x 10
def stateBias (i : ℕ) (x : DVec) : V3 := at3 x (13 + 3 * i)
def stateForce (ni : ℕ) (x : DVec) : V3 := at3 x (13 + 3 * ni)
def stateTorque (ni : ℕ) (x : DVec) : V3 := at3 x (16 + 3 * ni)
def contactPos (ni n : ℕ) (x : DVec) : V3 := at3 x (19 + 3 * ni + 13 * n)
def contactOri (ni n : ℕ) (x : DVec) : Quat :=
  ⟨entry x (19 + 3 * ni + 13 * n + 6), entry x (19 + 3 * ni + 13 * n + 3), entry x (19 + 3 * ni + 13 * n + 4), entry x (19 + 3 * ni + 13 * n + 5)⟩
def contactForce (ni n : ℕ) (x : DVec) : V3 := at3 x (19 + 3 * ni + 13 * n + 7)
def contactTorque (ni n : ℕ) (x : DVec) : V3 := at3 x (19 + 3 * ni + 13 * n + 10)

/-- A frame in the world: position, orientation, velocities. -/
structure Placed where
  p : V3
  R : M3
  v : V3
  w : V3

/-- The robot, in a state vector. -/
noncomputable def robotOf (x : DVec) : Placed := ⟨statePos x, (stateOri x).toMat, stateLinVel x, stateAngVel x⟩

/-- A frame with the kinematics `l` in the frame `r`. -/
def Placed.comp (r l : Placed) : Placed := ⟨r.p + r.R *ᵥ l.p, r.R * l.R, r.v + r.w ⨯₃ (r.R *ᵥ l.p) + r.R *ᵥ l.v, r.w + r.R *ᵥ l.w⟩

/-- The force that the spring and the damper of a contact at `c`, with the rest position `p0`, apply, in the frame of the contact. -/
def SpringForce (vi : Visco) (c : Placed) (p0 F : V3) : Prop := F = -(c.Rᵀ *ᵥ (vi.linStiff *ᵥ (c.p - p0) + vi.linDamp *ᵥ c.v))

/-- Their torque, with the rest orientation `R0`: the turn from `R0` to the orientation of the contact is given by half the vector of its quaternion. -/
def SpringTorque (vi : Visco) (c : Placed) (R0 : M3) (T : V3) : Prop :=
  ∃ q : Quat, q.normSq = 1 ∧ q.toMat = c.R * R0ᵀ ∧ T = -(c.Rᵀ *ᵥ ((0.5 : ℝ) • (vi.angStiff *ᵥ ![q.x, q.y, q.z]) + vi.angDamp *ᵥ c.w))

/-- A client that can ask for an estimation has reached the observer `o`. -/
structure Predicts (nc ni : ℕ) (c : Client) (o : Observer) : Prop where
  run : ∃ o0 l, Observer.construct nc ni = .ok o0 ∧ Client.Run nc ni Client.new l c ∧ Op.run o0 l = .ok o
  dyn : c.Dynamics
  known : c.ContactsKnown

/-- The contact `n` of the observer has the gains `vi` and the kinematics `l` in the robot. -/
def ContactIs (o : Observer) (n : ℕ) (vi : Visco) (l : Placed) : Prop :=
  ∃ k x y, o.contacts[n]? = some k ∧ k.isSet = true ∧ k.visco = some vi ∧ k.localKine.Has ⟨some l.p, some l.R, some l.v, some l.w, x, y⟩

/-- What is expected of the predicted wrench of a contact: the one of a spring and a damper between the contact and its rest pose. -/
def C106_statement : Prop := ∀ (nc ni : ℕ) (c : Client) (o : Observer) (x' : DVec) (n : ℕ) (vi : Visco) (l : Placed),
  Predicts nc ni c o → Client.StateVector nc ni o.getCurrentStateVector → o.stateDynamics o.getCurrentStateVector = .ok x' → ContactIs o n vi l →
    SpringForce vi ((robotOf x').comp l) (contactPos ni n x') (contactForce ni n x') ∧
    SpringTorque vi ((robotOf x').comp l) (contactOri ni n x').toMat (contactTorque ni n x')

end StateObs.KO
