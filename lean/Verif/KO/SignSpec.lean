import Verif.KO.PredictSpec
/-!
# Specification of the sign of the quaternions (C140)
-/

namespace StateObs.KO
open StateObs Matrix Rot Kine

/-- The opposite quaternion, which gives the same orientation. -/
def opposite (q : Quat) : Quat := ⟨-q.w, -q.x, -q.y, -q.z⟩

/-- The state vectors describe the same situation, except for the torques of the contacts: their quaternions are equal or opposite, and the rest is equal. -/
structure SameButTorques (nc ni : ℕ) (x y : DVec) : Prop where
  pos : statePos y = statePos x
  ori : stateOri y = stateOri x ∨ stateOri y = opposite (stateOri x)
  linVel : stateLinVel y = stateLinVel x
  angVel : stateAngVel y = stateAngVel x
  bias : ∀ i < ni, stateBias i y = stateBias i x
  force : stateForce ni y = stateForce ni x
  torque : stateTorque ni y = stateTorque ni x
  restPos : ∀ n < nc, contactPos ni n y = contactPos ni n x
  restOri : ∀ n < nc, contactOri ni n y = contactOri ni n x ∨ contactOri ni n y = opposite (contactOri ni n x)
  contactForce : ∀ n < nc, contactForce ni n y = contactForce ni n x

/-- The state vectors describe the same situation. -/
def SameSituation (nc ni : ℕ) (x y : DVec) : Prop := SameButTorques nc ni x y ∧ ∀ n < nc, contactTorque ni n y = contactTorque ni n x

/-- The user gave the orientation of the contact in the robot as a quaternion. -/
def HeldAsQuaternion (o : Observer) (n : ℕ) : Prop := ∃ k, o.contacts[n]? = some k ∧ k.localKine.ori.isQuaternionSet = true

/-- The full claim: the prediction does not depend on which of the two quaternions of an orientation is in the state. -/
def C140_statement : Prop := ∀ (nc ni : ℕ) (c : Client) (o : Observer) (x y x' y' : DVec), Predicts nc ni c o → Client.StateVector nc ni x → Client.StateVector nc ni y →
  SameSituation nc ni x y → o.stateDynamics x = .ok x' → o.stateDynamics y = .ok y' → SameSituation nc ni x' y'

end StateObs.KO
