import Verif.Tools.SplitModel
/-!
# Logs (C138)

The vectors of the logs by their parts.
-/

namespace StateObs.Tools

variable {β : Type}

/-- The input of the elastic system at an instant: thirteen parts, and twelve numbers for each contact. -/
structure InputRow (β : Type) where
  posCom : List β
  velCom : List β
  accCom : List β
  inertia : List β
  angMoment : List β
  dotInertia : List β
  dotAngMoment : List β
  posIMU : List β
  oriIMU : List β
  linVelIMU : List β
  angVelIMU : List β
  linAccIMU : List β
  additionalForces : List β
  contacts : List (List β)

/-- The vector of the log. -/
def InputRow.vec (r : InputRow β) : List β :=
  r.posCom ++ r.velCom ++ r.accCom ++ r.inertia ++ r.angMoment ++ r.dotInertia ++ r.dotAngMoment ++ r.posIMU ++ r.oriIMU ++ r.linVelIMU ++ r.angVelIMU ++ r.linAccIMU ++
    r.additionalForces ++ r.contacts.flatten

/-- The sizes of the parts; at most two contacts. -/
structure InputRow.Sized (r : InputRow β) : Prop where
  posCom : r.posCom.length = 3
  velCom : r.velCom.length = 3
  accCom : r.accCom.length = 3
  inertia : r.inertia.length = 6
  angMoment : r.angMoment.length = 3
  dotInertia : r.dotInertia.length = 6
  dotAngMoment : r.dotAngMoment.length = 3
  posIMU : r.posIMU.length = 3
  oriIMU : r.oriIMU.length = 3
  linVelIMU : r.linVelIMU.length = 3
  angVelIMU : r.angVelIMU.length = 3
  linAccIMU : r.linAccIMU.length = 3
  additionalForces : r.additionalForces.length = 6
  contacts : r.contacts.length ≤ 2 ∧ ∀ c ∈ r.contacts, c.length = 12

/-- What a file of contacts or of forces should hold for contact `i`: the number of contacts, and the values for this contact if there is one. -/
def entry (num : Nat → β) (l : List (List β)) (i : Nat) : List β := num l.length :: (l[i]?).getD []

/-- The files of a log of inputs. -/
def inputFiles (num : Nat → β) (k : Int) (rows : List (InputRow β)) : List (IArr (List β)) :=
  [⟨k, rows.map (·.posCom)⟩, ⟨k, rows.map (·.velCom)⟩, ⟨k, rows.map (·.accCom)⟩, ⟨k, rows.map (·.inertia)⟩, ⟨k, rows.map (·.angMoment)⟩, ⟨k, rows.map (·.dotInertia)⟩,
    ⟨k, rows.map (·.dotAngMoment)⟩, ⟨k, rows.map (·.posIMU)⟩, ⟨k, rows.map (·.oriIMU)⟩, ⟨k, rows.map (·.linVelIMU)⟩, ⟨k, rows.map (·.angVelIMU)⟩, ⟨k, rows.map (·.linAccIMU)⟩,
    ⟨k, rows.map (·.additionalForces)⟩, ⟨k, rows.map fun r => entry num r.contacts 0⟩, ⟨k, rows.map fun r => entry num r.contacts 1⟩]

/-- **C138**, full statement for the inputs. -/
def C138_inputs_statement (β : Type) (num : Nat → β) : Prop :=
  ∀ (k : Int) (rows : List (InputRow β)), rows ≠ [] → (∀ r ∈ rows, r.Sized) → splitInputs num ⟨k, rows.map InputRow.vec⟩ = .ok (inputFiles num k rows)

/-- The measurement at an instant: the accelerometer, the gyrometer, and the wrench at each contact. -/
structure MeasRow (β : Type) where
  acc : List β
  gyro : List β
  forces : List (List β)

def MeasRow.vec (r : MeasRow β) : List β := r.acc ++ r.gyro ++ r.forces.flatten

structure MeasRow.Sized (r : MeasRow β) : Prop where
  acc : r.acc.length = 3
  gyro : r.gyro.length = 3
  forces : r.forces.length ≤ 2 ∧ ∀ c ∈ r.forces, c.length = 6

/-- The files of a log of measurements. -/
def measFiles (num : Nat → β) (k : Int) (rows : List (MeasRow β)) : List (IArr (List β)) :=
  [⟨k, rows.map (·.acc)⟩, ⟨k, rows.map (·.gyro)⟩, ⟨k, rows.map fun r => entry num r.forces 0⟩, ⟨k, rows.map fun r => entry num r.forces 1⟩]

/-- The state of the elastic system. -/
structure StateRow (β : Type) where
  pos : List β
  ori : List β
  linVel : List β
  angVel : List β
  fc1 : List β
  fc2 : List β
  unmodeledForces : List β
  comBias : List β
  drift : List β

def StateRow.vec (r : StateRow β) : List β := r.pos ++ r.ori ++ r.linVel ++ r.angVel ++ r.fc1 ++ r.fc2 ++ r.unmodeledForces ++ r.comBias ++ r.drift

/-- The sizes of the parts of the state (`state::size` is 35). -/
structure StateRow.Sized (r : StateRow β) : Prop where
  pos : r.pos.length = 3
  ori : r.ori.length = 3
  linVel : r.linVel.length = 3
  angVel : r.angVel.length = 3
  fc1 : r.fc1.length = 6
  fc2 : r.fc2.length = 6
  unmodeledForces : r.unmodeledForces.length = 6
  comBias : r.comBias.length = 2
  drift : r.drift.length = 3

/-- The files of a log of states, `bias` being what is in the file of the bias. -/
def stateFiles (bias : StateRow β → List β) (k : Int) (rows : List (StateRow β)) : List (IArr (List β)) :=
  [⟨k, rows.map (·.pos)⟩, ⟨k, rows.map (·.ori)⟩, ⟨k, rows.map (·.linVel)⟩, ⟨k, rows.map (·.angVel)⟩, ⟨k, rows.map (·.fc1)⟩, ⟨k, rows.map (·.fc2)⟩,
    ⟨k, rows.map (·.unmodeledForces)⟩, ⟨k, rows.map bias⟩, ⟨k, rows.map (·.drift)⟩]

/-- **C138**, full statement for the states. -/
def C138_states_statement (β : Type) : Prop :=
  ∀ (k : Int) (rows : List (StateRow β)), rows ≠ [] → (∀ r ∈ rows, r.Sized) → splitStates ⟨k, rows.map StateRow.vec⟩ = .ok (stateFiles (·.comBias) k rows)

end StateObs.Tools
