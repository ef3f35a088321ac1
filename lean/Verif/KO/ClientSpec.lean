import Verif.KO.Ops
import Verif.KO.PsdInv
import Verif.Kin.Spec
/-!
# A client of the kinetics observer (C84)

What a client that uses IMUs and contacts without sensors knows from its own calls, and the calls it may make. Nothing here refers to the members of the observer.
-/

namespace StateObs.KO
open StateObs Matrix Rot Kine KF

/-- What the client knows. -/
structure Client where
  /-- the sampling time (the constructor takes 1e-6) -/
  dt : ℝ
  /-- the mass (the constructor takes 50) -/
  mass : ℝ
  /-- the centre of mass, once given -/
  com : Option V3
  /-- the inertia (the constructor takes the identity) -/
  inertia : M3
  /-- a state has been given -/
  state : Bool
  /-- data have been given since the last `update` -/
  pending : Bool
  /-- the IMUs given since the last `update` -/
  given : Finset ℕ
  /-- the IMUs ever given -/
  seen : Finset ℕ
  /-- the contacts that have been added -/
  contacts : Finset ℕ
  /-- the contacts whose kinematics have been given since the last `update` -/
  moved : Finset ℕ
  /-- the contacts whose kinematics had been given at the last `update` -/
  known : Finset ℕ
  /-- the number of estimations -/
  steps : ℕ

namespace Client

/-- After the construction. -/
noncomputable def new : Client := ⟨1e-6, 50, none, 1, false, false, ∅, ∅, ∅, ∅, ∅, 0⟩

/-- Data of an iteration. -/
def feed (c : Client) : Client := if c.pending then c else { c with pending := true, given := ∅, moved := ∅ }

/-- The part of the inertia that multiplies the angular acceleration: `I + m [c]ₓ²`. -/
def effective (I : M3) (m : ℝ) (c : V3) : M3 := I + m • (!![0, -c 2, c 1; c 2, 0, -c 0; -c 1, c 0, 0] * !![0, -c 2, c 1; c 2, 0, -c 0; -c 1, c 0, 0])

/-- The accelerations can be computed. -/
def Dynamics (c : Client) : Prop := c.mass ≠ 0 ∧ ∃ p, c.com = some p ∧ (effective c.inertia c.mass p).det ≠ 0

/-- The kinematics of all the contacts are known. -/
def ContactsKnown (c : Client) : Prop := ∀ n ∈ c.contacts, n ∈ c.known ∨ (c.pending = true ∧ n ∈ c.moved)

/-- Calls that need nothing and do not change what the client knows. -/
inductive Keeps (nc ni : ℕ) (c : Client) : Op → Prop where
  | additionalWrench (f t) : Keeps nc ni c (.setAdditionalWrench f t)
  | withUnmodeledWrench (b) : Keeps nc ni c (.setWithUnmodeledWrench b)
  | withAcceleration (b) : Keeps nc ni c (.setWithAccelerationEstimation b)
  | withGyroBias (b) : Keeps nc ni c (.setWithGyroBias b)
  | jacobians (b) : Keeps nc ni c (.useFiniteDifferencesJacobians b)
  | step (v) (h : v.size = 18 + ni * 3 + 12 * nc) : Keeps nc ni c (.setFiniteDifferenceStep v)
  | imuDefault (a g) (ha : a.PosDef) (hg : g.PosDef) : Keeps nc ni c (.setIMUDefaultCovarianceMatrix a g)
  | wrenchDefault (B) (h : B.PosSemidef) : Keeps nc ni c (.setContactWrenchSensorDefaultCovarianceMatrix B)
  | poseDefault (B) (h : B.PosSemidef) : Keeps nc ni c (.setAbsolutePoseSensorDefaultCovarianceMatrix B)
  | sensorsDefault : Keeps nc ni c .resetSensorsDefaultCovMat
  | kineInit (B : M12) (h : B.PosSemidef) : Keeps nc ni c (.setKinematicsInitCovarianceDefault (dm B))
  | gyroInit (B) (h : B.PosSemidef) : Keeps nc ni c (.setGyroBiasInitCovarianceDefault B)
  | wrenchInit (B) (h : B.PosSemidef) : Keeps nc ni c (.setUnmodeledWrenchInitCovMatDefault B)
  | contactInit (B) (h : B.PosSemidef) : Keeps nc ni c (.setContactInitCovMatDefault B)
  | stateCov (P : Matrix (Fin (18 + ni * 3 + 12 * nc)) (Fin (18 + ni * 3 + 12 * nc)) ℝ) (h : P.PosSemidef) : Keeps nc ni c (.setStateCovarianceMat ⟨_, _, P⟩)
  | processCov (P : Matrix (Fin (18 + ni * 3 + 12 * nc)) (Fin (18 + ni * 3 + 12 * nc)) ℝ) (h : P.PosSemidef) : Keeps nc ni c (.setProcessNoiseCovarianceMat ⟨_, _, P⟩)
  | kineCov (B : M12) (h : B.PosSemidef) : Keeps nc ni c (.setKinematicsStateCovariance (dm B))
  | gyroCov (B) (i) (hi : i < ni) (h : B.PosSemidef) : Keeps nc ni c (.setGyroBiasStateCovariance B i)
  | gyroProc (B) (i) (hi : i < ni) (h : B.PosSemidef) : Keeps nc ni c (.setGyroBiasProcessCovariance B i)
  | wrenchCov (B) (h : B.PosSemidef) : Keeps nc ni c (.setUnmodeledWrenchStateCovMat B)
  | wrenchProc (B) (h : B.PosSemidef) : Keeps nc ni c (.setUnmodeledWrenchProcessCovMat B)
  | contactCov (B) (n : ℕ) (hn : n ∈ c.contacts) (h : B.PosSemidef) : Keeps nc ni c (.setContactStateCovMat n B)
  | contactProc (B) (n : ℕ) (hn : n ∈ c.contacts) (h : B.PosSemidef) : Keeps nc ni c (.setContactProcessCovMat n B)
  | resetState : Keeps nc ni c .resetStateCovarianceMat
  | resetStateKine : Keeps nc ni c .resetStateKinematicsCovMat
  | resetStateGyro (i) (hi : i < ni) : Keeps nc ni c (.resetStateGyroBiasCovMat i)
  | resetStateWrench : Keeps nc ni c .resetStateUnmodeledWrenchCovMat
  | resetStateContacts : Keeps nc ni c .resetStateContactsCovMat
  | resetStateContact (n) (hn : n ∈ c.contacts) : Keeps nc ni c (.resetStateContactCovMat n)
  | resetProcess : Keeps nc ni c .resetProcessCovarianceMat
  | resetProcessKine : Keeps nc ni c .resetProcessKinematicsCovMat
  | resetProcessGyro (i) (hi : i < ni) : Keeps nc ni c (.resetProcessGyroBiasCovMat i)
  | resetProcessWrench : Keeps nc ni c .resetProcessUnmodeledWrenchCovMat
  | resetProcessContacts : Keeps nc ni c .resetProcessContactsCovMat
  | resetProcessContact (n) (hn : n ∈ c.contacts) : Keeps nc ni c (.resetProcessContactCovMat n)

/-- The state vector has the right size, and the quaternion at the entries 3 to 6 is a unit one. -/
def StateVector (nc ni : ℕ) (v : DVec) : Prop :=
  ∃ f : ℕ → ℝ, v = ⟨19 + ni * 3 + nc * 13, fun i => f i⟩ ∧ f 3 ^ 2 + f 4 ^ 2 + f 5 ^ 2 + f 6 ^ 2 = 1

/-- The calls a client may make, and what it knows afterwards. -/
inductive Step (nc ni : ℕ) : Client → Op → Client → Prop where
  | keeps {c op} (h : Keeps nc ni c op) : Step nc ni c op c
  | samplingTime {c} (dt) : Step nc ni c (.setSamplingTime dt) { c with dt := dt }
  | mass {c} (m) : Step nc ni c (.setMass m) { c with mass := m }
  | inertia2 {c} (I Id) : Step nc ni c (.setInertiaMatrix2 I Id) { c.feed with inertia := I }
  | inertia {c} (I) (hdt : c.dt ≠ 0) : Step nc ni c (.setInertiaMatrix I) { c.feed with inertia := I }
  | inertiaVector2 {c} (I Id : V6) : Step nc ni c (.setInertiaVector2 I Id) { c.feed with inertia := !![I 0, I 3, I 4; I 3, I 1, I 5; I 4, I 5, I 2] }
  | inertiaVector {c} (I : V6) (hdt : c.dt ≠ 0) : Step nc ni c (.setInertiaVector I) { c.feed with inertia := !![I 0, I 3, I 4; I 3, I 1, I 5; I 4, I 5, I 2] }
  | com3 {c} (p v a) : Step nc ni c (.setCenterOfMass3 p v a) { c.feed with com := some p }
  | com2 {c} (p v) (hdt : c.dt ≠ 0) : Step nc ni c (.setCenterOfMass2 p v) { c.feed with com := some p }
  | com {c} (p) (hdt : c.dt ≠ 0) (h : c.com ≠ none) : Step nc ni c (.setCenterOfMass p) { c.feed with com := some p }
  | momentum2 {c} (s d) : Step nc ni c (.setAngularMomentum2 s d) c.feed
  | momentum {c} (s) (hdt : c.dt ≠ 0) : Step nc ni c (.setAngularMomentum s) c.feed
  /-- A state vector with a unit quaternion. -/
  | stateVector {c} (v r) (h : StateVector nc ni v) : Step nc ni c (.setStateVector v r) { c with state := true }
  /-- The kinematics of the state; the covariance can be reset with the forces only when there is no contact. -/
  | kinematics {c} (k f r) (b : Value) (hk : k.Has b) (hp : b.pos ≠ none) (ho : b.ori ≠ none) (hv : b.linVel ≠ none) (hw : b.angVel ≠ none)
      (hr : r = true → f = false ∨ c.contacts = ∅) : Step nc ni c (.setStateKinematics k f r) { c with state := true }
  | gyroBias {c} (b i r) (hi : i < ni) : Step nc ni c (.setGyroBias b i r) c
  /-- The unmodeled wrench; the covariance can be reset only when the observer has a place for a contact. -/
  | unmodeledWrench {c} (w r) (hr : r = true → 0 < nc) : Step nc ni c (.setStateUnmodeledWrench w r) c
  /-- The data of an IMU, once in an iteration; the velocities and the acceleration of its frame may be missing the first time. -/
  | imu {c} (a g cov k) (n : ℕ) (b : Value) (hn : n < ni) (h1 : n ∉ c.feed.given) (hk : k.Has b) (hp : b.pos ≠ none) (ho : b.ori ≠ none)
      (hv : n ∈ c.seen → b.linVel ≠ none ∧ b.angVel ≠ none ∧ b.linAcc ≠ none) (hcov : ∀ p ∈ cov, p.1.PosDef ∧ p.2.PosDef) :
      Step nc ni c (.setIMU a g cov k n) { c.feed with given := insert n c.feed.given, seen := insert n c.seen }
  /-- A contact is added at a free place. -/
  | addContact {c} (k cov) (n : ℕ) (v) (b : Value) (hn : n < nc) (h1 : n ∉ c.contacts) (hk : k.Has b) (hp : b.pos ≠ none) (ho : b.ori ≠ none)
      (hcov : ∀ p ∈ cov, p.1.PosSemidef ∧ p.2.PosSemidef) : Step nc ni c (.addContact k cov n v) { c with contacts := insert n c.contacts }
  /-- The kinematics of a contact; the velocities may be missing if the contact was there at the last estimation and has not been moved since. -/
  | contact {c} (k) (n : ℕ) (b : Value) (hn : n ∈ c.contacts) (hk : k.Has b) (hp : b.pos ≠ none) (ho : b.ori ≠ none)
      (hv : (b.linVel ≠ none ∧ b.angVel ≠ none) ∨ (c.dt ≠ 0 ∧ n ∈ c.known ∧ n ∉ c.feed.moved)) :
      Step nc ni c (.updateContactWithNoSensor k n) { c.feed with moved := insert n c.feed.moved }
  /-- Nothing to do. -/
  | updateIdle {c} (h : c.pending = false) : Step nc ni c .update c
  /-- An estimation: the kinematics of all the contacts have been given. -/
  | update {c} (h : c.pending = true) (hs : c.state = true) (hd : c.Dynamics) (hc : c.contacts ⊆ c.moved) :
      Step nc ni c .update { c with pending := false, given := ∅, moved := ∅, known := c.contacts, steps := c.steps + 1 }
  | accelerations {c} (hs : c.state = true) (hd : c.Dynamics) (hc : c.ContactsKnown) : Step nc ni c .estimateAccelerations c

/-- A history of such calls. -/
inductive Run (nc ni : ℕ) : Client → List Op → Client → Prop where
  | nil (c) : Run nc ni c [] c
  | cons {c c1 c2 op l} (h : Step nc ni c op c1) (t : Run nc ni c1 l c2) : Run nc ni c (op :: l) c2

end Client
end StateObs.KO
