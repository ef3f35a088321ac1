import Verif.KO.Blocks
import Verif.EKF.Model
import Verif.Kin.Model
import Verif.Sensor.Model
import Mathlib.LinearAlgebra.Matrix.NonsingularInverse
/-!
# `KineticsObserver`

src/kinetics-observer.cpp, dynamics-estimators/kinetics-observer.hpp, kinetics-observer.hxx, in a debug build (assertions of the code and of Eigen).

* Numbers of contacts and IMUs are natural numbers. An `int` contact or IMU number is an integer; a comparison `unsigned(n) < max` is false for a negative
  number (it is converted to a number larger than any maximum).
* A member that a constructor leaves uninitialised is an `Option`; reading it before it is written is `ub`.
* `processNoise_` and `measurementNoise_` can only be set by a derived class (protected functions): they are null here.
* The calls of `ekf_` that evaluate the models (`update`) use the observer as functor and as arithmetic, as in the constructor (130-131).
* The scratch object `opt_` is left out: it is always written before it is read. The matrices that `localKine.orientation` and `stateKinematics_.orientation`
  compute and keep in functions that only read them are computed again (see C46).
* NaN values do not exist (real numbers), so that the test of line 322 is always false, and `oldStateVector_` is never used.
* `getEKF()` gives the user the filter itself: calls made on it are not part of the model.
-/

namespace StateObs.KO
open StateObs Matrix Rot Kine KF

abbrev V6 := Fin 6 → ℝ
abbrev M6 := Matrix (Fin 6) (Fin 6) ℝ
abbrev M12 := Matrix (Fin 12) (Fin 12) ℝ

/-- A matrix of fixed size given as `Matrix`. -/
def dm {n : ℕ} (M : Matrix (Fin n) (Fin n) ℝ) : DMat := ⟨n, n, M⟩

/-- Reading a member that may be uninitialised. -/
def rd {α : Type} : Option α → Res α
  | some a => .ok a
  | none => .ub

/-- `IndexedMatrixT<…>` members: value and index, asserts that it is set (definitions.hxx 222-250). -/
def ix {α : Type} : Option (α × Int) → Res (α × Int)
  | some a => .ok a
  | none => .assertFail

/-- `if(b) { m }` in a sequence of assignments, `d` being the value without it. -/
def opt {α : Type} (b : Bool) (m : Res α) (d : α) : Res α := if b then m else .ok d

/-- `flagsStateKine`, hpp 1117. -/
def flagsStateKine : KFlags := ⟨true, true, true, true, false, false⟩
/-- `flagsContactKine`, `flagsPoseKine`, hpp 1120-1122. -/
def flagsPoseKine : KFlags := ⟨true, true, false, false, false, false⟩
/-- `flagsIMUKine`, hpp 1124-1126. -/
def flagsIMUKine : KFlags := ⟨true, true, true, true, true, false⟩
/-- `Contact::localKineFlags`, hpp 893-895. -/
def localKineFlags : KFlags := ⟨true, true, true, true, false, false⟩

/-- `IMU`, hpp 857-867 with `Sensor` 843-855. -/
structure IMU where
  measIndex : Option ℕ
  time : Int
  kin : Kin
  signal : Option V6
  covAcc : Option M3
  covGyro : Option M3

/-- Constructor, hpp 845, 860. -/
def IMU.new : IMU := ⟨none, 0, Kin.new, none, none, none⟩

/-- The four matrices of the viscoelastic model of a contact, hpp 882-885. -/
structure Visco where
  linStiff : M3
  linDamp : M3
  angStiff : M3
  angDamp : M3

/-- `Contact`, hpp 873-898 with `Sensor`. -/
structure Contact where
  measIndex : Option ℕ
  time : Int
  absPose : Kin
  wrench : Option V6
  sensorCov : CItem M6
  visco : Option Visco
  isSet : Bool
  withRealSensor : Bool
  stateIndex : Int
  stateIndexTangent : Int
  localKine : Kin

/-- Constructor, hpp 845, 875. -/
def Contact.new : Contact := ⟨none, 0, Kin.new, none, CItem.new true, none, false, false, -1, -1, Kin.new⟩

/-- `AbsolutePoseSensor`, hpp 904-910. -/
structure AbsPose where
  measIndex : Option ℕ
  time : Int
  pose : Kin
  cov : CItem M6

/-- Data members, hpp 1011-1056, 1168-1200. -/
structure Observer where
  maxContacts : ℕ
  maxIMU : ℕ
  abs : AbsPose
  contacts : List Contact
  imus : List IMU
  measSize : ℕ
  measTangentSize : ℕ
  stateKin : Kin
  x : DVec
  dx : DVec
  addForce : V3
  addTorque : V3
  ekf : KFilter EKF.Ext
  finiteDiff : Bool
  withGyroBias : Bool
  withUnmodeledWrench : Bool
  withAcc : Bool
  com : Option (V3 × Int)
  comd : Option (V3 × Int)
  comdd : Option (V3 × Int)
  sigma : Option (V3 × Int)
  sigmad : Option (V3 × Int)
  inertia : Option (M3 × Int)
  inertiad : Option (M3 × Int)
  kEst : Int
  kData : Int
  mass : ℝ
  dt : ℝ
  nReal : Int
  nIMU : Int
  viscoDefault : Visco
  accCov : M3
  gyroCov : M3
  wrenchCov : M6
  absCov : M6
  gyroBiasInit : M3
  unmodeledInit : M6
  contactInit : M12
  gyroBiasProc : M3
  unmodeledProc : M6
  contactProc : M12
  kineInit : M12
  kineProc : M12

namespace Observer

/-! ## Sizes and indexes -/

/-- `stateSize_`, cpp 91. -/
def stateSize (o : Observer) : ℕ := 19 + o.maxIMU * 3 + o.maxContacts * 13
/-- `stateTangentSize_`, cpp 92. -/
def tangentSize (o : Observer) : ℕ := 18 + o.maxIMU * 3 + 12 * o.maxContacts

/-- `kineIndex`, `posIndex`, hxx 1-8. -/
def kineIndex : ℕ := 0
def posIndex : ℕ := 0
/-- `oriIndex`, hxx 9-12. -/
def oriIndex : ℕ := posIndex + 3
/-- `linVelIndex`, hxx 13-16. -/
def linVelIndex : ℕ := oriIndex + 4
/-- `angVelIndex`, hxx 17-20. -/
def angVelIndex : ℕ := linVelIndex + 3
/-- `gyroBiasIndex`, hxx 21-26. -/
def gyroBiasIndex (o : Observer) (i : ℕ) : Res ℕ := do
  Res.assert (decide (i < o.maxIMU))
  .ok (angVelIndex + 3 + 3 * i)
/-- `unmodeledWrenchIndex`, `unmodeledForceIndex`, hxx 27-34. -/
def unmodeledWrenchIndex (o : Observer) : Res ℕ := do
  let i ← o.gyroBiasIndex 0
  .ok (i + 3 * o.maxIMU)
/-- `unmodeledTorqueIndex`, hxx 39-42. -/
def unmodeledTorqueIndex (o : Observer) : Res ℕ := do
  let i ← o.unmodeledWrenchIndex
  .ok (i + 3)
/-- `contactsIndex`, hxx 35-38. -/
def contactsIndex (o : Observer) : Res ℕ := do
  let i ← o.unmodeledWrenchIndex
  .ok (i + 6)
/-- `contactIndex(unsigned)`, `contactKineIndex`, `contactPosIndex`, hxx 43-58; `contacts_[contactNbr]` is undefined outside the vector. -/
def contactIndex (o : Observer) (n : Int) : Res ℕ := do
  Res.assert (decide (0 ≤ n ∧ n < o.maxContacts))
  let c ← rd (o.contacts[n.toNat]?)
  Res.assert c.isSet
  .ok c.stateIndex.toNat
/-- `contactOriIndex(unsigned)`, hxx 59-62. -/
def contactOriIndex (o : Observer) (n : Int) : Res ℕ := do
  let i ← o.contactIndex n
  .ok (i + 3)
/-- `contactWrenchIndex(unsigned)`, `contactForceIndex`, hxx 63-70. -/
def contactWrenchIndex (o : Observer) (n : Int) : Res ℕ := do
  let i ← o.contactIndex n
  .ok (i + 7)
/-- `contactTorqueIndex(unsigned)`, hxx 71-74. -/
def contactTorqueIndex (o : Observer) (n : Int) : Res ℕ := do
  let i ← o.contactWrenchIndex n
  .ok (i + 3)

/-- `kineIndexTangent`, `posIndexTangent`, hxx 109-116. -/
def kineIndexTangent : ℕ := 0
def posIndexTangent : ℕ := 0
/-- `oriIndexTangent`, hxx 117-120. -/
def oriIndexTangent : ℕ := posIndexTangent + 3
/-- `linVelIndexTangent`, hxx 121-124. -/
def linVelIndexTangent : ℕ := oriIndexTangent + 3
/-- `angVelIndexTangent`, hxx 125-128. -/
def angVelIndexTangent : ℕ := linVelIndexTangent + 3
/-- `gyroBiasIndexTangent`, hxx 129-134. -/
def gyroBiasIndexTangent (o : Observer) (i : ℕ) : Res ℕ := do
  Res.assert (decide (i < o.maxIMU))
  .ok (angVelIndexTangent + 3 + 3 * i)
/-- `unmodeledWrenchIndexTangent`, `unmodeledForceIndexTangent`, hxx 135-142. -/
def unmodeledWrenchIndexTangent (o : Observer) : Res ℕ := do
  let i ← o.gyroBiasIndexTangent 0
  .ok (i + 3 * o.maxIMU)
/-- `unmodeledTorqueIndexTangent`, hxx 147-150. -/
def unmodeledTorqueIndexTangent (o : Observer) : Res ℕ := do
  let i ← o.unmodeledWrenchIndexTangent
  .ok (i + 3)
/-- `contactsIndexTangent`, hxx 143-146. -/
def contactsIndexTangent (o : Observer) : Res ℕ := do
  let i ← o.unmodeledWrenchIndexTangent
  .ok (i + 6)
/-- `contactIndexTangent(unsigned)`, `contactKineIndexTangent`, `contactPosIndexTangent`, hxx 151-166. -/
def contactIndexTangent (o : Observer) (n : Int) : Res ℕ := do
  Res.assert (decide (0 ≤ n ∧ n < o.maxContacts))
  let c ← rd (o.contacts[n.toNat]?)
  Res.assert c.isSet
  .ok c.stateIndexTangent.toNat
/-- `contactOriIndexTangent(unsigned)`, hxx 167-170. -/
def contactOriIndexTangent (o : Observer) (n : Int) : Res ℕ := do
  let i ← o.contactIndexTangent n
  .ok (i + 3)
/-- `contactWrenchIndexTangent(unsigned)`, `contactForceIndexTangent`, hxx 171-178. -/
def contactWrenchIndexTangent (o : Observer) (n : Int) : Res ℕ := do
  let i ← o.contactIndexTangent n
  .ok (i + 6)
/-- `contactTorqueIndexTangent(unsigned)`, hxx 179-182. -/
def contactTorqueIndexTangent (o : Observer) (n : Int) : Res ℕ := do
  let i ← o.contactWrenchIndexTangent n
  .ok (i + 3)

end Observer

/-- `contactIndex(iterator)`, `contactKineIndex`, `contactPosIndex`, hxx 76-90. -/
def Contact.index (c : Contact) : Res ℕ := do
  Res.assert (decide (c.stateIndex > 0))
  .ok c.stateIndex.toNat
/-- `contactIndexTangent(iterator)`, `contactKineIndexTangent`, `contactPosIndexTangent`, hxx 184-197. -/
def Contact.indexTangent (c : Contact) : Res ℕ := do
  Res.assert (decide (c.stateIndexTangent > 0))
  .ok c.stateIndexTangent.toNat

namespace Observer

/-! ## Covariances -/

/-- `Matrix P = ekf_.getStateCovariance(); …; ekf_.setStateCovariance(P);`. -/
def withP (o : Observer) (f : DMat → Res DMat) : Res Observer := do
  let P ← f o.ekf.st.pr
  let e ← KF.setStateCovariance o.ekf P
  .ok { o with ekf := e }
/-- `Matrix P = ekf_.getProcessCovariance(); …; ekf_.setProcessCovariance(P);` (`getQ`, `setQ` are the same). -/
def withQ (o : Observer) (f : DMat → Res DMat) : Res Observer := do
  let P ← f o.ekf.st.q
  let e ← KF.setQ o.ekf P
  .ok { o with ekf := e }

/-- `setStateCovarianceMat`, cpp 1001-1004. -/
def setStateCovarianceMat (o : Observer) (P : DMat) : Res Observer := o.withP fun _ => .ok P
/-- `setKinematicsStateCovariance`, cpp 1006-1011. -/
def setKinematicsStateCovariance (o : Observer) (B : DMat) : Res Observer :=
  o.withP fun P => setBlockStateCovariance 12 P B kineIndexTangent
/-- `setKinematicsInitCovarianceDefault`, cpp 1013-1016 (assignment to a matrix of fixed size). -/
def setKinematicsInitCovarianceDefault (o : Observer) (B : DMat) : Res Observer :=
  if h : B.rows = 12 ∧ B.cols = 12 then .ok { o with kineInit := B.val.submatrix (Fin.cast h.1.symm) (Fin.cast h.2.symm) } else .assertFail
/-- `setGyroBiasStateCovariance`, cpp 1018-1023. -/
def setGyroBiasStateCovariance (o : Observer) (B : M3) (i : ℕ) : Res Observer :=
  o.withP fun P => do
    let j ← o.gyroBiasIndexTangent i
    setBlockStateCovariance 3 P (dm B) j
/-- `setGyroBiasInitCovarianceDefault`, cpp 1025-1028. -/
def setGyroBiasInitCovarianceDefault (o : Observer) (B : M3) : Observer := { o with gyroBiasInit := B }
/-- `setGyroBiasProcessCovariance`, cpp 1030-1035. -/
def setGyroBiasProcessCovariance (o : Observer) (B : M3) (i : ℕ) : Res Observer :=
  o.withQ fun P => do
    let j ← o.gyroBiasIndexTangent i
    setBlockStateCovariance 3 P (dm B) j
/-- `setUnmodeledWrenchStateCovMat`, cpp 1037-1042. -/
def setUnmodeledWrenchStateCovMat (o : Observer) (B : M6) : Res Observer :=
  o.withP fun P => do
    let j ← o.unmodeledWrenchIndexTangent
    setBlockStateCovariance 6 P (dm B) j
/-- `setUnmodeledWrenchInitCovMatDefault`, cpp 1044-1047. -/
def setUnmodeledWrenchInitCovMatDefault (o : Observer) (B : M6) : Observer := { o with unmodeledInit := B }
/-- `setUnmodeledWrenchProcessCovMat`, cpp 1049-1054. -/
def setUnmodeledWrenchProcessCovMat (o : Observer) (B : M6) : Res Observer :=
  o.withQ fun P => do
    let j ← o.unmodeledWrenchIndexTangent
    setBlockStateCovariance 6 P (dm B) j
/-- `setContactStateCovMat`, cpp 1056-1061. -/
def setContactStateCovMat (o : Observer) (n : Int) (B : M12) : Res Observer :=
  o.withP fun P => do
    let j ← o.contactIndexTangent n
    setBlockStateCovariance 12 P (dm B) j
/-- `setContactInitCovMatDefault`, cpp 1063-1066. -/
def setContactInitCovMatDefault (o : Observer) (B : M12) : Observer := { o with contactInit := B }
/-- `setContactProcessCovMat`, cpp 1068-1073. -/
def setContactProcessCovMat (o : Observer) (n : Int) (B : M12) : Res Observer :=
  o.withQ fun P => do
    let j ← o.contactIndexTangent n
    setBlockStateCovariance 12 P (dm B) j
/-- `setProcessNoiseCovarianceMat`, cpp 1080-1083. -/
def setProcessNoiseCovarianceMat (o : Observer) (Q : DMat) : Res Observer := o.withQ fun _ => .ok Q

/-- `resetStateKinematicsCovMat`, cpp 1145-1150. -/
def resetStateKinematicsCovMat (o : Observer) : Res Observer :=
  o.withP fun P => setBlockStateCovariance 12 P (dm o.kineInit) kineIndexTangent
/-- `resetStateGyroBiasCovMat`, cpp 1152-1157. -/
def resetStateGyroBiasCovMat (o : Observer) (i : ℕ) : Res Observer :=
  o.withP fun P => do
    let j ← o.gyroBiasIndexTangent i
    setBlockStateCovariance 3 P (dm o.gyroBiasInit) j
/-- `resetStateUnmodeledWrenchCovMat`, cpp 1159-1164. -/
def resetStateUnmodeledWrenchCovMat (o : Observer) : Res Observer :=
  o.withP fun P => do
    let j ← o.unmodeledWrenchIndexTangent
    setBlockStateCovariance 6 P (dm o.unmodeledInit) j
/-- `resetStateContactCovMat`, cpp 1177-1185. -/
def resetStateContactCovMat (o : Observer) (n : ℕ) : Res Observer :=
  match o.contacts[n]? with
  | none => .assertFail
  | some c => do
    Res.assert c.isSet
    o.withP fun P => setBlockStateCovariance 12 P (dm o.contactInit) c.stateIndexTangent.toNat
/-- The loop body of `resetStateContactsCovMat`, cpp 1168-1174. -/
def resetStateContactIfSet (o : Observer) (n : ℕ) : Res Observer := do
  let c ← rd (o.contacts[n]?)
  if c.isSet then o.resetStateContactCovMat n else .ok o
/-- `resetStateContactsCovMat`, cpp 1166-1175. -/
def resetStateContactsCovMat (o : Observer) : Res Observer := (List.range o.contacts.length).foldlM resetStateContactIfSet o
/-- The loop body of `resetStateCovarianceMat`, cpp 1136-1139. -/
def resetStateGyroBiasIfTime (o : Observer) (i : ℕ) : Res Observer := do
  let m ← rd (o.imus[i]?)
  if m.time = o.kData then o.resetStateGyroBiasCovMat i else .ok o
/-- `resetStateCovarianceMat`, cpp 1131-1143. -/
def resetStateCovarianceMat (o : Observer) : Res Observer := do
  let o ← o.resetStateKinematicsCovMat
  let o ← (List.range o.imus.length).foldlM resetStateGyroBiasIfTime o
  let o ← o.resetStateUnmodeledWrenchCovMat
  o.resetStateContactsCovMat

/-- `resetProcessKinematicsCovMat`, cpp 1198-1203. -/
def resetProcessKinematicsCovMat (o : Observer) : Res Observer :=
  o.withQ fun P => setBlockStateCovariance 12 P (dm o.kineProc) kineIndexTangent
/-- `resetProcessGyroBiasCovMat`, cpp 1205-1210. -/
def resetProcessGyroBiasCovMat (o : Observer) (i : ℕ) : Res Observer :=
  o.withQ fun P => do
    let j ← o.gyroBiasIndexTangent i
    setBlockStateCovariance 3 P (dm o.gyroBiasProc) j
/-- `resetProcessUnmodeledWrenchCovMat`, cpp 1212-1217. -/
def resetProcessUnmodeledWrenchCovMat (o : Observer) : Res Observer :=
  o.withQ fun P => do
    let j ← o.unmodeledWrenchIndexTangent
    setBlockStateCovariance 6 P (dm o.unmodeledProc) j
/-- `resetProcessContactCovMat`, cpp 1235-1243. -/
def resetProcessContactCovMat (o : Observer) (n : ℕ) : Res Observer := do
  Res.assert (decide (n < o.maxContacts))
  let c ← rd (o.contacts[n]?)
  Res.assert c.isSet
  o.withQ fun P => setBlockStateCovariance 12 P (dm o.contactProc) c.stateIndexTangent.toNat
/-- The loop body of `resetProcessContactsCovMat`, cpp 1226-1232. -/
def resetProcessContactIfSet (o : Observer) (n : ℕ) : Res Observer := do
  let c ← rd (o.contacts[n]?)
  if c.isSet then o.resetProcessContactCovMat n else .ok o
/-- `resetProcessContactsCovMat`, cpp 1224-1233. -/
def resetProcessContactsCovMat (o : Observer) : Res Observer := (List.range o.contacts.length).foldlM resetProcessContactIfSet o
/-- `resetProcessCovarianceMat`, cpp 1187-1196. -/
def resetProcessCovarianceMat (o : Observer) : Res Observer := do
  let o ← o.resetProcessKinematicsCovMat
  let o ← (List.range o.imus.length).foldlM resetProcessGyroBiasCovMat o
  let o ← o.resetProcessUnmodeledWrenchCovMat
  o.resetProcessContactsCovMat

/-! ## Construction -/

/-- `updateKine_`, cpp 1337-1340. -/
def updateKine (o : Observer) : Res Observer := do
  let s ← o.x.seg 13 kineIndex
  let k ← o.stateKin.fromVector (List.ofFn s) flagsStateKine
  .ok { o with stateKin := k }

/-- `Matrix3::Identity() * d`. -/
def iso (d : ℝ) : M3 := d • (1 : M3)
/-- `blockMat6(m1, Zero, Zero, m4)`, cpp 16-25. -/
def diag6 (A B : M3) : M6 := fun i j =>
  if h : i.1 < 3 ∧ j.1 < 3 then A ⟨i, h.1⟩ ⟨j, h.2⟩ else if h : 3 ≤ i.1 ∧ 3 ≤ j.1 then B ⟨i - 3, by omega⟩ ⟨j - 3, by omega⟩ else 0
/-- A 12×12 matrix with four 3×3 blocks on the diagonal, cpp 138-160. -/
def diag12 (A B C D : M3) : M12 := fun i j =>
  if i.1 / 3 = j.1 / 3 then
    (if i.1 < 3 then A else if i.1 < 6 then B else if i.1 < 9 then C else D) ⟨i % 3, by omega⟩ ⟨j % 3, by omega⟩
  else 0

/-- Default covariances of the sensors, cpp 103-112, 1245-1253. -/
noncomputable def resetSensorsDefaultCovMat (o : Observer) : Observer :=
  { o with
    accCov := iso 1e-4
    gyroCov := iso 1e-8
    wrenchCov := diag6 (iso 1e-8) (iso 1e-10)
    absCov := diag6 (iso 1e-4) (iso 1e-3) }

/-- The members before the body of the constructor, cpp 89-128, and the assignments of the body 133-136, 138-169, 180. The members `contactForceProcessCovMat_`,
`contactTorqueProcessCovMat_` are initialised with the constants for the initial covariance (127-128). -/
noncomputable def init (maxContacts maxIMU : ℕ) : Observer where
  maxContacts := maxContacts
  maxIMU := maxIMU
  abs := ⟨none, 0, Kin.new, CItem.new true⟩
  contacts := List.replicate maxContacts Contact.new
  imus := List.replicate maxIMU IMU.new
  measSize := 0
  measTangentSize := 0
  stateKin := Kin.new
  x := DVec.zero (19 + maxIMU * 3 + maxContacts * 13)
  dx := ⟨18 + maxIMU * 3 + 12 * maxContacts, fun _ => 1e-6⟩
  addForce := 0
  addTorque := 0
  ekf := EKF.mk (19 + maxIMU * 3 + maxContacts * 13) (18 + maxIMU * 3 + 12 * maxContacts) 0 0 0 false false
  finiteDiff := true
  withGyroBias := true
  withUnmodeledWrench := false
  withAcc := false
  com := none
  comd := some (0, 0)
  comdd := some (0, 0)
  sigma := some (0, 0)
  sigmad := some (0, 0)
  inertia := some (1, 0)
  inertiad := some (0, 0)
  kEst := 0
  kData := 0
  mass := 50
  dt := 1e-6
  nReal := 0
  nIMU := 0
  viscoDefault := ⟨iso 40000, iso 120, iso 400, iso 12⟩
  accCov := iso 1e-4
  gyroCov := iso 1e-8
  wrenchCov := diag6 (iso 1e-8) (iso 1e-10)
  absCov := diag6 (iso 1e-4) (iso 1e-3)
  gyroBiasInit := iso 1e-10
  unmodeledInit := (1e100 : ℝ) • (1 : M6)
  contactInit := diag12 (iso 1e-8) (iso 1e-8) (iso 1e100) (iso 1e100)
  gyroBiasProc := iso 1e-12
  unmodeledProc := (1e-8 : ℝ) • (1 : M6)
  contactProc := diag12 (iso 1e-8) (iso 1e-8) (iso 1e100) (iso 1e100)
  kineInit := diag12 (iso 1e-4) (iso 1e-4) (iso 1e-6) (iso 1e-6)
  kineProc := diag12 (iso 1e-8) (iso 1e-8) (iso 1e-8) (iso 1e-8)

/-- `KineticsObserver(maxContacts, maxNumberOfIMU)`, cpp 89-181. -/
noncomputable def construct (maxContacts maxIMU : ℕ) : Res Observer := do
  let o := init maxContacts maxIMU
  let e ← Obs.setState (KF.cfg o.ekf) o.ekf o.x o.kEst
  let e ← KF.setStateCovariance e (DMat.zero o.tangentSize o.tangentSize)
  let e ← KF.setQ e (DMat.zero o.tangentSize o.tangentSize)
  let e ← KF.setR e (DMat.zero 0 0)
  let o ← resetStateCovarianceMat { o with ekf := e }
  let o ← o.resetProcessCovarianceMat
  o.updateKine

/-! ## Simple setters -/

/-- `setSamplingTime`, cpp 219-222. -/
def setSamplingTime (o : Observer) (dt : ℝ) : Observer := { o with dt := dt }
/-- `setMass`, cpp 224-227. -/
def setMass (o : Observer) (m : ℝ) : Observer := { o with mass := m }
/-- `setAdditionalWrench`, cpp 481-486. -/
def setAdditionalWrench (o : Observer) (f t : V3) : Observer := { o with addForce := f, addTorque := t }
/-- `setWithUnmodeledWrench`, cpp 488-491. -/
def setWithUnmodeledWrench (o : Observer) (b : Bool) : Observer := { o with withUnmodeledWrench := b }
/-- `setWithAccelerationEstimation`, cpp 493-496. -/
def setWithAccelerationEstimation (o : Observer) (b : Bool) : Observer := { o with withAcc := b }
/-- `setWithGyroBias`, cpp 498-501. -/
def setWithGyroBias (o : Observer) (b : Bool) : Observer := { o with withAcc := b }
/-- `setIMUDefaultCovarianceMatrix`, cpp 616-620. -/
def setIMUDefaultCovarianceMatrix (o : Observer) (a g : M3) : Observer := { o with accCov := a, gyroCov := g }
/-- `setContactWrenchSensorDefaultCovarianceMatrix`, cpp 689-692. -/
def setContactWrenchSensorDefaultCovarianceMatrix (o : Observer) (c : M6) : Observer := { o with wrenchCov := c }
/-- `setAbsolutePoseSensorDefaultCovarianceMatrix`, cpp 747-750. -/
def setAbsolutePoseSensorDefaultCovarianceMatrix (o : Observer) (c : M6) : Observer := { o with absCov := c }
/-- `setFiniteDifferenceStep`, cpp 1270-1273. -/
def setFiniteDifferenceStep (o : Observer) (v : DVec) : Observer := { o with dx := v }
/-- `useFiniteDifferencesJacobians`, cpp 1275-1278. -/
def useFiniteDifferencesJacobians (o : Observer) (b : Bool) : Observer := { o with finiteDiff := b }

/-! ## State setters -/

/-- `ekf_.setState(stateVector_, k_est_)`. -/
def pushState (o : Observer) : Res Observer := do
  let e ← Obs.setState (KF.cfg o.ekf) o.ekf o.x o.kEst
  .ok { o with ekf := e }

/-- The loop body of `setStateKinematics`, cpp 411-417. -/
def zeroWrench (x : DVec) (c : Contact) : Res DVec :=
  if c.isSet then do
    let i ← c.index
    x.setSeg 6 (i + 7) 0
  else .ok x

/-- The loop body of `setStateKinematics`, cpp 429-435: a block of size `sizeContact` (13) at the index of the state vector. -/
def resetContactBlock (o : Observer) (P : DMat) (c : Contact) : Res DMat :=
  if c.isSet then do
    let i ← c.index
    setBlockStateCovariance 13 P (dm o.contactInit) i
  else .ok P

/-- The covariance part of `setStateKinematics`, cpp 424-437. -/
def resetKineCov (o : Observer) (resetForces : Bool) : Res Observer :=
  o.withP fun P => do
    let P ← setBlockStateCovariance 12 P (dm o.kineInit) kineIndex
    if resetForces then o.contacts.foldlM (resetContactBlock o) P else .ok P

/-- `setStateKinematics`, cpp 401-439. -/
noncomputable def setStateKinematics (o : Observer) (k : Kin) (resetForces resetCovariance : Bool) : Res Observer := do
  Res.assert (k.pos.isSet dbg && k.ori.isSet && k.linVel.isSet dbg && k.angVel.isSet dbg)
  let r ← k.toVector flagsStateKine
  let x ← o.x.setList 13 kineIndex r.1
  let x ← opt (resetForces) (o.contacts.foldlM zeroWrench x) x
  let o ← pushState { o with stateKin := r.2, x := x }
  if resetCovariance then o.resetKineCov resetForces else .ok o

/-- `setGyroBias`, cpp 441-453. -/
def setGyroBias (o : Observer) (b : V3) (i : ℕ) (resetCovariance : Bool) : Res Observer := do
  let j ← o.gyroBiasIndex i
  let x ← o.x.setSeg 3 j b
  let o ← pushState { o with x := x }
  if resetCovariance then
    o.withP fun P => do
      let j ← o.gyroBiasIndex i
      setBlockStateCovariance 3 P (dm o.gyroBiasInit) j
  else .ok o

/-- `setStateUnmodeledWrench`, cpp 455-467. -/
def setStateUnmodeledWrench (o : Observer) (w : V6) (resetCovariance : Bool) : Res Observer := do
  let j ← o.unmodeledWrenchIndex
  let x ← o.x.setSeg 6 j w
  let o ← pushState { o with x := x }
  if resetCovariance then
    o.withP fun P => do
      let j ← o.unmodeledWrenchIndex
      setBlockStateCovariance 6 P (dm o.unmodeledInit) j
  else .ok o

/-- `setStateVector`, cpp 469-479. -/
def setStateVector (o : Observer) (v : DVec) (resetCovariance : Bool) : Res Observer := do
  let o ← pushState { o with x := v }
  let o ← o.updateKine
  if resetCovariance then o.resetStateCovarianceMat else .ok o

/-! ## Sensors and inputs -/

/-- `startNewIteration_`, cpp 1287-1295. -/
def startNewIteration (o : Observer) : Observer :=
  if o.kEst = o.kData then { o with kData := o.kData + 1, nReal := 0, nIMU := 0 } else o

/-- The loop of the automatic numbering, cpp 511-514, 569-572: `fuel` bounds the number of turns (the loop leaves the vector after `imus.length` turns). -/
def autoIMU (imus : List IMU) (k : Int) : (fuel : ℕ) → ℕ → Res ℕ
  | 0, n => .ok n
  | fuel + 1, n => do
    let m ← rd (imus[n]?)
    if m.time ≠ k ∧ n < imus.length then autoIMU imus k fuel (n + 1) else .ok n

/-- `if(num < 0) …`, cpp 508-515, 566-573. -/
def imuNumber (o : Observer) (num : Int) : Res ℕ :=
  if num < 0 then autoIMU o.imus o.kData (o.imus.length + 2) 0 else .ok num.toNat

/-- `if(!item.isSet()) item.set().setZero();`, cpp 532-543. -/
def orZero (i : CItem V3) : CItem V3 := if i.isSet dbg then i else i.assign 0

/-- The kinematics of an IMU given for the first time, cpp 529-543, 588-602. -/
def firstIMUKin (k : Kin) : Res Kin := do
  Res.assert (k.pos.isSet dbg && k.ori.isSet)
  .ok { k with linVel := orZero k.linVel, angVel := orZero k.angVel, linAcc := orZero k.linAcc }

/-- `Kinematics::update` computes a field by a division by the time step: the velocity from positions, the acceleration from velocities or positions
(rigid-body-kinematics.hxx 1326-1351, 1524-1549). The arguments are those of `Kin.velMethod` and `Kin.accMethod`. -/
def divides (fv fa p v a np nv na : Bool) : Res Bool := do
  let vm ← Kin.velMethod fv p v a np nv
  let am ← Kin.accMethod fa p v a np nv na vm
  .ok (decide (vm = .usePosition ∨ am = .useVelocity ∨ am = .usePosition ∨ am = .usePosAndVel))

open Classical in
/-- `k.update(n, dt, flags)`. A division by a null time step gives infinite or undefined numbers: `ub`. -/
noncomputable def updateKin (k n : Kin) (dt : ℝ) (f : KFlags) : Res Kin := do
  let l ← divides f.linVel f.linAcc (k.pos.isSet dbg) (k.linVel.isSet dbg) (k.linAcc.isSet dbg) (n.pos.isSet dbg) (n.linVel.isSet dbg) (n.linAcc.isSet dbg)
  let a ← divides f.angVel f.angAcc k.ori.isSet (k.angVel.isSet dbg) (k.angAcc.isSet dbg) n.ori.isSet (n.angVel.isSet dbg) (n.angAcc.isSet dbg)
  if dt = 0 ∧ (l || a) = true then .ub else k.update n dt f

/-- Kinematics of an IMU, cpp 525-548, 586-607. -/
noncomputable def newIMUKin (o : Observer) (m : IMU) (k : Kin) : Res Kin :=
  if m.time = 0 then firstIMUKin k else updateKin m.kin k (o.dt * ((o.kData - o.kData : Int) : ℝ)) flagsIMUKine

/-- The assertions of `setIMU` and the IMU they select, cpp 517-521, 575-579. -/
def selectIMU (o : Observer) (n : ℕ) : Res IMU := do
  Res.assert (decide (n < o.maxIMU))
  let m ← rd (o.imus[n]?)
  Res.assert (decide (m.time < o.kData))
  .ok m

/-- `acceleroGyro`, cpp 523-524. -/
def signal6 (a g : V3) : V6 := ![a 0, a 1, a 2, g 0, g 1, g 2]

/-- `setIMU` with given covariances (`cov = some …`, cpp 556-614) or the default ones (`none`, cpp 503-554): the number of the IMU and the observer. In the
second form the covariances are only written the first time. -/
noncomputable def setIMU (o : Observer) (acc gyro : V3) (cov : Option (M3 × M3)) (k : Kin) (num : Int) : Res (ℕ × Observer) := do
  let o := o.startNewIteration
  let n ← o.imuNumber num
  let m ← o.selectIMU n
  let kin ← o.newIMUKin m k
  let (ca, cg) := match cov with
    | some (a, g) => (some a, some g)
    | none => if m.time = 0 then (some o.accCov, some o.gyroCov) else (m.covAcc, m.covGyro)
  .ok (n, { o with
    imus := o.imus.set n { m with signal := some (signal6 acc gyro), covAcc := ca, covGyro := cg, kin := kin, time := o.kData }
    nIMU := o.nIMU + 1 })

/-- The contact of `updateContactWith…`, cpp 629-632, 665-668, 699-702. -/
def selectContact (o : Observer) (n : ℕ) : Res Contact := do
  Res.assert (decide (n < o.maxContacts))
  let c ← rd (o.contacts[n]?)
  Res.assert c.isSet
  .ok c

/-- The kinematics of a contact, cpp 634-641, 670-677, 704-711. -/
noncomputable def newContactKin (o : Observer) (c : Contact) (k : Kin) : Res Kin :=
  if c.time = o.kData - 1 then updateKin c.localKine k o.dt localKineFlags else .ok k

/-- `updateContactWithWrenchSensor`, cpp 622-655 (`cov = none`), 657-687 (`cov = some …`). -/
noncomputable def updateContactWithWrenchSensor (o : Observer) (w : V6) (cov : Option M6) (k : Kin) (n : ℕ) : Res Observer := do
  let o := o.startNewIteration
  let c ← o.selectContact n
  let kin ← o.newContactKin c k
  let sc := match cov with
    | some M => c.sensorCov.assign M
    | none => if c.sensorCov.isSet dbg then c.sensorCov else c.sensorCov.assign o.wrenchCov
  .ok { o with
    contacts := o.contacts.set n { c with localKine := kin, wrench := some w, time := o.kData, sensorCov := sc, withRealSensor := true }
    nReal := if c.withRealSensor then o.nReal else o.nReal + 1 }

/-- `updateContactWithNoSensor`, cpp 694-720. -/
noncomputable def updateContactWithNoSensor (o : Observer) (k : Kin) (n : ℕ) : Res Observer := do
  let o := o.startNewIteration
  let c ← o.selectContact n
  let kin ← o.newContactKin c k
  .ok { o with
    contacts := o.contacts.set n { c with localKine := kin, time := o.kData, withRealSensor := false }
    nReal := if c.withRealSensor then o.nReal - 1 else o.nReal }

/-- `setAbsolutePoseSensor`, cpp 722-745. -/
def setAbsolutePoseSensor (o : Observer) (k : Kin) (cov : Option M6) : Observer :=
  let o := o.startNewIteration
  { o with abs := { o.abs with
      time := o.kData
      pose := k
      cov := match cov with
        | some M => o.abs.cov.assign M
        | none => if o.abs.cov.isSet dbg then o.abs.cov else o.abs.cov.assign o.absCov } }

open Classical in
/-- `tools::derivate`, miscellaneous-algorithms.hpp 32-37; a division by zero gives infinite or undefined numbers: `ub`. -/
noncomputable def derivate {α : Type} [AddCommGroup α] [Module ℝ α] (a b : α) (dt : ℝ) : Res α := if dt = 0 then .ub else .ok ((1 / dt) • (b - a))

/-- `if(item.getTime() < k_data_) d.set(derivate(item(), v, dt_ * (k_data_ - item.getTime())), k_data_)`: the new derivative (cpp 763-766, 816-819,
850-853). -/
noncomputable def derived {α : Type} [AddCommGroup α] [Module ℝ α] (o : Observer) (i d : Option (α × Int)) (v : α) : Res (Option (α × Int)) := do
  let old ← ix i
  if old.2 < o.kData then do
    let e ← derivate old.1 v (o.dt * ((o.kData - old.2 : Int) : ℝ))
    .ok (some (e, o.kData))
  else .ok d

/-- `setInertiaMatrix(I, I_dot)`, cpp 752-757. -/
def setInertiaMatrix2 (o : Observer) (I Id : M3) : Observer :=
  let o := o.startNewIteration
  { o with inertia := some (I, o.kData), inertiad := some (Id, o.kData) }
/-- `setInertiaMatrix(I)`, cpp 759-768. -/
noncomputable def setInertiaMatrix (o : Observer) (I : M3) : Res Observer := do
  let o := o.startNewIteration
  let d ← o.derived o.inertia o.inertiad I
  .ok { o with inertia := some (I, o.kData), inertiad := d }
/-- `fillSymmetricMatrix`, cpp 41-48, with the arguments of 776. -/
def sym6 (v : V6) : M3 := !![v 0, v 3, v 4; v 3, v 1, v 5; v 4, v 5, v 2]
/-- `setInertiaMatrix(Vector6, Vector6)`, cpp 770-781. -/
def setInertiaVector2 (o : Observer) (I Id : V6) : Observer := o.setInertiaMatrix2 (sym6 I) (sym6 Id)
/-- The diagonal and the entries below it, in the order of the arguments of `fillSymmetricMatrix` in cpp 793-795. -/
def lower6 (I : M3) : V6 := ![I 0 0, I 1 1, I 2 2, I 1 0, I 2 0, I 2 1]
/-- `setInertiaMatrix(Vector6)`, cpp 783-801. -/
noncomputable def setInertiaVector (o : Observer) (I : V6) : Res Observer := do
  let o := o.startNewIteration
  let old ← ix o.inertia
  if old.2 < o.kData then do
    let e ← derivate (lower6 old.1) I (o.dt * ((o.kData - old.2 : Int) : ℝ))
    .ok { o with inertia := some (sym6 I, o.kData), inertiad := some (sym6 e, o.kData) }
  else .ok { o with inertia := some (sym6 I, o.kData) }

/-- `setCenterOfMass(com, com_dot, com_dot_dot)`, cpp 803-809. -/
def setCenterOfMass3 (o : Observer) (c d e : V3) : Observer :=
  let o := o.startNewIteration
  { o with com := some (c, o.kData), comd := some (d, o.kData), comdd := some (e, o.kData) }
/-- `setCenterOfMass(com, com_dot)`, cpp 811-821. -/
noncomputable def setCenterOfMass2 (o : Observer) (c d : V3) : Res Observer := do
  let o := o.startNewIteration
  let e ← o.derived o.comd o.comdd d
  .ok { o with com := some (c, o.kData), comd := some (d, o.kData), comdd := e }
/-- `setCenterOfMass(com)`, cpp 823-838. -/
noncomputable def setCenterOfMass (o : Observer) (c : V3) : Res Observer := do
  let o := o.startNewIteration
  let old ← ix o.com
  if old.2 < o.kData then do
    let dt := o.dt * ((o.kData - old.2 : Int) : ℝ)
    let d ← derivate old.1 c dt
    let oldd ← ix o.comd
    let e ← derivate oldd.1 d dt
    .ok { o with com := some (c, o.kData), comd := some (d, o.kData), comdd := some (e, o.kData) }
  else .ok { o with com := some (c, o.kData) }
/-- `setAngularMomentum(sigma, sigma_dot)`, cpp 840-845. -/
def setAngularMomentum2 (o : Observer) (s d : V3) : Observer :=
  let o := o.startNewIteration
  { o with sigma := some (s, o.kData), sigmad := some (d, o.kData) }
/-- `setAngularMomentum(sigma)`, cpp 847-855. -/
noncomputable def setAngularMomentum (o : Observer) (s : V3) : Res Observer := do
  let o := o.startNewIteration
  let d ← o.derived o.sigma o.sigmad s
  .ok { o with sigma := some (s, o.kData), sigmad := d }

/-- `resetInputs`, cpp 1255-1268. -/
def resetInputs (o : Observer) : Observer :=
  { o with
    imus := o.imus.map fun m => { m with time := o.kEst }
    contacts := o.contacts.map fun c => { c with time := o.kEst }
    abs := { o.abs with time := o.kEst } }

/-! ## Contacts -/

/-- The loop of the automatic numbering, cpp 874-877. -/
def autoContact (contacts : List Contact) (max : ℕ) : (fuel : ℕ) → ℕ → Res ℕ
  | 0, n => .ok n
  | fuel + 1, n =>
    if n < max then do
      let c ← rd (contacts[n]?)
      if c.isSet then autoContact contacts max fuel (n + 1) else .ok n
    else .ok n

/-- `if(contactNumber < 0) …`, cpp 870-878. -/
def contactNumber (o : Observer) (num : Int) : Res ℕ :=
  if num < 0 then autoContact o.contacts o.maxContacts (o.maxContacts + 1) 0 else .ok num.toNat

open Classical in
/-- `if(m != Matrix3::Zero()) … = v else … = default`. -/
noncomputable def orDefault (m v d : M3) : M3 := if m ≠ 0 then v else d

/-- The viscoelastic parameters, cpp 901-935; the linear stiffness is chosen by a test on the linear damping (901). -/
noncomputable def newVisco (o : Observer) (v : Visco) : Visco where
  linStiff := orDefault v.linDamp v.linStiff o.viscoDefault.linStiff
  linDamp := orDefault v.linDamp v.linDamp o.viscoDefault.linDamp
  angStiff := orDefault v.angStiff v.angStiff o.viscoDefault.angStiff
  angDamp := orDefault v.angDamp v.angDamp o.viscoDefault.angDamp

/-- `addContact`, cpp 857-951 (`cov = some (initial, process)`), 954-963 (`none`: default ones). Lines 884-888 are not reached in a debug build. -/
noncomputable def addContact (o : Observer) (pose : Kin) (cov : Option (M12 × M12)) (num : Int) (v : Visco) : Res (ℕ × Observer) := do
  let (ci, cp) := cov.getD (o.contactInit, o.contactProc)
  Res.assert (pose.pos.isSet dbg && pose.ori.isSet)
  let n ← o.contactNumber num
  Res.assert (decide (n < o.maxContacts))
  let c ← rd (o.contacts[n]?)
  Res.assert (!c.isSet)
  let si ← o.contactsIndex
  let st ← o.contactsIndexTangent
  let r ← pose.toVector flagsPoseKine
  let x ← o.x.setList 13 (si + n * 13) (r.1 ++ List.replicate 6 0)
  let o := { o with
    contacts := o.contacts.set n { c with
      isSet := true
      stateIndex := (si + n * 13 : ℕ)
      stateIndexTangent := (st + n * 12 : ℕ)
      absPose := pose
      visco := some (newVisco o v) }
    x := x }
  let o ← o.withP fun P => setBlockStateCovariance 12 P (dm ci) (st + n * 12)
  let o ← o.withQ fun Q => setBlockStateCovariance 12 Q (dm cp) (st + n * 12)
  .ok (n, o)

/-- `removeContact`, cpp 965-974; `contacts_[contactNbr]` is undefined outside the vector. -/
def removeContact (o : Observer) (n : Int) : Res Observer := do
  let c ← rd (if n < 0 then none else o.contacts[n.toNat]?)
  Res.assert (!c.isSet)
  .ok { o with
    contacts := o.contacts.set n.toNat { c with isSet := false, withRealSensor := false }
    nReal := if c.withRealSensor then o.nReal - 1 else o.nReal }

/-- `clearContacts`, cpp 976-980. -/
def clearContacts (o : Observer) : Observer := { o with contacts := [], nReal := 0 }

/-- `getNumberOfContacts`, cpp 982-985. -/
def getNumberOfContacts (o : Observer) : ℕ := o.contacts.length

/-- `getListOfContacts`, cpp 987-999. -/
def getListOfContacts (o : Observer) : List ℕ :=
  (List.range o.contacts.length).filter fun i => match o.contacts[i]? with | some c => c.isSet | none => false

/-! ## Getters -/

/-- `getCurrentStateVector`, cpp 349-352. -/
def getCurrentStateVector (o : Observer) : DVec := o.x
/-- `getStateVectorTimeIndex`, cpp 354-357. -/
def getStateVectorTimeIndex (o : Observer) : Res Int := o.ekf.getCurrentTime
/-- `getStateCovarianceMat`, cpp 1075-1078. -/
def getStateCovarianceMat (o : Observer) : DMat := o.ekf.st.pr
/-- `getKinematics`, cpp 359-362. -/
def getKinematics (o : Observer) : Kin := o.stateKin
/-- `getKinematicsOf`, cpp 364-367. -/
def getKinematicsOf (o : Observer) (k : Kin) : Res Kin := do
  let r ← Kin.product o.stateKin k
  .ok r.1
/-- `getContactWrench`, cpp 369-372. -/
def getContactWrench (o : Observer) (n : Int) : Res V6 := do
  let i ← o.contactWrenchIndex n
  o.x.seg 6 i
/-- `getContactPosition`, cpp 374-377 (a segment of size `sizeStateKine`). -/
def getContactPosition (o : Observer) (n : Int) : Res Kin := do
  let i ← o.contactIndex n
  let s ← o.x.seg 13 i
  Kin.new.fromVector (List.ofFn s) flagsPoseKine
/-- `getUnmodeledWrench`, cpp 379-382. -/
def getUnmodeledWrench (o : Observer) : Res V6 := do
  let i ← o.unmodeledWrenchIndex
  o.x.seg 6 i
/-- `getMeasurementSize`, cpp 190-212. A negative number of sensors becomes, as unsigned number, a size that nothing fills: `ub`. -/
def getMeasurementSize (o : Observer) : Res ℕ :=
  if o.kEst ≠ o.kData then
    if o.nReal < 0 then .ub
    else .ok (6 * (o.imus.countP fun m => decide (m.time = o.kData)) + o.nReal.toNat * 6 + (if o.abs.time = o.kData then 7 else 0))
  else .ok 0

end Observer
end StateObs.KO
