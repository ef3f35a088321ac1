import Verif.KO.Model
/-!
# `KineticsObserver`: dynamics, measurements, arithmetic of the states, `update`

src/kinetics-observer.cpp 229-347, 384-399, 1085-1119, 1342-1631.
-/

namespace StateObs.KO
open StateObs Matrix Rot Kine KF

/-- A vector under construction: `Vector y(n)` is not initialised. -/
structure Buf where
  size : ℕ
  val : Fin size → Option ℝ

namespace Buf

/-- `Vector y(n)`. -/
def new (n : ℕ) : Buf := ⟨n, fun _ => none⟩

/-- `y.segment<n>(i) = w`. -/
def setSeg (n : ℕ) (b : Buf) (i : ℕ) (w : Fin n → ℝ) : Res Buf :=
  if i + n ≤ b.size then .ok ⟨b.size, fun j => if h : i ≤ j.1 ∧ j.1 < i + n then some (w ⟨j.1 - i, by omega⟩) else b.val j⟩ else .assertFail

/-- `y.segment<n>(i) = l` for a vector of variable size. -/
def setList (n : ℕ) (b : Buf) (i : ℕ) (l : List ℝ) : Res Buf :=
  if h : l.length = n then setSeg n b i fun j => l.get (Fin.cast h.symm j) else .assertFail

/-- The vector, if all of it has been written. -/
def done (b : Buf) : Res DVec :=
  if ∀ j, (b.val j).isSome then .ok ⟨b.size, fun j => (b.val j).getD 0⟩ else .ub

/-- `d.resize(n)` on a vector that holds `v`: Eigen keeps the content if the size is the same. -/
def resize (v : DVec) (n : ℕ) : Buf :=
  if h : v.size = n then ⟨n, fun j => some (v.val (Fin.cast h.symm j))⟩ else new n

end Buf

/-- `d.segment<n>(i) = v.segment<n>(j) - w.segment<n>(j)`. -/
def diffSeg (n : ℕ) (d : Buf) (i : ℕ) (v w : DVec) (j : ℕ) : Res Buf := do
  let a ← v.seg n j
  let b ← w.seg n j
  d.setSeg n i (a - b)

/-- `o.fromVector4(x.segment<4>(i)); o.integrate(t.segment<3>(j)); sum.segment<4>(i) = o.toVector4()`, cpp 1408-1410, 1431-1433. -/
noncomputable def integrateSeg (sum x : DVec) (i : ℕ) (t : DVec) (j : ℕ) : Res DVec := do
  let q ← x.seg 4 i
  let v ← t.seg 3 j
  let o ← ((Ori.new true).fromVector4 q).integrate v
  let r ← o.toVector4
  sum.setSeg 4 i r.1

/-- `o1.fromVector4(x1.segment<4>(i)); o2.fromVector4(x2.segment<4>(i)); d.segment<3>(j) = o2.differentiate(o1)`, cpp 1446-1448, 1473-1475, 1505-1507. -/
noncomputable def differentiateSeg (d : Buf) (x1 x2 : DVec) (i j : ℕ) : Res Buf := do
  let q1 ← x1.seg 4 i
  let q2 ← x2.seg 4 i
  let v ← ((Ori.new true).fromVector4 q2).differentiate ((Ori.new true).fromVector4 q1)
  d.setSeg 3 j v

namespace Observer

/-! ## Arithmetic of the states -/

/-- The gyrometer biases in `stateSum`, cpp 1414-1420. -/
def sumGyro (o : Observer) (t s : DVec) (i : ℕ) : Res DVec := do
  let a ← o.gyroBiasIndex i
  let b ← o.gyroBiasIndexTangent i
  s.addSeg 3 a t b
/-- The unmodeled wrench in `stateSum`, cpp 1421-1424. -/
def sumWrench (o : Observer) (t s : DVec) : Res DVec := do
  let a ← o.unmodeledWrenchIndex
  let b ← o.unmodeledWrenchIndexTangent
  s.addSeg 6 a t b
/-- A contact in `stateSum`, cpp 1426-1436. -/
noncomputable def sumContact (x t s : DVec) (c : Contact) : Res DVec :=
  if c.isSet then do
    let a ← c.index
    let b ← c.indexTangent
    let s ← s.addSeg 3 a t b
    let s ← integrateSeg s x (a + 3) t (b + 3)
    s.addSeg 6 (a + 7) t (b + 6)
  else .ok s
/-- `stateSum`, cpp 1402-1437. -/
noncomputable def stateSum (o : Observer) (x t : DVec) : Res DVec := do
  let s ← x.addSeg 3 posIndex t posIndexTangent
  let s ← integrateSeg s x oriIndex t oriIndexTangent
  let s ← s.addSeg 6 linVelIndex t linVelIndexTangent
  let s ← opt (o.withGyroBias) ((List.range o.imus.length).foldlM (sumGyro o t) s) s
  let s ← opt (o.withUnmodeledWrench) (o.sumWrench t s) s
  o.contacts.foldlM (sumContact x t) s

/-- The gyrometer biases in `stateDifference`, cpp 1452-1459. -/
def diffGyro (o : Observer) (x1 x2 : DVec) (d : Buf) (i : ℕ) : Res Buf := do
  let a ← o.gyroBiasIndex i
  let b ← o.gyroBiasIndexTangent i
  diffSeg 3 d b x1 x2 a
/-- The unmodeled wrench in `stateDifference`, cpp 1460-1465. -/
def diffWrench (o : Observer) (x1 x2 : DVec) (d : Buf) : Res Buf := do
  let a ← o.unmodeledWrenchIndex
  let b ← o.unmodeledWrenchIndexTangent
  diffSeg 6 d b x1 x2 a
/-- A contact in `stateDifference`, cpp 1467-1480. -/
noncomputable def diffContact (x1 x2 : DVec) (d : Buf) (c : Contact) : Res Buf :=
  if c.isSet then do
    let a ← c.index
    let b ← c.indexTangent
    let d ← diffSeg 3 d b x1 x2 a
    let d ← differentiateSeg d x1 x2 (a + 3) (b + 3)
    diffSeg 6 d (b + 6) x1 x2 (a + 7)
  else .ok d
/-- `stateDifference`, cpp 1439-1481; `old` is the content of the output before the call. -/
noncomputable def stateDifference (o : Observer) (old x1 x2 : DVec) : Res DVec := do
  let d ← diffSeg 3 (Buf.resize old o.tangentSize) posIndexTangent x1 x2 posIndex
  let d ← differentiateSeg d x1 x2 oriIndex oriIndexTangent
  let d ← diffSeg 6 d linVelIndexTangent x1 x2 linVelIndex
  let d ← opt (o.withGyroBias) ((List.range o.imus.length).foldlM (diffGyro o x1 x2) d) d
  let d ← opt (o.withUnmodeledWrench) (o.diffWrench x1 x2 d) d
  let d ← o.contacts.foldlM (diffContact x1 x2) d
  d.done

/-- `stateSum(x, t)` and `stateDifference(x1, x2)` returning a new vector, hxx 215-227. -/
noncomputable def stateDifferenceNew (o : Observer) (x1 x2 : DVec) : Res DVec := o.stateDifference ⟨0, Fin.elim0⟩ x1 x2

/-- `currentMeasurementSize`, cpp 1491; a negative number fails the assertion of `segment`. -/
def sensorSize (o : Observer) : Res ℕ := if 6 * o.nIMU + 6 * o.nReal < 0 then .assertFail else .ok (6 * o.nIMU + 6 * o.nReal).toNat

/-- The pose in `measurementDifference`, cpp 1496-1508. -/
noncomputable def measDiffPose (y1 y2 : DVec) (d : Buf) (n : ℕ) : Res Buf := do
  let d ← diffSeg 3 d n y1 y2 n
  differentiateSeg d y1 y2 (n + 3) (n + 3)

/-- `measurementDifference`, cpp 1483-1509. -/
noncomputable def measurementDifference (o : Observer) (y1 y2 : DVec) : Res DVec := do
  let n ← o.sensorSize
  let d ← diffSeg n (Buf.new o.measTangentSize) 0 y1 y2 0
  let d ← opt (o.abs.time = o.kData) (measDiffPose y1 y2 d n) d
  d.done

/-! ## Dynamics -/

/-- `orientation * v` on the local kinematics of a contact, and its matrix computed and kept. -/
def Contact.rotate (c : Contact) (v : V3) : Res V3 := do
  let r ← c.localKine.ori.rotate v
  .ok r.1

/-- A contact in `addUnmodeledAndContactWrench_`, cpp 1347-1357. -/
def addContactWrench (x : DVec) (w : V3 × V3) (c : Contact) : Res (V3 × V3) :=
  if c.isSet then do
    let i ← c.index
    let f ← x.seg 3 (i + 7)
    let lf ← Contact.rotate c f
    let t ← x.seg 3 (i + 7 + 3)
    let lt ← Contact.rotate c t
    let p ← c.localKine.pos.read dbg
    .ok (w.1 + lf, w.2 + (lt + p ⨯₃ lf))
  else .ok w

/-- `addUnmodeledAndContactWrench_`, cpp 1342-1358. -/
def addUnmodeledAndContactWrench (o : Observer) (x : DVec) (w : V3 × V3) : Res (V3 × V3) := do
  let i ← o.unmodeledWrenchIndex
  let f ← x.seg 3 i
  let j ← o.unmodeledTorqueIndex
  let t ← x.seg 3 j
  o.contacts.foldlM (addContactWrench x) (w.1 + f, w.2 + t)

/-- `cst::gravity`, definitions.hpp. -/
def gravity : V3 := ![0, 0, 9.8]

/-- The input of `computeAccelerations_` besides the kinematics: the values of the indexed members. -/
structure Body where
  com : V3
  comd : V3
  comdd : V3
  sigma : V3
  sigmad : V3
  inertia : M3
  inertiad : M3

/-- `comd_()`, `com_()`, … in `computeAccelerations_`: each of them asserts that the member is set. -/
def body (o : Observer) : Res Body := do
  let cd ← ix o.comd
  let c ← ix o.com
  let I ← ix o.inertia
  let Id ← ix o.inertiad
  let sd ← ix o.sigmad
  let s ← ix o.sigma
  let cdd ← ix o.comdd
  .ok ⟨c.1, cd.1, cdd.1, s.1, sd.1, I.1, Id.1⟩

/-- `corioCentri`, cpp 1368. -/
def corioCentri (b : Body) (Rtw : V3) : V3 := (2 : ℝ) • (Rtw ⨯₃ (b.comd + Rtw ⨯₃ b.com))

/-- The matrix inverted in cpp 1371. -/
def inertiaAtOrigin (b : Body) (m : ℝ) : M3 := b.inertia + m • skewSymmetric2 b.com

/-- The angular acceleration in the local frame, cpp 1371-1373. -/
noncomputable def localAngAcc (b : Body) (m : ℝ) (Rtw F M : V3) : V3 :=
  (inertiaAtOrigin b m)⁻¹ *ᵥ (M - b.inertiad *ᵥ Rtw - b.sigmad - Rtw ⨯₃ (b.inertia *ᵥ Rtw + b.sigma)
    - b.com ⨯₃ (F - m • (b.comdd + corioCentri b Rtw)))

open Classical in
/-- `computeAccelerations_`, cpp 1360-1377: the linear and angular accelerations, and the kinematics, in which the matrix of the orientation has been
computed. A null mass or a singular matrix gives infinite or undefined numbers: `ub`. -/
noncomputable def computeAccelerations (o : Observer) (k : Kin) (F M : V3) : Res (V3 × V3 × Kin) := do
  let R ← k.ori.toMatrix3
  let w ← k.angVel.read dbg
  let Rtw := R.1ᵀ *ᵥ w
  let b ← o.body
  if o.mass = 0 ∨ (inertiaAtOrigin b o.mass).det = 0 then .ub
  else do
    let aa ← R.2.rotate (localAngAcc b o.mass Rtw F M)
    let la ← aa.2.rotate ((1 / o.mass) • F - b.comdd - corioCentri b Rtw + b.com ⨯₃ (R.1ᵀ *ᵥ aa.1))
    .ok (la.1 - gravity, aa.1, { k with ori := la.2 })

/-- The kinematics with their accelerations, from a state vector: cpp 1514-1529, 1577-1591. -/
noncomputable def stateKine (o : Observer) (x : DVec) : Res Kin := do
  let w ← o.addUnmodeledAndContactWrench x (o.addForce, o.addTorque)
  let s ← x.seg 13 kineIndex
  let k ← Kin.new.fromVector (List.ofFn s) flagsStateKine
  let r ← o.computeAccelerations k w.1 w.2
  .ok { r.2.2 with linAcc := r.2.2.linAcc.assign r.1, angAcc := r.2.2.angAcc.assign r.2.1 }

/-- `kine::vectorComponent`, rigid-body-kinematics.hxx 233-236. -/
def vectorComponent (q : Quat) : V3 := ![q.x, q.y, q.z]

/-- The local kinematics of a contact after `addUnmodeledAndContactWrench_` has computed the matrix of its orientation. -/
def Contact.filled (c : Contact) : Res Kin := do
  let o ← c.localKine.ori.fillMatrix
  .ok { c.localKine with ori := o }

/-- A contact in `stateDynamics`, cpp 1536-1564. -/
noncomputable def contactDynamics (a : DVec × Kin) (c : Contact) : Res (DVec × Kin) :=
  if c.isSet then do
    let lk ← Contact.filled c
    let v ← rd c.visco
    let g ← Kin.product a.2 lk
    let inv ← g.2.2.getInverse
    let e ← Kin.product g.1 inv
    let Rcit ← e.2.1.ori.inverse
    let i ← c.index
    let p ← e.1.pos.read dbg
    let pd ← e.1.linVel.read dbg
    let f ← Rcit.rotate (v.linStiff *ᵥ p + v.linDamp *ᵥ pd)
    let x ← a.1.setSeg 3 (i + 7) (-f.1)
    let q ← e.1.ori.toQuaternion
    let w ← e.1.angVel.read dbg
    let t ← f.2.rotate ((0.5 : ℝ) • (v.angStiff *ᵥ vectorComponent q.1) + v.angDamp *ᵥ w)
    let x ← x.setSeg 3 (i + 7 + 3) (-t.1)
    .ok (x, g.2.1)
  else .ok a

/-- `stateDynamics`, cpp 1511-1571 (without process noise). -/
noncomputable def stateDynamics (o : Observer) (x : DVec) : Res DVec := do
  let k ← o.stateKine x
  let k ← k.integrate o.dt
  let r ← k.toVector flagsStateKine
  let x ← x.setList 13 kineIndex r.1
  let a ← o.contacts.foldlM contactDynamics (x, r.2)
  .ok a.1

/-- An IMU in `measureDynamics`, cpp 1597-1612. -/
def measureIMU (o : Observer) (a : Buf × Kin) (m : IMU) : Res (Buf × Kin) :=
  if m.time = o.kData then do
    let g ← Kin.product a.2 m.kin
    let R ← g.1.ori.toMatrix3
    let i ← rd m.measIndex
    let acc ← g.1.linAcc.read dbg
    let y ← a.1.setSeg 3 i (R.1ᵀ *ᵥ (acc + gravity))
    let w ← g.1.angVel.read dbg
    let y ← y.setSeg 3 (i + 3) (R.1ᵀ *ᵥ w)
    .ok (y, g.2.1)
  else .ok a

/-- A contact in `measureDynamics`, cpp 1614-1620. -/
def measureContact (o : Observer) (x : DVec) (y : Buf) (c : Contact) : Res Buf :=
  if c.isSet ∧ c.time = o.kData ∧ c.withRealSensor then do
    let i ← c.index
    let w ← x.seg 6 (i + 7)
    let j ← rd c.measIndex
    y.setSeg 6 j w
  else .ok y

/-- The absolute pose in `measureDynamics`, cpp 1622-1625. -/
noncomputable def measurePose (o : Observer) (k : Int) (y : Buf) (kin : Kin) : Res Buf :=
  if o.abs.time = k then do
    let r ← kin.toVector flagsPoseKine
    let j ← rd o.abs.measIndex
    y.setList 7 j r.1
  else .ok y

/-- `measureDynamics`, cpp 1573-1631 (without measurement noise). -/
noncomputable def measureDynamics (o : Observer) (x : DVec) (k : Int) : Res DVec := do
  let n ← o.getMeasurementSize
  let kin ← o.stateKine x
  let a ← o.imus.foldlM (measureIMU o) (Buf.new n, kin)
  let y ← o.contacts.foldlM (measureContact o x) a.1
  let y ← o.measurePose k y a.2
  y.done

/-- `estimateAccelerations`, cpp 384-399: the new kinematics of the observer, also returned. -/
noncomputable def estimateAccelerations (o : Observer) : Res Observer := do
  let w ← o.addUnmodeledAndContactWrench o.x (o.addForce, o.addTorque)
  let r ← o.computeAccelerations o.stateKin w.1 w.2
  .ok { o with stateKin := { r.2.2 with linAcc := r.2.2.linAcc.assign r.1, angAcc := r.2.2.angAcc.assign r.2.1 } }

/-! ## Measurement and update -/

/-- A sensor vector and its covariance under construction, and `curMeasIndex`. -/
structure Pack where
  y : Buf
  cov : DMat
  cur : ℕ

/-- The IMUs in `update`, cpp 269-283. -/
def packIMUs (kData : Int) : List IMU → Pack → Res (List IMU × Pack)
  | [], p => .ok ([], p)
  | m :: l, p =>
    if m.time = kData then do
      let s ← rd m.signal
      let y ← p.y.setSeg 6 p.cur s
      let ca ← rd m.covAcc
      let cov ← p.cov.setBlock 3 p.cur p.cur (dm ca)
      let cg ← rd m.covGyro
      let cov ← cov.setBlock 3 (p.cur + 3) (p.cur + 3) (dm cg)
      let r ← packIMUs kData l ⟨y, cov, p.cur + 3 + 3⟩
      .ok ({ m with measIndex := some p.cur } :: r.1, r.2)
    else do
      let r ← packIMUs kData l p
      .ok (m :: r.1, r.2)

/-- The contacts in `update`, cpp 285-294. -/
def packContacts : List Contact → Pack → Res (List Contact × Pack)
  | [], p => .ok ([], p)
  | c :: l, p =>
    if c.withRealSensor then do
      let w ← rd c.wrench
      let y ← p.y.setSeg 6 p.cur w
      let M ← c.sensorCov.read dbg
      let cov ← p.cov.setBlock 6 p.cur p.cur (dm M)
      let r ← packContacts l ⟨y, cov, p.cur + 6⟩
      .ok ({ c with measIndex := some p.cur } :: r.1, r.2)
    else do
      let r ← packContacts l p
      .ok (c :: r.1, r.2)

/-- The absolute pose in `update`, cpp 296-305. -/
noncomputable def packPose (o : Observer) (p : Pack) : Res (AbsPose × Pack) :=
  if o.abs.time = o.kData then do
    Res.assert (o.abs.pose.pos.isSet dbg && o.abs.pose.ori.isSet)
    let r ← o.abs.pose.toVector flagsPoseKine
    let y ← p.y.setList 7 p.cur r.1
    let M ← o.abs.cov.read dbg
    let cov ← p.cov.setBlock 6 p.cur p.cur (dm M)
    .ok ({ o.abs with measIndex := some p.cur, pose := r.2 }, ⟨y, cov, p.cur⟩)
  else .ok (o.abs, p)

/-- cpp 233-240: the contacts must have been updated (243-252 are not reached in a debug build). -/
def checkContacts (o : Observer) : Res Unit := Res.assert (o.contacts.all fun c => !c.isSet || decide (c.time = o.kData))

/-- `measurementSize_`, `measurementTangentSize_`, cpp 257-263. A negative sum becomes, as unsigned number, a size that nothing fills: `ub`. -/
def measurementSizes (o : Observer) : Res (ℕ × ℕ) :=
  if 6 * o.nIMU + 6 * o.nReal < 0 then .ub
  else
    let n := (6 * o.nIMU + 6 * o.nReal).toNat
    .ok (if o.abs.time = o.kData then (n + 7, n + 6) else (n, n))

/-- The measurement vector and its covariance, cpp 229-305: the observer with the indexes of the sensors, the vector, the covariance. An entry of the vector
that is not written is `ub` (the code keeps what the vector held if it had the same size). -/
noncomputable def buildMeasurement (o : Observer) : Res (Observer × DVec × DMat) := do
  o.checkContacts
  let n ← o.measurementSizes
  let i ← packIMUs o.kData o.imus ⟨Buf.new n.1, DMat.zero n.2 n.2, 0⟩
  let c ← packContacts o.contacts i.2
  let a ← o.packPose c.2
  let y ← a.2.y.done
  .ok ({ o with measSize := n.1, measTangentSize := n.2, imus := i.1, contacts := c.1, abs := a.1 }, y, a.2.cov)

/-- The observer as functor, cpp 130. -/
noncomputable def functor (o : Observer) : EKF.Functor := ⟨fun x _ _ => o.stateDynamics x, fun x _ k => o.measureDynamics x k⟩
/-- The observer as arithmetic, cpp 131. -/
noncomputable def arith (o : Observer) : Arith := ⟨o.stateSum, o.stateDifference, o.measurementDifference⟩
/-- The filter whose functor and arithmetic are the observer in its present state. -/
noncomputable def bound (o : Observer) (e : KFilter EKF.Ext) : KFilter EKF.Ext :=
  { e with st := { e.st with arith := o.arith, ext := { e.st.ext with f := some o.functor } } }

/-- The calls on the filter in `update`, cpp 307-320 (`computeAMatrix_`, `computeCMatrix_`, 1327-1335, are the finite differences as well). -/
noncomputable def runFilter (o : Observer) (y : DVec) (cov : DMat) : Res (KFilter EKF.Ext) := do
  let e := KF.setMeasureSize2 (o.bound o.ekf) o.measSize o.measTangentSize
  let e ← Obs.setMeasurement (KF.cfg e) e y o.kData
  let e ← KF.setR e cov
  let A ← EKF.getAMatrixFD e o.dx
  let e ← KF.setA A.2 A.1
  let C ← EKF.getCMatrixFD e o.dx
  let e ← KF.setC C.2 C.1
  EKF.getEstimatedState e o.kData

/-- The end of `update`, cpp 320, 335-343. -/
noncomputable def afterFilter (o : Observer) (e : KFilter EKF.Ext) : Res Observer := do
  let x ← val e.x
  let o ← updateKine { o with ekf := e, x := x, kEst := o.kEst + 1, stateKin := o.stateKin.reset }
  if o.withAcc then o.estimateAccelerations else .ok o

/-- `update`, cpp 229-347. -/
noncomputable def update (o : Observer) : Res Observer :=
  if o.kEst ≠ o.kData then do
    let m ← o.buildMeasurement
    let e ← m.1.runFilter m.2.1 m.2.2
    m.1.afterFilter e
  else .ok o

/-- The IMUs in `getMeasurementVector`, cpp 1091-1098. -/
def vectorIMU (o : Observer) (a : Buf × ℕ) (m : IMU) : Res (Buf × ℕ) :=
  if m.time = o.kData then do
    let s ← rd m.signal
    let y ← a.1.setSeg 6 a.2 s
    .ok (y, a.2 + 6)
  else .ok a
/-- The contacts in `getMeasurementVector`, cpp 1100-1110. -/
def vectorContact (o : Observer) (a : Buf × ℕ) (c : Contact) : Res (Buf × ℕ) :=
  if c.isSet ∧ c.time = o.kData ∧ c.withRealSensor then do
    let w ← rd c.wrench
    let y ← a.1.setSeg 6 a.2 w
    .ok (y, a.2 + 6)
  else .ok a
/-- The pose in `getMeasurementVector`, cpp 1112-1116. -/
noncomputable def vectorPose (o : Observer) (a : Buf × ℕ) : Res (Buf × Kin) :=
  if o.abs.time = o.kData then do
    let r ← o.abs.pose.toVector flagsPoseKine
    let y ← a.1.setList 7 a.2 r.1
    .ok (y, r.2)
  else .ok (a.1, o.abs.pose)
/-- `getMeasurementVector`, cpp 1085-1119: the vector and the observer (the quaternion of the pose may have been computed). -/
noncomputable def getMeasurementVector (o : Observer) : Res (DVec × Observer) := do
  let n ← o.getMeasurementSize
  if o.kEst ≠ o.kData then do
    let a ← o.imus.foldlM (vectorIMU o) (Buf.new n, 0)
    let a ← o.contacts.foldlM (vectorContact o) a
    let r ← o.vectorPose a
    let y ← r.1.done
    .ok (y, { o with abs := { o.abs with pose := r.2 } })
  else .ok (DVec.zero 0, o)

end Observer
end StateObs.KO
