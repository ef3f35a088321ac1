import Verif.EKF.Model
import Verif.Imu.Model
import Verif.Rot.Model
/-!
# The flexibility estimator with fixed contacts

src/ekf-flexibility-estimator-base.cpp and src/fixed-contact-ekf-flex-estimator-imu.cpp. The extended Kalman filter is the one of
`Verif/EKF/Model.lean`, the functor the one of `Verif/Imu/Model.lean`. Real numbers have no NaN, so the branch of
ekf-flexibility-estimator-base.cpp 120-129 (state containing NaN) is not modelled.
-/

namespace StateObs.Flex
open StateObs KF Imu Rot Kine Matrix

/-- A list as a vector. -/
def ofList (l : List ℝ) : DVec := ⟨l.length, fun i => l.get i⟩

/-- `functor_`, an `IMUFixedContactDynamicalSystem` with sampling period `dt` and contacts `c`, as seen by the filter. The quaternion and
sensor it stores between calls do not change its answers (theorem `C72_transparent`), so each call is made on a new one. The sizes are
asserted (`assertStateVector_`, `assertInputVector_`; imu-fixed-contact-dynamical-system.cpp 26, 72, 85). -/
noncomputable def functor (dt : ℝ) (c : List V3) : EKF.Functor where
  stateDynamics x _ _ :=
    if h : x.size = 18 then do
      let (y, _, _) ← Imu.stateDynamics .fixed ({ Imu.ctor dt with contacts := c } : Sys Unit) (fun i => x.val (Fin.cast h.symm i)) 0 ()
      .ok ⟨18, y⟩
    else .assertFail
  measureDynamics x u k :=
    if h : x.size = 18 then
      if h' : u.size = 15 then do
        let (y, _, _) ← Imu.measureDynamics .fixed ({ Imu.ctor dt with contacts := c } : Sys Unit) (fun i => x.val (Fin.cast h.symm i))
          (fun i => u.val (Fin.cast h'.symm i)) k ()
        .ok (ofList y)
      else .assertFail
    else .assertFail

/-- Members of `EKFFlexibilityEstimatorBase` (ekf-flexibility-estimator-base.hpp 145-153). -/
structure Base where
  ekf : KFilter EKF.Ext
  fd : Bool
  dx : DVec
  lastX : DVec
  k : Int

/-- The members of `FixedContactEKFFlexEstimatorIMU` (fixed-contact-ekf-flex-estimator-imu.hpp 100-110): the sampling period and the contacts
are those of `functor_`; `dt` is `dt_`, which the constructor does not initialise. -/
structure Fixed extends Base where
  dtF : ℝ
  contacts : List V3
  vcov : ℝ
  R : DMat
  Q : DMat
  dt : Option ℝ

/-- `ekf_.setMeasurement(y, k_ + 1)`, ekf-flexibility-estimator-base.cpp 31-34. -/
def Base.setMeasurement (b : Base) (y : DVec) : Res Base := do
  let f ← Obs.setMeasurement (cfg b.ekf) b.ekf y (b.k + 1)
  .ok { b with ekf := f }

/-- `setFlexibilityCovariance`, ekf-flexibility-estimator-base.cpp 21-24. -/
def Base.setFlexibilityCovariance (b : Base) (P : DMat) : Res Base := do
  let f ← setStateCovariance b.ekf P
  .ok { b with ekf := f }

/-- `setInput`, ekf-flexibility-estimator-base.cpp 76-79. -/
def Base.setInput (b : Base) (u : DVec) : Res Base := do
  let f ← Obs.setInput (cfg b.ekf) b.ekf u b.k
  .ok { b with ekf := f }

/-- `if(ekf_.getInputsNumber() == 0) ekf_.setInput(u, k_);`, ekf-flexibility-estimator-base.cpp 83. -/
def Base.firstInput (b : Base) (u : DVec) : Res (KFilter EKF.Ext) :=
  if b.ekf.u.size = 0 then Obs.setInput (cfg b.ekf) b.ekf u b.k else .ok b.ekf

/-- `setMeasurementInput`, ekf-flexibility-estimator-base.cpp 81-85. -/
def Base.setMeasurementInput (b : Base) (u : DVec) : Res Base := do
  let f ← b.firstInput u
  let f ← Obs.setInput (cfg f) f u (b.k + 1)
  .ok { b with ekf := f }

/-- The Jacobians by finite differences, ekf-flexibility-estimator-base.cpp 106-110. -/
noncomputable def jacobians (fd : Bool) (dx : DVec) (f : KFilter EKF.Ext) : Res (KFilter EKF.Ext) :=
  if fd then do
    let (A, f) ← EKF.getAMatrixFD f dx
    let f ← setA f A
    let (C, f) ← EKF.getCMatrixFD f dx
    setC f C
  else .ok f

/-- The loop of ekf-flexibility-estimator-base.cpp 104-112: `n` iterations starting with time `i`. -/
noncomputable def estimate (fd : Bool) (dx : DVec) : Nat → Int → KFilter EKF.Ext → Res (KFilter EKF.Ext)
  | 0, _, f => .ok f
  | n + 1, i, f => do
    let f ← jacobians fd dx f
    let f ← EKF.getEstimatedState f i
    estimate fd dx n (i + 1) f

/-- `getFlexibilityVector` of the base class, ekf-flexibility-estimator-base.cpp 97-132. The vector returned is `lastX` after the call. -/
noncomputable def Base.getFlexibilityVector (b : Base) : Res Base :=
  if b.ekf.y.size > 0 then do
    let k ← b.ekf.getMeasurementTime
    let t ← b.ekf.getCurrentTime
    let f ← estimate b.fd b.dx (k - t).toNat (t + 1) b.ekf
    let f ← EKF.getEstimatedState f k
    let x ← val f.x
    .ok { b with ekf := f, k := k, lastX := x }
  else .ok b

/-- The matrix given to the filter by `updateCovarianceMatrix_`, fixed-contact-ekf-flex-estimator-imu.cpp 168-174, for a measurement of
size `m`: the identity, then the block of the user, then the diagonal from 6 on. -/
noncomputable def fullR (m : ℕ) (R : Matrix (Fin 6) (Fin 6) ℝ) (c : ℝ) : Matrix (Fin m) (Fin m) ℝ :=
  setDiag (setBlock (1 : Matrix (Fin m) (Fin m) ℝ) 0 0 R) 6 6 (m - 6) c

/-- `updateCovarianceMatrix_`, fixed-contact-ekf-flex-estimator-imu.cpp 166-177. The assignment to the block asserts the size of `R_` and that
the block is inside. -/
noncomputable def Fixed.updateCovarianceMatrix (s : Fixed) : Res Fixed :=
  if h : (s.R.rows = 6 ∧ s.R.cols = 6) ∧ 6 ≤ s.ekf.st.mt then do
    let f ← setR s.ekf ⟨s.ekf.st.mt, s.ekf.st.mt,
      fullR s.ekf.st.mt (s.R.val.submatrix (Fin.cast h.1.1.symm) (Fin.cast h.1.2.symm)) s.vcov⟩
    .ok { s with ekf := f }
  else .assertFail

/-- The default `R_`, fixed-contact-ekf-flex-estimator-imu.cpp 50-52. -/
noncomputable def defaultR : Matrix (Fin 6) (Fin 6) ℝ :=
  setBlock (setBlock (1 : Matrix (Fin 6) (Fin 6) ℝ) 0 0 ((1e-6 : ℝ) • (1 : M3))) 3 3 ((1e-6 : ℝ) • (1 : M3))

/-- Lines 58-61 and 67-70 of fixed-contact-ekf-flex-estimator-imu.cpp: `c` on the diagonal of the velocities, `d` on that of the accelerations. -/
noncomputable def withBlocks (M : Matrix (Fin 18) (Fin 18) ℝ) (c d : ℝ) : Matrix (Fin 18) (Fin 18) ℝ :=
  setBlock (setBlock (setBlock (setBlock M iLinVel iLinVel (c • (1 : M3))) iAngVel iAngVel (c • (1 : M3))) iLinAcc iLinAcc (d • (1 : M3)))
    iAngAcc iAngAcc (d • (1 : M3))

/-- The default `Q_`, fixed-contact-ekf-flex-estimator-imu.cpp 56-61. -/
noncomputable def defaultQ : Matrix (Fin 18) (Fin 18) ℝ := withBlocks ((1e-8 : ℝ) • 1) 1e-4 1e-2

/-- The initial covariance of `resetCovarianceMatrices`, fixed-contact-ekf-flex-estimator-imu.cpp 65-70. -/
noncomputable def defaultP : Matrix (Fin 18) (Fin 18) ℝ := withBlocks ((1e-2 : ℝ) • 1) 1e-2 1e-2

/-- `resetCovarianceMatrices`, fixed-contact-ekf-flex-estimator-imu.cpp 48-73 (`getQmatrixIdentity` is 18x18, the tangent size never changes). -/
noncomputable def Fixed.resetCovarianceMatrices (s : Fixed) : Res Fixed := do
  let s ← { s with R := ⟨6, 6, defaultR⟩ }.updateCovarianceMatrix
  let f ← setQ s.ekf ⟨18, 18, defaultQ⟩
  let f ← setStateCovariance f ⟨18, 18, defaultP⟩
  .ok { s with Q := ⟨18, 18, defaultQ⟩, ekf := f }

/-- Step of the finite differences, fixed-contact-ekf-flex-estimator-imu.cpp 25-28. -/
noncomputable def defaultDx : Fin 18 → ℝ :=
  setSeg (setSeg (fun _ => 1e-8) iOri (fun _ : Fin 3 => (1e-4 : ℝ))) iAngVel (fun _ : Fin 3 => (1e-4 : ℝ))

/-- `ekf_.setFunctor(&functor_)`: the filter holds a pointer, so it sees every change of the contacts. -/
noncomputable def Fixed.sync (s : Fixed) : Fixed := { s with ekf := EKF.setFunctor s.ekf (functor s.dtF s.contacts) }

/-- The constructor, fixed-contact-ekf-flex-estimator-imu.cpp 12-41. -/
noncomputable def ctor (dt : ℝ) : Res Fixed := do
  let f := EKF.mk 18 18 6 6 15 true true
  let f := EKF.setDirectInputStateFeedthrough f false
  let f := setMeasureSize f 6
  let s : Fixed := ⟨⟨f, true, ⟨18, fun _ => 1e-8⟩, ⟨0, 0⟩, 0⟩, dt, [], 1e-10, .empty, .empty, none⟩
  let s ← s.resetCovarianceMatrices
  let s := { s with fd := true, dx := ⟨18, defaultDx⟩, lastX := DVec.zero 18 }
  let f ← Obs.setState (cfg s.ekf) s.ekf (DVec.zero 18) 0
  let f ← setStateCovariance f s.Q
  .ok { s with ekf := f }.sync

/-- `setContactsNumber`, fixed-contact-ekf-flex-estimator-imu.cpp 75-80 with imu-fixed-contact-dynamical-system.cpp 177-181. -/
noncomputable def Fixed.setContactsNumber (s : Fixed) (n : ℕ) : Res Fixed :=
  let s := { s with contacts := s.contacts.take n ++ List.replicate (n - s.contacts.length) 0 }.sync
  { s with ekf := setMeasureSize s.ekf (6 + 3 * n) }.updateCovarianceMatrix

/-- `setContactPosition`, fixed-contact-ekf-flex-estimator-imu.cpp 82-85 with imu-fixed-contact-dynamical-system.cpp 183-188. -/
noncomputable def Fixed.setContactPosition (s : Fixed) (i : ℕ) (p : V3) : Res Fixed := do
  Res.assert (decide (i < s.contacts.length))
  .ok { s with contacts := s.contacts.set i p }.sync

/-- `setMeasurement`, fixed-contact-ekf-flex-estimator-imu.cpp 87-94: the six numbers followed by zeros. Assigning to `y2.head(6)` asserts
that the vector is long enough. -/
noncomputable def Fixed.setMeasurement (s : Fixed) (y : DVec) : Res Fixed :=
  if h : y.size = 6 ∧ 6 ≤ s.ekf.st.m then do
    let y2 : DVec := ⟨s.ekf.st.m, setSeg 0 0 fun i => y.val (Fin.cast h.1.symm i)⟩
    let f ← Obs.setMeasurement (cfg s.ekf) s.ekf y2 (s.k + 1)
    .ok { s with ekf := f }
  else .assertFail

/-- `setVirtualMeasurementsCovariance`, fixed-contact-ekf-flex-estimator-imu.cpp 96-100. -/
noncomputable def Fixed.setVirtualMeasurementsCovariance (s : Fixed) (c : ℝ) : Res Fixed := { s with vcov := c }.updateCovarianceMatrix

/-- `setMeasurementNoiseCovariance`, fixed-contact-ekf-flex-estimator-imu.cpp 140-148. -/
noncomputable def Fixed.setMeasurementNoiseCovariance (s : Fixed) (R : DMat) : Res Fixed := do
  Res.assert (R.hasSize 6 6)
  { s with R := R }.updateCovarianceMatrix

/-- `setProcessNoiseCovariance`, fixed-contact-ekf-flex-estimator-imu.cpp 150-154. -/
def Fixed.setProcessNoiseCovariance (s : Fixed) (Q : DMat) : Res Fixed := do
  let f ← setQ s.ekf Q
  .ok { s with Q := Q, ekf := f }

/-- `setFlexibilityGuess`, fixed-contact-ekf-flex-estimator-imu.cpp 107-138. `checkStateVector` (observer-base.cpp 28-31) is about the
rows and one column. `Vector x0 = x` (line 118) asserts in Eigen that the matrix has a single row or column. -/
noncomputable def Fixed.setFlexibilityGuess (s : Fixed) (x : DMat) : Res Fixed := do
  let bstate := x.hasSize s.ekf.st.n 1
  let b6 := x.hasSize 6 1
  let bhomogeneous := x.hasSize 4 4
  Res.assert (bstate || b6 || bhomogeneous)
  Res.assert (decide (x.rows = 1 ∨ x.cols = 1))
  if h : x.cols = 1 then
    let x0 : DVec := ⟨x.rows, fun i => x.val i (Fin.cast h.symm 0)⟩
    if bstate then
      let f ← Obs.setState (cfg s.ekf) s.ekf x0 s.k
      .ok { s with ekf := f }
    else
      let x1 : Fin s.ekf.st.n → ℝ := setSeg (setSeg 0 iPos (seg 3 x0.val 0)) iOri (seg 3 x0.val 3)
      let f ← Obs.setState (cfg s.ekf) s.ekf ⟨s.ekf.st.n, x1⟩ s.k
      let f ← setQ f s.Q
      .ok { s with ekf := f }
  else .assertFail

/-- `getFlexibilityVector`, fixed-contact-ekf-flex-estimator-imu.cpp 205-217. The segments of `lastX_` assert its size. The vector
returned is `lastX` after the call. -/
noncomputable def Fixed.getFlexibilityVector (s : Fixed) : Res Fixed :=
  if s.ekf.y.size > 0 then do
    let b ← s.toBase.getFlexibilityVector
    if h : b.lastX.size = 18 then
      let x : Fin 18 → ℝ := fun i => b.lastX.val (Fin.cast h.symm i)
      let o ← regulateOrientationVector (seg 3 x iOri)
      let x : DVec := ⟨18, setSeg x iOri o⟩
      let t ← b.ekf.getCurrentTime
      let f ← Obs.setState (cfg b.ekf) b.ekf x t
      .ok { s with toBase := { b with ekf := f, lastX := x } }
    else .assertFail
  else .ok s

/-- `getFlexibility`, fixed-contact-ekf-flex-estimator-imu.cpp 194-203. -/
noncomputable def Fixed.getFlexibility (s : Fixed) : Res (Matrix (Fin 4) (Fin 4) ℝ × Fixed) := do
  let s ← s.getFlexibilityVector
  if h : s.lastX.size = 18 then
    let x : Fin 18 → ℝ := fun i => s.lastX.val (Fin.cast h.symm i)
    .ok (vector6ToHomogeneousMatrix (seg 3 x iPos) (seg 3 x iOri), s)
  else .assertFail

/-- `setSamplingPeriod`, fixed-contact-ekf-flex-estimator-imu.cpp 219-222. -/
def Fixed.setSamplingPeriod (s : Fixed) (dt : ℝ) : Fixed := { s with dt := some dt }

/-- `getSimulatedMeasurement`, ekf-flexibility-estimator-base.cpp 144-150 (virtual call of `getFlexibilityVector`), with
kalman-filter-base.cpp 381-384 (`getEstimatedState` at the current time returns the state). -/
noncomputable def Fixed.getSimulatedMeasurement (s : Fixed) : Res (DVec × Fixed) := do
  let s ← s.getFlexibilityVector
  let t ← s.ekf.getCurrentTime
  let x ← val s.ekf.x
  let (y, u) ← EKF.simulateSensor s.ekf x t
  .ok (y, { s with ekf := { s.ekf with st := { s.ekf.st with ext := { s.ekf.st.ext with optU := u } } } })

/-- The public methods. -/
inductive Op where
  | setContactsNumber (n : ℕ)
  | setContactPosition (i : ℕ) (p : V3)
  | setMeasurement (y : DVec)
  | setVirtualMeasurementsCovariance (c : ℝ)
  | setMeasurementNoiseCovariance (R : DMat)
  | setProcessNoiseCovariance (Q : DMat)
  | setFlexibilityGuess (x : DMat)
  | setFlexibilityCovariance (P : DMat)
  | setInput (u : DVec)
  | setMeasurementInput (u : DVec)
  | resetCovarianceMatrices
  | setSamplingPeriod (dt : ℝ)
  | getFlexibilityVector
  | getFlexibility
  | getSimulatedMeasurement
  | getPrediction
  | getPredictedMeasurement

/-- The effect of a call. `getPrediction`, `getPredictedMeasurement`: ekf-flexibility-estimator-base.cpp 157-165. -/
noncomputable def exec (s : Fixed) : Op → Res Fixed
  | .setContactsNumber n => s.setContactsNumber n
  | .setContactPosition i p => s.setContactPosition i p
  | .setMeasurement y => s.setMeasurement y
  | .setVirtualMeasurementsCovariance c => s.setVirtualMeasurementsCovariance c
  | .setMeasurementNoiseCovariance R => s.setMeasurementNoiseCovariance R
  | .setProcessNoiseCovariance Q => s.setProcessNoiseCovariance Q
  | .setFlexibilityGuess x => s.setFlexibilityGuess x
  | .setFlexibilityCovariance P => do .ok { s with toBase := ← s.toBase.setFlexibilityCovariance P }
  | .setInput u => do .ok { s with toBase := ← s.toBase.setInput u }
  | .setMeasurementInput u => do .ok { s with toBase := ← s.toBase.setMeasurementInput u }
  | .resetCovarianceMatrices => s.resetCovarianceMatrices
  | .setSamplingPeriod dt => .ok (s.setSamplingPeriod dt)
  | .getFlexibilityVector => s.getFlexibilityVector
  | .getFlexibility => do .ok (← s.getFlexibility).2
  | .getSimulatedMeasurement => do .ok (← s.getSimulatedMeasurement).2
  | .getPrediction => do .ok { s with ekf := ← EKF.updateStatePrediction s.ekf }
  | .getPredictedMeasurement => do .ok { s with ekf := ← EKF.updateStateAndMeasurementPrediction s.ekf }

end StateObs.Flex
