import Verif.Elastic.Model
import Verif.EKF.Model
/-!
# The flexibility estimator on a robot with elastic contacts

src/model-base-ekf-flex-estimator-imu.cpp and src/ekf-flexibility-estimator-base.cpp. The functor of the filter is the system of `Verif/Elastic/Model.lean`,
which stores the arguments of its last calls and computes Jacobians for them; so it is kept, with its state, in the extension of the filter, and the predictions of
extended-kalman-filter.cpp are repeated here for such a functor. Real numbers have no NaN, so the branch of lines 398-408 (state containing NaN) is not
modelled. The content of memory that has not been initialised is arbitrary: it is given by `mem`, for each allocation.
-/

namespace StateObs.ModelFlex
open StateObs KF Imu Rot Kine Matrix

/-- The functor and `opt.u_`. The flags of feedthrough of the filter are both set (extended-kalman-filter.hpp 60-64) and its input size is at least 48. -/
structure Ext where
  sys : Elastic.Sys Unit
  optU : DVec

abbrev Filter := KFilter Ext

/-- `prediction_`, extended-kalman-filter.cpp 86-105. -/
noncomputable def prediction (s : Filter) (k : Int) : Res Filter :=
  if EKF.notCached s.st.xbar k then do
    Res.assert (decide (s.u.size > 0) && s.u.checkIndex (k - 1))
    let u ← s.u.get (k - 1)
    match s.x with
    | some (x, _) => do
      let (v, sys, _) ← s.st.ext.sys.stateDynamics x u ()
      .ok { s with st := { s.st with xbar := some (v, k), ext := ⟨sys, u⟩ } }
    | none => .assertFail
  else .ok s

/-- `simulateSensor_`, extended-kalman-filter.cpp 118-143. -/
noncomputable def simulateSensor (s : Filter) (x : DVec) (k : Int) : Res (DVec × Filter) := do
  Res.assert (s.u.checkIndex k)
  let u ← s.u.get k
  let (y, sys, _) ← s.st.ext.sys.measureDynamics x u k ()
  .ok (y, { s with st := { s.st with ext := ⟨sys, u⟩ } })

/-- `predictSensor_`, extended-kalman-filter.cpp 107-116. -/
noncomputable def predictSensor (s : Filter) (k : Int) : Res Filter :=
  if EKF.notCached s.st.ybar k then do
    let xb ← val s.st.xbar
    let (y, s) ← simulateSensor s xb k
    .ok { s with st := { s.st with ybar := some (y, k) } }
  else .ok s

/-- The virtual functions of the filter. -/
noncomputable def virt : Virt Ext := ⟨prediction, predictSensor⟩

/-- `updateStatePrediction`, kalman-filter-base.hpp 384-388. -/
noncomputable def updateStatePrediction (s : Filter) : Res Filter := do
  let k ← s.getCurrentTime
  prediction s (k + 1)

/-- `updateStateAndMeasurementPrediction`, kalman-filter-base.hpp 390-395. -/
noncomputable def updateStateAndMeasurementPrediction (s : Filter) : Res Filter := do
  let s ← updateStatePrediction s
  let k ← s.getCurrentTime
  predictSensor s (k + 1)

/-- The members of `EKFFlexibilityEstimatorBase` (ekf-flexibility-estimator-base.hpp 145-153) and of `ModelBaseEKFFlexEstimatorIMU` (model-base-ekf-flex-estimator-imu.hpp
243-277). `functor_` is in the filter. `dt_`, `inputSize_`, `x_` and `op_` are not read. `mem` is the content of uninitialised memory for each allocation, `allocs`
the number of allocations made. -/
structure Est where
  ekf : Filter
  fd : Bool
  dx : DVec
  lastX : DVec
  k : Int
  R : DMat
  Q : DMat
  P : DMat
  on : Bool
  unmodeledVar : ℝ
  forceVar : DMat
  absVar : ℝ
  useFT : Bool
  withAbs : Bool
  withBias : Bool
  withUnmodeled : Bool
  limT : V3
  limF : V3
  limOn : Bool
  mem : ℕ → ℕ → ℕ → ℝ
  allocs : ℕ

/-- `functor_`. -/
def Est.sys (s : Est) : Elastic.Sys Unit := s.ekf.st.ext.sys

/-- A call to `functor_`. -/
def Est.setSys (s : Est) (f : Elastic.Sys Unit) : Est := { s with ekf := { s.ekf with st := { s.ekf.st with ext := { s.ekf.st.ext with sys := f } } } }

/-! ## Covariances -/

/-- `M.block(r, c, h, w) = B` on coefficients. -/
def setBlk (f : ℕ → ℕ → ℝ) (r c h w : ℕ) (B : ℕ → ℕ → ℝ) : ℕ → ℕ → ℝ :=
  fun i j => if (r ≤ i ∧ i < r + h) ∧ c ≤ j ∧ j < c + w then B (i - r) (j - c) else f i j

/-- The coefficients of a matrix, and `junk` outside of it: `conservativeResize`. -/
def coeff (M : DMat) (junk : ℕ → ℕ → ℝ) (i j : ℕ) : ℝ := if h : i < M.rows ∧ j < M.cols then M.val ⟨i, h.1⟩ ⟨j, h.2⟩ else junk i j

/-- A multiple of the identity. -/
noncomputable def scalar (c : ℝ) (i j : ℕ) : ℝ := if i = j then c else 0

/-- The matrix of size `m` with given coefficients. -/
def square (m : ℕ) (f : ℕ → ℕ → ℝ) : DMat := ⟨m, m, fun i j => f i j⟩

/-- The loop on the contacts, model-base-ekf-flex-estimator-imu.cpp 279-283. -/
def fillForces (V : ℕ → ℕ → ℝ) : ℕ → ℕ → (ℕ → ℕ → ℝ) → ℕ → ℕ → ℝ
  | 0, _, f => f
  | n + 1, cur, f => fillForces V n (cur + 6) (setBlk f cur cur 6 6 V)

/-- Lines 272-285 of model-base-ekf-flex-estimator-imu.cpp, for a matrix that had `real` rows and now has `m`: the coefficients and `currIndex`. A block outside of the matrix fails
an assertion, and so does a block of the wrong size. -/
noncomputable def Est.forcePart (s : Est) (m real : ℕ) (f : ℕ → ℕ → ℝ) : Res ((ℕ → ℕ → ℝ) × ℕ) :=
  if s.useFT ∧ real < 6 + s.sys.nb * 6 then do
    Res.assert (decide (6 + s.sys.nb * 6 ≤ m))
    Res.assert (decide (s.sys.nb = 0) || s.forceVar.hasSize 6 6)
    let f := setBlk (setBlk f 6 0 (s.sys.nb * 6) 6 0) 0 6 6 (s.sys.nb * 6) 0
    .ok (fillForces (coeff s.forceVar 0) s.sys.nb 6 f, 6 + s.sys.nb * 6)
  else .ok (f, 6)

/-- Lines 287-298 of model-base-ekf-flex-estimator-imu.cpp. -/
noncomputable def Est.absPart (s : Est) (m real : ℕ) (f : ℕ → ℕ → ℝ) (cur : ℕ) : Res (ℕ → ℕ → ℝ) :=
  if s.withAbs ∧ real < cur + 6 then do
    Res.assert (decide (cur + 6 ≤ m))
    .ok (setBlk (setBlk (setBlk f cur 0 6 cur 0) 0 cur cur 6 0) cur cur 6 6 (scalar s.absVar))
  else .ok f

/-- The new `R_` of `updateMeasurementCovarianceMatrix_`, model-base-ekf-flex-estimator-imu.cpp 266-299: the matrix and the allocations made. -/
noncomputable def Est.resizedR (s : Est) : Res (DMat × ℕ) :=
  if s.R.rows ≠ s.sys.measSize then do
    let (f, cur) ← s.forcePart s.sys.measSize s.R.rows (coeff s.R (s.mem s.allocs))
    let f ← s.absPart s.sys.measSize s.R.rows f cur
    .ok (square s.sys.measSize f, s.allocs + 1)
  else .ok (s.R, s.allocs)

/-- `updateMeasurementCovarianceMatrix_`, model-base-ekf-flex-estimator-imu.cpp 263-302. -/
noncomputable def Est.updateR (s : Est) : Res Est := do
  let (R, n) ← s.resizedR
  let f ← setR s.ekf R
  .ok { s with ekf := f, R := R, allocs := n }

/-- `getDefaultQ`, model-base-ekf-flex-estimator-imu.cpp 64-79. -/
noncomputable def defaultQ : ℕ → ℕ → ℝ :=
  let q := setBlk (setBlk (setBlk (setBlk (scalar 1) 0 0 3 3 (scalar 1e-8)) 3 3 3 3 (scalar 1e-8)) 6 6 3 3 (scalar 1e-8)) 9 9 3 3 (scalar 1e-8)
  setBlk (setBlk (setBlk (setBlk q 12 12 3 3 (scalar 1e-4)) 15 15 3 3 (scalar 1e-4)) 18 18 3 3 (scalar 1e-4)) 21 21 3 3 (scalar 1e-4)

/-- `getDefaultRIMU`, model-base-ekf-flex-estimator-imu.cpp 81-89: the two blocks outside of the diagonal are not initialised. -/
noncomputable def defaultRIMU (junk : ℕ → ℕ → ℝ) : ℕ → ℕ → ℝ := setBlk (setBlk junk 0 0 3 3 (scalar 1e-6)) 3 3 3 3 (scalar 1e-6)

/-- The new `Q_` of `resetCovarianceMatrices`, model-base-ekf-flex-estimator-imu.cpp 104-119. -/
noncomputable def Est.resetQ (s : Est) : ℕ → ℕ → ℝ :=
  let q := setBlk defaultQ 24 24 6 6 (if s.withUnmodeled then scalar 1e-2 else 0)
  let q := setBlk q 30 30 2 2 (if s.withBias then scalar 2.5e-10 else 0)
  setBlk q 32 32 3 3 (if s.withAbs then scalar 1e-8 else 0)

/-- `resetStateCovarianceMatrix`, model-base-ekf-flex-estimator-imu.cpp 125-129. -/
def Est.resetStateCovarianceMatrix (s : Est) : Res Est := do
  let f ← setStateCovariance s.ekf s.Q
  .ok { s with ekf := f, P := s.Q }

/-- `resetCovarianceMatrices`, model-base-ekf-flex-estimator-imu.cpp 91-123. -/
noncomputable def Est.resetCovarianceMatrices (s : Est) : Res Est := do
  let m := s.sys.measSize
  let R := square m (setBlk (scalar 1) 0 0 6 6 (defaultRIMU (s.mem s.allocs)))
  Res.assert (decide (6 ≤ m))
  let s ← Est.updateR { s with R := R, allocs := s.allocs + 1 }
  let Q := square 35 s.resetQ
  let f ← setQ s.ekf Q
  Est.resetStateCovarianceMatrix { s with ekf := f, Q := Q }

/-- The steps of the finite differences, model-base-ekf-flex-estimator-imu.cpp 4 and 30-33. -/
noncomputable def defaultDx : Fin 35 → ℝ :=
  setSeg (setSeg (fun _ => 1e-8) Elastic.iOri (fun _ : Fin 3 => (1e-4 : ℝ))) Elastic.iAngVel (fun _ : Fin 3 => (1e-4 : ℝ))

/-- `cst::gravityConstant * hrp2::m` times a vector, model-base-ekf-flex-estimator-imu.cpp 50-56. -/
noncomputable def weights (v : V3) : V3 := (9.8 * Elastic.hrp2m) • v

/-- The constructor, model-base-ekf-flex-estimator-imu.cpp 13-57. -/
noncomputable def ctor (mem : ℕ → ℕ → ℕ → ℝ) (dt : ℝ) : Res Est := do
  let sys : Elastic.Sys Unit := Elastic.ctor dt
  let f : Filter := KF.mk 35 35 12 12 48 ⟨sys, ⟨0, 0⟩⟩
  let f := setInputSize (setStateSize (setMeasureSize f sys.measSize) 35) (48 + 12 * sys.nb)
  let s : Est := ⟨f, true, ⟨35, fun _ => 1e-8⟩, ⟨0, 0⟩, 0, .empty, .empty, .empty, true, 1e-6, square 6 (scalar 1e-4), 1e-4, false, false, false, false,
    weights ![10, 10, 100], weights ![100, 100, 1000], true, mem, 0⟩
  let s ← s.resetCovarianceMatrices
  let f ← Obs.setState (cfg s.ekf) s.ekf (DVec.zero 35) 0
  let f ← setStateCovariance f s.Q
  .ok (Est.setSys { s with fd := true, dx := ⟨35, defaultDx⟩, lastX := DVec.zero 35, ekf := f } { f.st.ext.sys with dx := ⟨35, defaultDx⟩ })

/-! ## Parameters -/

/-- `setContactsNumber`, model-base-ekf-flex-estimator-imu.cpp 131-143. -/
noncomputable def Est.setContactsNumber (s : Est) (n : ℕ) : Res Est :=
  let s := s.setSys { s.sys with nb := n }.updateMeasurementSize
  let s := { s with ekf := setInputSize s.ekf (48 + 12 * s.sys.nb) }
  if s.useFT then { s with ekf := setMeasureSize s.ekf s.sys.measSize }.updateR else .ok s

/-- `setWithForcesMeasurements`, model-base-ekf-flex-estimator-imu.cpp 520-530. -/
noncomputable def Est.setWithForcesMeasurements (s : Est) (b : Bool) : Res Est :=
  if s.useFT ≠ b then
    let s := { s with useFT := b }.setSys { s.sys with withForce := b }.updateMeasurementSize
    { s with ekf := setMeasureSize s.ekf s.sys.measSize }.updateR
  else .ok s

/-- `setWithAbsolutePos`, model-base-ekf-flex-estimator-imu.cpp 532-541. -/
noncomputable def Est.setWithAbsolutePos (s : Est) (b : Bool) : Res Est :=
  if s.withAbs ≠ b then
    let s := s.setSys { s.sys with withAbs := b }.updateMeasurementSize
    { s with ekf := setMeasureSize s.ekf s.sys.measSize, withAbs := b }.updateR
  else .ok s

/-- `setWithUnmodeledForces`, model-base-ekf-flex-estimator-imu.cpp 543-553. -/
noncomputable def Est.setWithUnmodeledForces (s : Est) (b : Bool) : Res Est :=
  if s.withUnmodeled ≠ b then
    let s := s.setSys { s.sys with withUnmodeled := b }
    { s with ekf := setInputSize (setMeasureSize s.ekf s.sys.measSize) (48 + 12 * s.sys.nb), withUnmodeled := b }.updateR
  else .ok s

/-- `setWithComBias`, model-base-ekf-flex-estimator-imu.cpp 560-567. -/
def Est.setWithComBias (s : Est) (b : Bool) : Est :=
  if s.withBias ≠ b then { s with withBias := b }.setSys { s.sys with withBias := b } else s

/-- `M.diagonal().segment<6>(i).setConstant(d)`: a matrix that is too small fails an assertion. -/
def setDiag6 (M : DMat) (i : ℕ) (d : ℝ) : Res DMat :=
  if i + 6 ≤ M.rows ∧ i + 6 ≤ M.cols then
    .ok ⟨M.rows, M.cols, fun a b => if a.val = b.val ∧ i ≤ a.val ∧ a.val < i + 6 then d else M.val a b⟩
  else .assertFail

/-- `setUnmodeledForceVariance`, model-base-ekf-flex-estimator-imu.cpp 569-579. -/
noncomputable def Est.setUnmodeledForceVariance (s : Est) (d : ℝ) : Res Est := do
  let s := { s with unmodeledVar := d }
  let s ← (if d > 0 then s.setWithUnmodeledForces true else .ok s)
  let P ← setDiag6 s.ekf.st.pr 24 d
  let f ← setStateCovariance s.ekf P
  .ok { s with ekf := f, P := P }

/-- `setUnmodeledForceProcessVariance`, model-base-ekf-flex-estimator-imu.cpp 581-589. -/
noncomputable def Est.setUnmodeledForceProcessVariance (s : Est) (d : ℝ) : Res Est := do
  let Q ← setDiag6 s.Q 24 d
  let f ← setQ s.ekf Q
  let s := { s with ekf := f, Q := Q }
  if d > 0 then s.setWithUnmodeledForces true else .ok s

/-- `setForceVariance(double)`, model-base-ekf-flex-estimator-imu.cpp 591-595. -/
noncomputable def Est.setForceVariance (s : Est) (d : ℝ) : Res Est := { s with forceVar := square 6 (scalar d) }.updateR

/-- `setForceVariance(const Matrix3 &)`, model-base-ekf-flex-estimator-imu.cpp 597-601. -/
noncomputable def Est.setForceVariance3 (s : Est) (V : M3) : Res Est := { s with forceVar := ⟨3, 3, V⟩ }.updateR

/-- `setAbsolutePosVariance`, model-base-ekf-flex-estimator-imu.cpp 603-607. -/
noncomputable def Est.setAbsolutePosVariance (s : Est) (d : ℝ) : Res Est := { s with absVar := d }.updateR

/-- `setMeasurementNoiseCovariance`, model-base-ekf-flex-estimator-imu.cpp 196-206. -/
noncomputable def Est.setMeasurementNoiseCovariance (s : Est) (R : DMat) : Res Est := do
  Res.assert (decide (R.rows = R.cols ∧ R.rows > 0 ∧ R.rows % 6 = 0))
  { s with R := R }.updateR

/-- `setProcessNoiseCovariance`, model-base-ekf-flex-estimator-imu.cpp 208-212. -/
def Est.setProcessNoiseCovariance (s : Est) (Q : DMat) : Res Est := do
  let f ← setQ s.ekf Q
  .ok { s with ekf := f, Q := Q }

/-! ## Measurements, inputs, guesses -/

/-- `setMeasurement`, model-base-ekf-flex-estimator-imu.cpp 150-155. -/
def Est.setMeasurement (s : Est) (y : DVec) : Res Est := do
  Res.assert (decide (s.sys.measSize = y.size))
  let f ← Obs.setMeasurement (cfg s.ekf) s.ekf y (s.k + 1)
  .ok { s with ekf := f }

/-- `setInput`, ekf-flexibility-estimator-base.cpp 76-79. -/
def Est.setInput (s : Est) (u : DVec) : Res Est := do
  let f ← Obs.setInput (cfg s.ekf) s.ekf u s.k
  .ok { s with ekf := f }

/-- `if(ekf_.getInputsNumber() == 0) ekf_.setInput(u, k_);`, ekf-flexibility-estimator-base.cpp 83. -/
def Est.firstInput (s : Est) (u : DVec) : Res Filter :=
  if s.ekf.u.size = 0 then Obs.setInput (cfg s.ekf) s.ekf u s.k else .ok s.ekf

/-- `setMeasurementInput`, ekf-flexibility-estimator-base.cpp 81-85. -/
def Est.setMeasurementInput (s : Est) (u : DVec) : Res Est := do
  let f ← s.firstInput u
  let f ← Obs.setInput (cfg f) f u (s.k + 1)
  .ok { s with ekf := f }

/-- `setFlexibilityGuess`, model-base-ekf-flex-estimator-imu.cpp 157-188. `Vector x0(x)` (line 168) asserts in Eigen that the matrix has a single row or column. -/
noncomputable def Est.setFlexibilityGuess (s : Est) (x : DMat) : Res Est := do
  let bstate := x.hasSize s.ekf.st.n 1
  let b6 := x.hasSize 6 1
  let bhomogeneous := x.hasSize 4 4
  Res.assert (bstate || b6 || bhomogeneous)
  Res.assert (decide (x.rows = 1 ∨ x.cols = 1))
  if h : x.cols = 1 then
    let x0 : DVec := ⟨x.rows, fun i => x.val i (Fin.cast h.symm 0)⟩
    if bstate then
      let f ← Obs.setState (cfg s.ekf) s.ekf x0 s.k
      .ok { s with ekf := f }
    else
      let x1 : Fin s.ekf.st.n → ℝ := setSeg (setSeg 0 Elastic.iPos (seg 3 x0.val 0)) Elastic.iOri (seg 3 x0.val 3)
      let f ← Obs.setState (cfg s.ekf) s.ekf ⟨s.ekf.st.n, x1⟩ s.k
      let f ← setQ f s.Q
      .ok { s with ekf := f }
  else .assertFail

/-- A vector as a matrix of one column. -/
def column (v : DVec) : DMat := ⟨v.size, 1, fun i _ => v.val i⟩

/-- `setComBiasGuess`, model-base-ekf-flex-estimator-imu.cpp 190-194. -/
noncomputable def Est.setComBiasGuess (s : Est) (b : DVec) : Res Est :=
  if h : 2 ≤ b.size ∧ 32 ≤ s.lastX.size then
    let x : DVec := ⟨s.lastX.size, setSeg s.lastX.val Elastic.iBias (seg 2 b.val 0)⟩
    { s with lastX := x }.setFlexibilityGuess (column x)
  else .assertFail

/-- `setFlexibilityCovariance`, ekf-flexibility-estimator-base.cpp 21-24. -/
def Est.setFlexibilityCovariance (s : Est) (P : DMat) : Res Est := do
  let f ← setStateCovariance s.ekf P
  .ok { s with ekf := f }

/-! ## Estimation -/

/-- The matrix with given columns. -/
def ofCols (l : List (Fin 35 → ℝ)) : DMat := ⟨35, 35, fun i j => l.getD j 0 i⟩

/-- A coefficient of a vector of any size. -/
def dcoeff (v : DVec) (i : ℕ) : ℝ := if h : i < v.size then v.val ⟨i, h⟩ else 0

/-- The matrix with given columns of size `m`. -/
def ofDCols (m : ℕ) (l : List DVec) : DMat := ⟨m, 35, fun i j => dcoeff (l.getD j ⟨0, 0⟩) i⟩

/-- The Jacobians, model-base-ekf-flex-estimator-imu.cpp 361-369. -/
noncomputable def jacobians (fd : Bool) (f : Filter) : Res Filter :=
  if fd then do
    let f ← updateStateAndMeasurementPrediction f
    let (A, sys, _) ← f.st.ext.sys.stateDynamicsJacobian ()
    let f ← setA { f with st := { f.st with ext := { f.st.ext with sys := sys } } } (ofCols A)
    let (C, sys, _) ← f.st.ext.sys.measureDynamicsJacobian ()
    setC { f with st := { f.st with ext := { f.st.ext with sys := sys } } } (ofDCols sys.measSize C)
  else .ok f

/-- The loop of model-base-ekf-flex-estimator-imu.cpp 359-372: `n` iterations starting with time `i`. -/
noncomputable def estimate (fd : Bool) : Nat → Int → Filter → Res Filter
  | 0, _, f => .ok f
  | n + 1, i, f => do
    let f ← jacobians fd f
    let f ← KF.getEstimatedState virt f i
    estimate fd n (i + 1) f

/-- `min`, then `max` with the opposite, model-base-ekf-flex-estimator-imu.cpp 390-393. -/
noncomputable def clamp (l v : ℝ) : ℝ := max (min v l) (-l)

/-- The saturation, model-base-ekf-flex-estimator-imu.cpp 385-395. -/
noncomputable def Est.saturate (s : Est) (x : Fin 35 → ℝ) : Fin 35 → ℝ :=
  if s.limOn then
    setSeg (setSeg x (Elastic.iFc + 6) (fun i : Fin 3 => clamp (s.limT i) (seg 3 x (Elastic.iFc + 6) i))) Elastic.iFc
      (fun i : Fin 3 => clamp (s.limF i) (seg 3 x Elastic.iFc i))
  else x

/-- `getFlexibilityVector`, model-base-ekf-flex-estimator-imu.cpp 348-435. The vector returned is `lastX` after the call. -/
noncomputable def Est.getFlexibilityVector (s : Est) : Res Est :=
  if s.on then
    if s.ekf.y.size > 0 then do
      let k ← s.ekf.getMeasurementTime
      let t ← s.ekf.getCurrentTime
      let f ← estimate s.fd (k - t).toNat (t + 1) s.ekf
      let f ← KF.getEstimatedState virt f k
      let x ← val f.x
      if h : x.size = 35 then
        let x : Fin 35 → ℝ := fun i => x.val (Fin.cast h.symm i)
        let o ← regulateOrientationVector (seg 3 x Elastic.iOri)
        let x : DVec := ⟨35, s.saturate (setSeg x Elastic.iOri o)⟩
        let t ← f.getCurrentTime
        let f ← Obs.setState (cfg f) f x t
        .ok { s with ekf := f, k := k, lastX := x }
      else .assertFail
    else .ok s
  else do
    let x := DVec.zero s.lastX.size
    let t ← s.ekf.getCurrentTime
    let f ← Obs.setState (cfg s.ekf) s.ekf x t
    if f.y.size > 0 then
      Est.resetStateCovarianceMatrix { s with lastX := x, ekf := Obs.clearInputs (Obs.clearMeasurements f) }
    else .ok { s with lastX := x, ekf := f }

/-- `getFlexibility`, model-base-ekf-flex-estimator-imu.cpp 319-330. -/
noncomputable def Est.getFlexibility (s : Est) : Res (Matrix (Fin 4) (Fin 4) ℝ × Est) := do
  let s ← s.getFlexibilityVector
  if h : s.lastX.size = 35 then
    let x : Fin 35 → ℝ := fun i => s.lastX.val (Fin.cast h.symm i)
    .ok (vector6ToHomogeneousMatrix (seg 3 x Elastic.iPos) (seg 3 x Elastic.iOri), s)
  else .assertFail

/-- `getForcesAndMoments`, model-base-ekf-flex-estimator-imu.cpp 252-261. -/
noncomputable def Est.getForcesAndMoments (s : Est) : Res (DVec × Est) := do
  let s ← s.getFlexibilityVector
  if 12 + s.sys.nb * 6 ≤ s.lastX.size then .ok (⟨s.sys.nb * 6, seg _ s.lastX.val 12⟩, s) else .assertFail

/-- The two arguments of lines 228, 242 of model-base-ekf-flex-estimator-imu.cpp and 70 of the header, `getFlexibilityVector()` and `getInput()`, whose order of evaluation is not
specified: with `first` the input is read first. -/
noncomputable def Est.arguments (s : Est) (first : Bool) : Res (DVec × Est) :=
  if first then do
    let u ← s.ekf.u.get s.k
    let s ← s.getFlexibilityVector
    .ok (u, s)
  else do
    let s ← s.getFlexibilityVector
    let u ← s.ekf.u.get s.k
    .ok (u, s)

/-- `getMomentaDotFromForces`, model-base-ekf-flex-estimator-imu.cpp 224-236. -/
noncomputable def Est.getMomentaDotFromForces (s : Est) (first : Bool) : Res ((V3 × V3) × Est) :=
  if s.on then do
    let (u, s) ← s.arguments first
    let (w, f) ← s.sys.momentaDotFromForces s.lastX u
    .ok (w, s.setSys f)
  else .ok (0, s)

/-- `getMomentaDotFromKinematics`, model-base-ekf-flex-estimator-imu.cpp 238-250. -/
noncomputable def Est.getMomentaDotFromKinematics (s : Est) (first : Bool) : Res ((V3 × V3) × Est) :=
  if s.on then do
    let (u, s) ← s.arguments first
    let (w, f) ← s.sys.momentaDotFromKinematics s.lastX u
    .ok (w, s.setSys f)
  else .ok (0, s)

/-- `computeAccelerations`, model-base-ekf-flex-estimator-imu.hpp 68-71. -/
noncomputable def Est.computeAccelerations (s : Est) (first : Bool) : Res ((V3 × V3) × Est) := do
  let (u, s) ← s.arguments first
  let (w, f) ← s.sys.computeAccelerations s.lastX u
  .ok (w, s.setSys f)

/-- `getSimulatedMeasurement`, ekf-flexibility-estimator-base.cpp 144-150, with kalman-filter-base.cpp 381-384. -/
noncomputable def Est.getSimulatedMeasurement (s : Est) : Res (DVec × Est) := do
  let s ← s.getFlexibilityVector
  let t ← s.ekf.getCurrentTime
  let x ← val s.ekf.x
  let (y, f) ← simulateSensor s.ekf x t
  .ok (y, { s with ekf := f })

/-- `computeLocalObservationMatrix`, model-base-ekf-flex-estimator-imu.cpp 437-446. Assigning a matrix of another size to a block fails an assertion. -/
def Est.computeLocalObservationMatrix (s : Est) : Res DMat :=
  if h : s.ekf.st.c.rows = s.sys.measSize ∧ s.ekf.st.c.cols = 35 then do
    let CA ← s.ekf.st.c.mul s.ekf.st.a
    if h' : CA.rows = s.sys.measSize ∧ CA.cols = 35 then
      .ok ⟨s.sys.measSize * 2, 35, fun i j => if hi : i.val < s.sys.measSize then s.ekf.st.c.val ⟨i, by omega⟩ ⟨j, by omega⟩
        else CA.val ⟨i - s.sys.measSize, by omega⟩ ⟨j, by omega⟩⟩
    else .assertFail
  else .assertFail

/-! ## Calls -/

/-- The parameters that are only passed to the functor, model-base-ekf-flex-estimator-imu.cpp 145-148, 448-452, 460-498, 609-612, and `setPe`. -/
inductive Param where
  | setContactModel (n : ℕ)
  | setSamplingPeriod (dt : ℝ)
  | setKfe (K : M3)
  | setKfv (K : M3)
  | setKte (K : M3)
  | setKtv (K : M3)
  | setKfeRopes (K : M3)
  | setKfvRopes (K : M3)
  | setKteRopes (K : M3)
  | setKtvRopes (K : M3)
  | setPe (p : V3)
  | setRobotMass (m : ℝ)

/-- The call to the functor. -/
def Param.op : Param → Elastic.Op Unit
  | .setContactModel n => .setContactModel n
  | .setSamplingPeriod dt => .setSamplingPeriod dt
  | .setKfe K => .setKfe K
  | .setKfv K => .setKfv K
  | .setKte K => .setKte K
  | .setKtv K => .setKtv K
  | .setKfeRopes K => .setKfeRopes K
  | .setKfvRopes K => .setKfvRopes K
  | .setKteRopes K => .setKteRopes K
  | .setKtvRopes K => .setKtvRopes K
  | .setPe p => .setPe p
  | .setRobotMass m => .setRobotMass m

/-- The public methods. -/
inductive Op where
  | param (p : Param)
  | setContactsNumber (n : ℕ)
  | setWithForcesMeasurements (b : Bool)
  | setWithAbsolutePos (b : Bool)
  | setWithUnmodeledForces (b : Bool)
  | setWithComBias (b : Bool)
  | setUnmodeledForceVariance (d : ℝ)
  | setUnmodeledForceProcessVariance (d : ℝ)
  | setForceVariance (d : ℝ)
  | setForceVariance3 (V : M3)
  | setAbsolutePosVariance (d : ℝ)
  | setMeasurementNoiseCovariance (R : DMat)
  | setProcessNoiseCovariance (Q : DMat)
  | setFlexibilityCovariance (P : DMat)
  | resetCovarianceMatrices
  | resetStateCovarianceMatrix
  | setTorquesLimit (v : V3)
  | setForcesLimit (v : V3)
  | setLimitOn (b : Bool)
  | setOn (b : Bool)
  | useFiniteDifferencesJacobians (dx : DVec)
  | setJacobians (A C : DMat)
  | setMeasurement (y : DVec)
  | setInput (u : DVec)
  | setMeasurementInput (u : DVec)
  | setFlexibilityGuess (x : DMat)
  | setComBiasGuess (b : DVec)
  | getFlexibilityVector
  | getFlexibility
  | getForcesAndMoments
  | getMomentaDotFromForces (first : Bool)
  | getMomentaDotFromKinematics (first : Bool)
  | computeAccelerations (first : Bool)
  | getSimulatedMeasurement
  | getPrediction
  | getPredictedMeasurement

/-- The effect of a call. `setTorquesLimit`, `setForcesLimit`, `setLimitOn`: model-base-ekf-flex-estimator-imu.hpp 204-232; `setOn`: cpp 455-458; `useFiniteDifferencesJacobians`, `setJacobians`,
`getPrediction`, `getPredictedMeasurement`: ekf-flexibility-estimator-base.cpp 63-74 and 157-165. -/
noncomputable def exec (s : Est) : Op → Res Est
  | .param p => do
    let (f, _) ← Elastic.exec s.sys () p.op
    .ok (s.setSys f)
  | .setContactsNumber n => s.setContactsNumber n
  | .setWithForcesMeasurements b => s.setWithForcesMeasurements b
  | .setWithAbsolutePos b => s.setWithAbsolutePos b
  | .setWithUnmodeledForces b => s.setWithUnmodeledForces b
  | .setWithComBias b => .ok (s.setWithComBias b)
  | .setUnmodeledForceVariance d => s.setUnmodeledForceVariance d
  | .setUnmodeledForceProcessVariance d => s.setUnmodeledForceProcessVariance d
  | .setForceVariance d => s.setForceVariance d
  | .setForceVariance3 V => s.setForceVariance3 V
  | .setAbsolutePosVariance d => s.setAbsolutePosVariance d
  | .setMeasurementNoiseCovariance R => s.setMeasurementNoiseCovariance R
  | .setProcessNoiseCovariance Q => s.setProcessNoiseCovariance Q
  | .setFlexibilityCovariance P => s.setFlexibilityCovariance P
  | .resetCovarianceMatrices => s.resetCovarianceMatrices
  | .resetStateCovarianceMatrix => s.resetStateCovarianceMatrix
  | .setTorquesLimit v => .ok { s with limT := v }
  | .setForcesLimit v => .ok { s with limF := v }
  | .setLimitOn b => .ok { s with limOn := b }
  | .setOn b => .ok { s with on := b }
  | .useFiniteDifferencesJacobians dx => .ok { s with fd := true, dx := dx }
  | .setJacobians A C => do
    let f ← setA s.ekf A
    let f ← setC f C
    .ok { s with fd := false, ekf := f }
  | .setMeasurement y => s.setMeasurement y
  | .setInput u => s.setInput u
  | .setMeasurementInput u => s.setMeasurementInput u
  | .setFlexibilityGuess x => s.setFlexibilityGuess x
  | .setComBiasGuess b => s.setComBiasGuess b
  | .getFlexibilityVector => s.getFlexibilityVector
  | .getFlexibility => do
    let (_, s) ← s.getFlexibility
    .ok s
  | .getForcesAndMoments => do
    let (_, s) ← s.getForcesAndMoments
    .ok s
  | .getMomentaDotFromForces b => do
    let (_, s) ← s.getMomentaDotFromForces b
    .ok s
  | .getMomentaDotFromKinematics b => do
    let (_, s) ← s.getMomentaDotFromKinematics b
    .ok s
  | .computeAccelerations b => do
    let (_, s) ← s.computeAccelerations b
    .ok s
  | .getSimulatedMeasurement => do
    let (_, s) ← s.getSimulatedMeasurement
    .ok s
  | .getPrediction => do
    let f ← updateStatePrediction s.ekf
    .ok { s with ekf := f }
  | .getPredictedMeasurement => do
    let f ← updateStateAndMeasurementPrediction s.ekf
    .ok { s with ekf := f }

/-- Calls on a new estimator. -/
noncomputable def run (mem : ℕ → ℕ → ℕ → ℝ) (dt : ℝ) (ops : List Op) : Res Est := do
  let s ← ctor mem dt
  ops.foldlM exec s

end StateObs.ModelFlex
