import Mathlib.Algebra.Order.Floor.Ring
import Verif.ModelFlex.Model
import Verif.Offline.FlexModel
/-!
# Offline estimation of a flexibility with elastic contacts

`offlineModelBaseFlexEstimation`, include/state-observation/examples/offline-model-base-flex-estimation.hxx. The estimator is the one of
`Verif/ModelFlex/Model.lean`; `mem` is the content of its uninitialised memory. Pointers to arrays are options. What is printed with `verbose` (hxx 128-150,
193-204) is not modelled.
-/

namespace StateObs.Offline
open StateObs KF Matrix

/-- The arguments that are read, hxx 13-26. -/
structure ModelArgs where
  y : IArr DVec
  u : IArr DVec
  xh0 : DMat
  contacts : IArr DVec
  dt : ℝ
  mass : ℝ
  withForce : Bool
  Q : IArr DMat
  R : IArr DMat
  kfe : M3
  kfv : M3
  kte : M3
  ktv : M3

/-- The array returned and those written through the pointers. -/
structure ModelOut where
  xh : IArr DVec
  prediction : Option (IArr DVec)
  ino : Option (IArr DVec)
  premea : Option (IArr DVec)
  simumea : Option (IArr DVec)

/-- `round` of the C library: the nearest integer, half of an integer is rounded away from zero. -/
noncomputable def roundAway (r : ℝ) : ℤ := if 0 ≤ r then ⌊r + 1 / 2⌋ else -⌊-r + 1 / 2⌋

/-- The conversion of an integer to `unsigned` (32 bits): undefined for a number of another range (it is a `double` in the code). -/
def toUnsigned (z : ℤ) : Res ℕ := if 0 ≤ z ∧ z < 2 ^ 32 then .ok z.toNat else .ub

/-- `v.head(n)`: asserts that the vector has `n` components. -/
def headOf (v : DVec) (n : ℕ) : Res DVec := if h : n ≤ v.size then .ok ⟨n, fun i => v.val ⟨i.val, by omega⟩⟩ else .assertFail

/-- The conversion of a matrix to a vector (a matrix of one column: the others have failed in `setFlexibilityGuess`). -/
def asVector (M : DMat) : Res DVec := if h : M.cols = 1 then .ok ⟨M.rows, fun i => M.val i (Fin.cast h.symm 0)⟩ else .assertFail

/-- `if(b) call`. -/
noncomputable def callIf (b : Bool) (s : ModelFlex.Est) (op : Res ModelFlex.Op) : Res ModelFlex.Est :=
  if b then do
    let op ← op
    ModelFlex.exec s op
  else .ok s

open Classical in
/-- The gains, hxx 109-115. -/
noncomputable def modelGains (a : ModelArgs) (s : ModelFlex.Est) : Res ModelFlex.Est :=
  if a.kfe ≠ 0 then do
    let s ← ModelFlex.exec s (.param (.setKfe a.kfe))
    let s ← ModelFlex.exec s (.param (.setKfv a.kfv))
    let s ← ModelFlex.exec s (.param (.setKte a.kte))
    ModelFlex.exec s (.param (.setKtv a.ktv))
  else .ok s

/-- The calls before the loop, hxx 35-115. -/
noncomputable def modelSetup (a : ModelArgs) (s : ModelFlex.Est) : Res ModelFlex.Est := do
  let s ← ModelFlex.exec s (.param (.setContactModel 1))
  let s ← ModelFlex.exec s (.param (.setSamplingPeriod a.dt))
  let s ← ModelFlex.exec s (.param (.setRobotMass a.mass))
  let s ← callIf (a.Q.size = 1) s (a.Q.get a.Q.getFirstIndex >>= fun Q => .ok (.setProcessNoiseCovariance Q))
  let s ← callIf (a.R.size = 1) s (a.R.get a.R.getFirstIndex >>= fun R => .ok (.setMeasurementNoiseCovariance R))
  let s ← ModelFlex.exec s (.setFlexibilityGuess a.xh0)
  let s ← ModelFlex.exec s (.setWithUnmodeledForces true)
  let s ← ModelFlex.exec s (.setWithForcesMeasurements a.withForce)
  modelGains a s

/-- The calls for time `i` up to the estimation, hxx 126, 153-169. -/
noncomputable def modelMoment (a : ModelArgs) (i : Int) (s : ModelFlex.Est) : Res ModelFlex.Est := do
  let n ← a.contacts.get i
  let r ← EKF.DVec.at n 0
  let n ← toUnsigned (roundAway r)
  let s ← ModelFlex.exec s (.setContactsNumber n)
  let yi ← a.y.get i
  let w ← headOf yi s.sys.measSize
  let s ← ModelFlex.exec s (.setMeasurement w)
  let ui ← a.u.get i
  let s ← ModelFlex.exec s (.setMeasurementInput ui)
  let s ← callIf (a.Q.size > 1) s (a.Q.get i >>= fun Q => .ok (.setProcessNoiseCovariance Q))
  let s ← callIf (a.R.size > 1) s (a.R.get i >>= fun R => .ok (.setMeasurementNoiseCovariance R))
  ModelFlex.exec s .getFlexibilityVector

/-- `if(simumea != 0x0) simumea->setValue(estimator.getSimulatedMeasurement(), i)`, hxx 188-191. -/
noncomputable def modelSimulated (p : Option (IArr DVec)) (i : Int) (s : ModelFlex.Est) : Res (Option (IArr DVec) × ModelFlex.Est) :=
  match p with
  | some a => do
    let v ← s.getSimulatedMeasurement
    let a ← a.setValue v.1 i
    .ok (some a, v.2)
  | none => .ok (none, s)

/-- The loop, hxx 123-206: `n` iterations from time `i` on. `getLastPrediction`, `getInnovation` and `getLastPredictedMeasurement` read members of the filter
(kalman-filter-base.cpp 386-399). -/
noncomputable def modelLoop (a : ModelArgs) : ℕ → Int → ModelFlex.Est → ModelOut → Res ModelOut
  | 0, _, _, o => .ok o
  | n + 1, i, s, o => do
    let s ← modelMoment a i s
    let prediction ← record o.prediction (val s.ekf.st.xbar) i
    let ino ← record o.ino (.ok s.ekf.st.innovation) i
    let premea ← record o.premea (val s.ekf.st.ybar) i
    let m ← modelSimulated o.simumea i s
    modelLoop a n (i + 1) m.2 ⟨o.xh.pushBack s.lastX, prediction, ino, premea, m.1⟩

/-- `xh` before the loop, hxx 118-120. -/
def modelFirst (a : ModelArgs) : Res (IArr DVec) :=
  if a.y.getFirstIndex > 0 then do
    let x ← asVector a.xh0
    (IArr.empty : IArr DVec).setValue x (a.y.getFirstIndex - 1)
  else .ok IArr.empty

/-- `offlineModelBaseFlexEstimation`, hxx 13-209. The default sampling period of the estimator is 0.005 (model-base-ekf-flex-estimator-imu.hpp 42). -/
noncomputable def offlineModelBaseFlexEstimation (mem : ℕ → ℕ → ℕ → ℝ) (a : ModelArgs) (prediction ino premea simumea : Option (IArr DVec)) : Res ModelOut := do
  let s ← ModelFlex.ctor mem 0.005
  let s ← modelSetup a s
  let xh ← modelFirst a
  modelLoop a a.y.size a.y.getFirstIndex s ⟨xh, prediction, ino, premea, simumea⟩

end StateObs.Offline
