import Verif.Kalman.Model
/-!
# `ExtendedKalmanFilter`

src/extended-kalman-filter.cpp. The functor is a pair of functions without internal state (so `f_->reset()` has no effect); it receives vectors of
any size, and may fail (assertion, exception).
-/

namespace StateObs.EKF
open StateObs KF

/-- `DynamicalSystemFunctorBase`, dynamical-system-functor-base.hpp 30-60. -/
structure Functor where
  stateDynamics : DVec → DVec → Int → Res DVec
  measureDynamics : DVec → DVec → Int → Res DVec

/-- Members of `ExtendedKalmanFilter` (extended-kalman-filter.hpp 120-150): functor pointer, feedthrough flags, and `opt.u_`; the other
members of `opt` are written before they are read in every call. -/
structure Ext where
  f : Option Functor
  dirOut : Bool
  dirState : Bool
  optU : DVec

/-- Constructors, extended-kalman-filter.cpp 5-52. -/
def mk (n nt m mt p : Nat) (dirOut dirState : Bool) : KFilter Ext :=
  KF.mk n nt m mt p ⟨none, dirOut && decide (p ≠ 0), dirState && decide (p ≠ 0), ⟨0, 0⟩⟩

/-- `setFunctor`, extended-kalman-filter.cpp 54-58. -/
def setFunctor (s : KFilter Ext) (f : Functor) : KFilter Ext := { s with st := { s.st with ext := { s.st.ext with f := some f } } }
/-- `clearFunctor`, extended-kalman-filter.cpp 65-68. -/
def clearFunctor (s : KFilter Ext) : KFilter Ext := { s with st := { s.st with ext := { s.st.ext with f := none } } }
/-- `setDirectInputOutputFeedthrough`, extended-kalman-filter.cpp 70-76. -/
def setDirectInputOutputFeedthrough (s : KFilter Ext) (b : Bool) : KFilter Ext :=
  if s.st.p > 0 then { s with st := { s.st with ext := { s.st.ext with dirOut := b } } } else s
/-- `setDirectInputStateFeedthrough`, extended-kalman-filter.cpp 78-84. -/
def setDirectInputStateFeedthrough (s : KFilter Ext) (b : Bool) : KFilter Ext :=
  if s.st.p > 0 then { s with st := { s.st with ext := { s.st.ext with dirState := b } } } else s

/-- `!v.isSet() || v.getTime() != k`, extended-kalman-filter.cpp 88 and 110. -/
def notCached (v : Option (DVec × Int)) (k : Int) : Bool :=
  match v with
  | none => true
  | some (_, t) => decide (t ≠ k)

/-- `prediction_`, extended-kalman-filter.cpp 86-105. -/
def prediction (s : KFilter Ext) (k : Int) : Res (KFilter Ext) :=
  if notCached s.st.xbar k then do
    let u ← (if s.st.p > 0 ∧ s.st.ext.dirState = true then do
        Res.assert (decide (s.u.size > 0) && s.u.checkIndex (k - 1))
        s.u.get (k - 1)
      else .ok (DVec.zero s.st.p))
    match s.st.ext.f, s.x with
    | some f, some (x, t) => do
      let v ← f.stateDynamics x u t
      .ok { s with st := { s.st with xbar := some (v, k), ext := { s.st.ext with optU := u } } }
    | _, _ => .assertFail
  else .ok s

/-- The input used by `simulateSensor_`, extended-kalman-filter.cpp 122-140. -/
def sensorInput (s : KFilter Ext) (k : Int) : Res DVec :=
  if s.st.p > 0 then do
    Res.assert (!s.st.ext.dirOut || s.u.checkIndex k)
    if s.u.checkIndex k then s.u.get k else .ok (DVec.zero s.st.p)
  else .ok s.st.ext.optU

/-- `simulateSensor_`, extended-kalman-filter.cpp 118-143: the value and the value left in `opt.u_`. -/
def simulateSensor (s : KFilter Ext) (x : DVec) (k : Int) : Res (DVec × DVec) :=
  match s.st.ext.f with
  | none => .assertFail
  | some f => do
    let u ← sensorInput s k
    let y ← f.measureDynamics x u k
    .ok (y, u)

/-- `predictSensor_`, extended-kalman-filter.cpp 107-116. -/
def predictSensor (s : KFilter Ext) (k : Int) : Res (KFilter Ext) :=
  if notCached s.st.ybar k then do
    let xb ← val s.st.xbar
    let (y, u) ← simulateSensor s xb k
    .ok { s with st := { s.st with ybar := some (y, k), ext := { s.st.ext with optU := u } } }
  else .ok s

/-- The virtual functions of `ExtendedKalmanFilter`. -/
def virt : Virt Ext := ⟨prediction, predictSensor⟩

/-- `getEstimatedState` of an `ExtendedKalmanFilter`. -/
noncomputable def getEstimatedState (s : KFilter Ext) (k : Int) : Res (KFilter Ext) := KF.getEstimatedState virt s k

/-- `updateStatePrediction`, kalman-filter-base.hpp 384-388. -/
def updateStatePrediction (s : KFilter Ext) : Res (KFilter Ext) := do
  let k ← s.getCurrentTime
  prediction s (k + 1)

/-- `updateStateAndMeasurementPrediction`, kalman-filter-base.hpp 390-395. -/
def updateStateAndMeasurementPrediction (s : KFilter Ext) : Res (KFilter Ext) := do
  let s ← updateStatePrediction s
  let k ← s.getCurrentTime
  predictSensor s (k + 1)

/-- `for(i=0; i<n; ++i) r.col(i) = f(i)`: the calls in order, failing at the first one that fails. -/
def cols {α : Type} : (n : Nat) → (Fin n → Res α) → Res (Fin n → α)
  | 0, _ => .ok Fin.elim0
  | n + 1, f => do
    let a ← f 0
    let r ← cols n fun i => f i.succ
    .ok (Fin.cons a r)

/-- `dx[i]` (Eigen asserts the index). -/
def DVec.at (v : DVec) (i : Nat) : Res ℝ := if h : i < v.size then .ok (v.val ⟨i, h⟩) else .assertFail

/-- `r.col(i) = v` for columns of size `m` (Eigen asserts the size). -/
def asCol (m : Nat) (v : DVec) : Res (Fin m → ℝ) := if h : v.size = m then .ok fun i => v.val (Fin.cast h.symm i) else .assertFail

/-- `dx_.setZero(); dx_[i] = h;` for a vector of size `n`. -/
def unitVec (n : Nat) (i : Fin n) (h : ℝ) : DVec := ⟨n, fun j => if j = i then h else 0⟩

/-- The body of the loop of `getAMatrixFD`, extended-kalman-filter.cpp 164-178, for a functor `f` (`f_` is dereferenced without
check), input `u` and state `x` at time `k`. -/
noncomputable def colA (s : KFilter Ext) (dx u x : DVec) (k : Int) (i : Fin s.st.nt) : Res (Fin s.st.nt → ℝ) := do
  let h ← DVec.at dx i
  let x' ← s.st.arith.stateSum x (unitVec s.st.nt i h)
  match s.st.ext.f with
  | none => .ub
  | some f => do
    let xb ← val s.st.xbar
    let xp ← f.stateDynamics x' u k
    let d ← s.st.arith.stateDifference (unitVec s.st.nt i h) xp xb
    asCol s.st.nt (d.divBy h)

/-- `getAMatrixFD`, extended-kalman-filter.cpp 145-181: the matrix and the filter after the call. -/
noncomputable def getAMatrixFD (s : KFilter Ext) (dx : DVec) : Res (DMat × KFilter Ext) := do
  let k ← s.getCurrentTime
  let s ← updateStatePrediction s
  let x ← val s.x
  let u ← (if s.st.p > 0 then
      if s.st.ext.dirState = true then s.u.get k else .ok (DVec.zero s.st.p)
    else .ok s.st.ext.optU)
  let c ← cols s.st.nt (colA s dx u x k)
  .ok (⟨s.st.nt, s.st.nt, fun r c' => c c' r⟩, { s with st := { s.st with ext := { s.st.ext with optU := u } } })

/-- The body of the loop of `getCMatrixFD`, extended-kalman-filter.cpp 195-207. The columns of `opt.c_` have `m_` entries. -/
noncomputable def colC (s : KFilter Ext) (dx : DVec) (k : Int) (i : Fin s.st.nt) : Res (Fin s.st.m → ℝ) := do
  let h ← DVec.at dx i
  let xb ← val s.st.xbar
  let x' ← s.st.arith.stateSum xb (unitVec s.st.nt i h)
  let (yp, _) ← simulateSensor s x' k
  let yb ← val s.st.ybar
  let d ← yp.sub yb
  asCol s.st.m (d.divBy h)

/-- `getCMatrixFD`, extended-kalman-filter.cpp 183-211. Line 191 (`xbar_.set(prediction_(k+1), k+1)`) writes back the value that
`prediction_` has just stored or found. The loop leaves in `opt.u_` the input used by the sensor simulation. -/
noncomputable def getCMatrixFD (s : KFilter Ext) (dx : DVec) : Res (DMat × KFilter Ext) := do
  let k ← s.getCurrentTime
  let s ← updateStateAndMeasurementPrediction s
  let s ← prediction s (k + 1)
  let c ← cols s.st.nt (colC s dx (k + 1))
  let u ← (if s.st.nt > 0 then sensorInput s (k + 1) else .ok s.st.ext.optU)
  .ok (⟨s.st.m, s.st.nt, fun r c' => c c' r⟩, { s with st := { s.st with ext := { s.st.ext with optU := u } } })

/-- `reset`, extended-kalman-filter.cpp 213-217. -/
def reset (s : KFilter Ext) : KFilter Ext := KF.reset s

end StateObs.EKF
