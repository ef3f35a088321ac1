import Verif.Offline.AttModel
import Verif.Imu.Mltp
/-!
# Offline estimation of the attitude of an inertial unit with a quaternion

`imuMultiplicativeAttitudeReconstruction`, include/state-observation/examples/imu-multiplicative-attitude-reconstruction.hxx.
-/

namespace StateObs.Offline
open StateObs KF Matrix Imu Rot Kine

/-- `f` on vectors of size `n`, assertion failure on the others (the accesses to the segments assert that they are inside; a vector that is too long would
pass, the filter never gives one). -/
def sized {α : Type} (n : ℕ) (x : DVec) (f : (Fin n → ℝ) → Res α) : Res α :=
  if h : x.size = n then f (fun i => x.val (Fin.cast h.symm i)) else .assertFail

/-- An `IMUMltpctiveDynamicalSystem` with sampling period `dt`, as seen by the filter. Its sensor does not change its answers
(the state is given before each reading), so each call is made on a new one. The sizes are asserted (imu-mltpctive-dynamical-system.cpp 24, 25, 69). -/
noncomputable def mltpFunctor (dt : ℝ) : EKF.Functor where
  stateDynamics x u _ := sized 19 x fun x => sized 6 u fun u => do
    let (y, _) ← Mltp.stateDynamics ({ (Mltp.ctor : Mltp.Sys Unit) with dt := dt }) x u ()
    .ok ⟨19, y⟩
  measureDynamics x _ k := sized 19 x fun x => do
    let (y, _, _) ← Mltp.measureDynamics ({ (Mltp.ctor : Mltp.Sys Unit) with dt := dt }) x k ()
    .ok (Flex.ofList y)

/-- The arithmetic of `IMUMltpctiveDynamicalSystem`, imu-mltpctive-dynamical-system.cpp 178-216; the difference of measurements is the default one
(state-vector-arithmetics.cpp 28-36). -/
noncomputable def mltpArith : Arith where
  stateSum x d := sized 19 x fun x => sized 18 d fun d => .ok ⟨19, Mltp.stateSum x d⟩
  stateDifference _ x y := sized 19 x fun x => sized 19 y fun y => .ok ⟨18, Mltp.stateDifference x y⟩
  measurementDifference := DVec.sub

/-- `setStateArithmetics`, kalman-filter-base.cpp 411-414. -/
def setStateArithmetics (f : KFilter EKF.Ext) (a : Arith) : KFilter EKF.Ext := { f with st := { f.st with arith := a } }

/-- The loop, hxx 50-83: `n` iterations from time `i` on; `sys` is `imuFunctor`, `xkp` the previous estimate. -/
noncomputable def mltpLoop (y u : IArr DVec) : ℕ → Int → KFilter EKF.Ext → Mltp.Sys Unit → DVec → IArr DVec → Res (IArr DVec)
  | 0, _, _, _, _, xh => .ok xh
  | n + 1, i, f, sys, xkp, xh => do
    let yi ← y.get i
    let f ← Obs.setMeasurement (cfg f) f yi i
    let f ← giveInput y u i f
    let (a, sys) ← sized 19 xkp fun x => .ok (Mltp.getAMatrix sys x)
    let f ← EKF.updateStatePrediction f
    let xp ← val f.st.xbar
    let (c, sys) ← sized 19 xp fun x => .ok (Mltp.getCMatrix sys x)
    let f ← setA f ⟨18, 18, a⟩
    let f ← setC f ⟨6, 18, c⟩
    let f ← EKF.getEstimatedState f i
    let xhk ← val f.x
    let f ← Obs.setState (cfg f) f xhk i
    let xh ← xh.setValue xhk i
    mltpLoop y u n (i + 1) f sys xhk xh

/-- `imuMultiplicativeAttitudeReconstruction`, hxx 1-86. -/
noncomputable def imuMultiplicativeAttitudeReconstruction (y u : IArr DVec) (xh0 : DVec) (p q r : DMat) (dt : ℝ) : Res (IArr DVec) := do
  let f := EKF.mk 19 18 6 6 6 false true
  let sys := { (Mltp.ctor : Mltp.Sys Unit) with dt := dt }
  let f := EKF.setFunctor f (mltpFunctor dt)
  let f := setStateArithmetics f mltpArith
  let f ← Obs.setState (cfg f) f xh0 (y.getFirstIndex - 1)
  let f ← setStateCovariance f p
  let u0 ← u.get (y.getFirstIndex - 1)
  let f ← Obs.setInput (cfg f) f u0 (y.getFirstIndex - 1)
  let f ← setR f r
  let f ← setQ f q
  let xh ← (IArr.empty : IArr DVec).setValue xh0 (y.getFirstIndex - 1)
  mltpLoop y u y.size y.getFirstIndex f sys xh0 xh

/-- `imuMultiplicativeAttitudeReconstruction` without inputs, hxx 88-106. -/
noncomputable def imuMultiplicativeAttitudeReconstruction0 (y : IArr DVec) (xh0 : DVec) (p q r : DMat) (dt : ℝ) : Res (IArr DVec) := do
  let u ← zeroInputs 6 (y.size + 1) (y.getFirstIndex - 1) IArr.empty
  imuMultiplicativeAttitudeReconstruction y u xh0 p q r dt

end StateObs.Offline
