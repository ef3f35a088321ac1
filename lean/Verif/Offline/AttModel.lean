import Verif.Offline.FlexModel
/-!
# Offline estimation of the attitude of an inertial unit

`imuAttitudeTrajectoryReconstruction`, include/state-observation/examples/imu-attitude-trajectory-reconstruction.hxx.
-/

namespace StateObs.Offline
open StateObs KF Matrix Imu Rot Kine

/-- An `IMUDynamicalSystem` with sampling period `dt`, as seen by the filter. The quaternion and sensor it stores between calls do not change its
answers (theorem `C72_transparent`), so each call is made on a new one. The sizes are asserted (imu-dynamical-system.cpp 24, 25, 78). -/
noncomputable def imuFunctor (dt : ℝ) : EKF.Functor where
  stateDynamics x u _ :=
    if h : x.size = 18 then
      if h' : u.size = 6 then do
        let (y, _, _) ← Imu.stateDynamics .imu (Imu.ctor dt : Sys Unit) (fun i => x.val (Fin.cast h.symm i)) (fun i => u.val (Fin.cast h'.symm i)) ()
        .ok ⟨18, y⟩
      else .assertFail
    else .assertFail
  measureDynamics x _ k :=
    if h : x.size = 18 then do
      let (y, _, _) ← Imu.measureDynamics .imu (Imu.ctor dt : Sys Unit) (fun i => x.val (Fin.cast h.symm i)) (0 : Fin 6 → ℝ) k ()
      .ok (Flex.ofList y)
    else .assertFail

/-- `xhk.segment(ori,3) = kine::regulateOrientationVector(xhk.segment(ori,3))`, hxx 68-69 (the segment asserts the size). -/
noncomputable def regulated (x : DVec) : Res DVec :=
  if h : x.size = 18 then do
    let z : Fin 18 → ℝ := fun i => x.val (Fin.cast h.symm i)
    let o ← regulateOrientationVector (seg 3 z iOri)
    .ok ⟨18, setSeg z iOri o⟩
  else .assertFail

/-- `if (i<y.getLastIndex()) filter.setInput(u[i],i);`, hxx 54-55. -/
noncomputable def giveInput (y u : IArr DVec) (i : Int) (f : KFilter EKF.Ext) : Res (KFilter EKF.Ext) :=
  if i < y.getLastIndex then do
    let ui ← u.get i
    Obs.setInput (cfg f) f ui i
  else .ok f

/-- The loop, hxx 48-77: `n` iterations from time `i` on, with steps `dx` for the finite differences. -/
noncomputable def attLoop (y u : IArr DVec) (dx : DVec) : ℕ → Int → KFilter EKF.Ext → IArr DVec → Res (IArr DVec)
  | 0, _, _, xh => .ok xh
  | n + 1, i, f, xh => do
    let yi ← y.get i
    let f ← Obs.setMeasurement (cfg f) f yi i
    let f ← giveInput y u i f
    let (a, f) ← EKF.getAMatrixFD f dx
    let (c, f) ← EKF.getCMatrixFD f dx
    let f ← setA f a
    let f ← setC f c
    let f ← EKF.getEstimatedState f i
    let xhk ← val f.x
    let xhk ← regulated xhk
    let f ← Obs.setState (cfg f) f xhk i
    let xh ← xh.setValue xhk i
    attLoop y u dx n (i + 1) f xh

/-- `imuAttitudeTrajectoryReconstruction`, hxx 1-80. The constructor used has the state and tangent sizes equal, the measurement and its tangent too
(extended-kalman-filter.cpp 5-20), and by default a direct feedthrough of the input on the state (extended-kalman-filter.hpp 43). -/
noncomputable def imuAttitudeTrajectoryReconstruction (y u : IArr DVec) (xh0 : DVec) (p q r : DMat) (dt : ℝ) : Res (IArr DVec) := do
  let f := EKF.mk 18 18 6 6 6 false true
  let f := EKF.setFunctor f (imuFunctor dt)
  let f ← Obs.setState (cfg f) f xh0 (y.getFirstIndex - 1)
  let f ← setStateCovariance f p
  let u0 ← u.get (y.getFirstIndex - 1)
  let f ← Obs.setInput (cfg f) f u0 (y.getFirstIndex - 1)
  let f ← setR f r
  let f ← setQ f q
  let dx : DVec := ⟨18, fun _ => 1 * 1e-8⟩
  let xh ← (IArr.empty : IArr DVec).setValue xh0 (y.getFirstIndex - 1)
  attLoop y u dx y.size y.getFirstIndex f xh

/-- `imuAttitudeTrajectoryReconstruction` without inputs, hxx 82-100. -/
noncomputable def imuAttitudeTrajectoryReconstruction0 (y : IArr DVec) (xh0 : DVec) (p q r : DMat) (dt : ℝ) : Res (IArr DVec) := do
  let u ← zeroInputs 6 (y.size + 1) (y.getFirstIndex - 1) IArr.empty
  imuAttitudeTrajectoryReconstruction y u xh0 p q r dt

end StateObs.Offline
