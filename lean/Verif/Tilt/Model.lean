import Verif.ZeroDelay.Model
import Verif.Rot.Basic
/-!
# `TiltEstimator`

src/tilt-estimator.cpp and its header. The nine-dimensional state vector is the triple of its segments, the
six-dimensional measurement the pair of its segments: vectors of other sizes are stopped by the size
assertions of the observer. The members `x1_`, `x1_hat_`, `x2_hat_prime_`, `x2_hat_`, `dx1_hat` are temporaries
written before they are read in each step and are not modelled.
-/

namespace StateObs.Tilt
open StateObs Matrix Rot

/-- The state vector: `x1_hat` (0-2), `x2_hat_prime` (3-5), `x2_hat` (6-8), tilt-estimator.cpp 32-34. -/
@[ext] structure State where
  x1 : V3
  x2p : V3
  x2 : V3

/-- The measurement vector, tilt-estimator.cpp 12-18: accelerometer and gyrometer. -/
structure Meas where
  ya : V3
  yg : V3

/-- Members of tilt-estimator.hpp 133-157. -/
structure Params where
  alpha : ℝ
  beta : ℝ
  gamma : ℝ
  dt : ℝ
  p : V3
  R : M3
  v : V3
  w : V3
  vC : V3

/-- The estimator with the members of `ZeroDelayObserver`. -/
abbrev Est := Obs Params State Meas Unit

/-- Sizes are right by typing; `p_ = 0` (constructor `ZeroDelayObserver(9, 6)`). -/
def cfg : ObsCfg State Meas Unit := ⟨fun _ => true, fun _ => true, fun _ => true, 0⟩

/-- The constructor, tilt-estimator.cpp 6-10. -/
noncomputable def ctor (alpha beta gamma : ℝ) : Est :=
  ⟨none, IArr.empty, IArr.empty, ⟨alpha, beta, gamma, 0.005, 0, 1, 0, 0, 0⟩⟩

/-- `cst::gravityConstant`, definitions.hpp 548. -/
noncomputable def g : ℝ := 9.8

/-- `x1_`, tilt-estimator.cpp 29. -/
noncomputable def x1meas (c : Params) (yg : V3) : V3 :=
  c.Rᵀ *ᵥ (c.vC + c.v) + (yg - c.Rᵀ *ᵥ c.w) ⨯₃ (c.Rᵀ *ᵥ c.p)

/-- `dx_hat`, tilt-estimator.cpp 36-39. -/
noncomputable def drift (c : Params) (y : Meas) (x : State) : State where
  x1 := x.x1 ⨯₃ y.yg - g • x.x2p + y.ya + c.alpha • (x1meas c y.yg - x.x1)
  x2p := x.x2p ⨯₃ y.yg - c.beta • (x1meas c y.yg - x.x1)
  x2 := x.x2 ⨯₃ (y.yg - c.gamma • (x.x2 ⨯₃ x.x2p))

/-- `x_hat += dx_hat * dt_`, tilt-estimator.cpp 41. -/
noncomputable def euler (dt : ℝ) (x d : State) : State := ⟨x.x1 + dt • d.x1, x.x2p + dt • d.x2p, x.x2 + dt • d.x2⟩

open Classical in
/-- `x_hat.tail<3>() /= x_hat.tail<3>().norm()`, tilt-estimator.cpp 43. A division by a zero norm gives
non-numbers in the code; it is the outcome `ub` here. -/
noncomputable def normalise (x : State) : Res State :=
  if nrm x.x2 = 0 then .ub else .ok { x with x2 := (nrm x.x2)⁻¹ • x.x2 }

/-- `oneStepEstimation_`, tilt-estimator.cpp 20-48. The call `getEstimatedState(k)` with the current time `k` runs its loop zero times and
returns the current state. -/
noncomputable def oneStep (s : Est) : Res Est :=
  match s.x with
  | none => .assertFail
  | some (x, k) => do
    Res.assert (decide (s.y.size > 0) && s.y.checkIndex (k + 1))
    let y ← s.y.get (k + 1)
    let x' ← normalise (euler s.st.dt x (drift s.st y x))
    Obs.setState cfg s x' (k + 1)

/-- `getEstimatedState`, zero-delay-observer.cpp 145-163, with this estimator's step. -/
noncomputable def getEstimatedState (s : Est) (k : Int) : Res Est := Obs.getEstimatedState cfg oneStep s k

/-- `setMeasurement(ya, yg, k)`, tilt-estimator.cpp 12-18. -/
def setMeasurement (s : Est) (ya yg : V3) (k : Int) : Res Est := Obs.setMeasurement cfg s ⟨ya, yg⟩ k

/-- The public methods. Those of the base class: zero-delay-observer.hpp; setters: tilt-estimator.hpp 38-123. -/
inductive Op where
  | setAlpha (a : ℝ)
  | setBeta (a : ℝ)
  | setGamma (a : ℝ)
  | setSamplingTime (a : ℝ)
  | setSensorPositionInC (p : V3)
  | setSensorOrientationInC (R : M3)
  | setSensorLinearVelocityInC (v : V3)
  | setSensorAngularVelocityInC (w : V3)
  | setControlOriginVelocityInW (v : V3)
  | setMeasurement (ya yg : V3) (k : Int)
  | pushMeasurement (y : Meas)
  | clearMeasurements
  | setState (x : State) (k : Int)
  | setCurrentState (x : State)
  | clearStates
  | getEstimatedState (k : Int)
  | estimateState

/-- The effect of a call. -/
noncomputable def exec (s : Est) : Op → Res Est
  | .setAlpha a => .ok { s with st := { s.st with alpha := a } }
  | .setBeta a => .ok { s with st := { s.st with beta := a } }
  | .setGamma a => .ok { s with st := { s.st with gamma := a } }
  | .setSamplingTime a => .ok { s with st := { s.st with dt := a } }
  | .setSensorPositionInC a => .ok { s with st := { s.st with p := a } }
  | .setSensorOrientationInC a => .ok { s with st := { s.st with R := a } }
  | .setSensorLinearVelocityInC a => .ok { s with st := { s.st with v := a } }
  | .setSensorAngularVelocityInC a => .ok { s with st := { s.st with w := a } }
  | .setControlOriginVelocityInW a => .ok { s with st := { s.st with vC := a } }
  | .setMeasurement ya yg k => setMeasurement s ya yg k
  | .pushMeasurement y => Obs.pushMeasurement cfg s y
  | .clearMeasurements => .ok s.clearMeasurements
  | .setState x k => Obs.setState cfg s x k
  | .setCurrentState x => Obs.setCurrentState cfg s x
  | .clearStates => .ok s.clearStates
  | .getEstimatedState k => getEstimatedState s k
  | .estimateState => do
    let (s, _) ← Obs.estimateState cfg oneStep s
    .ok s

end StateObs.Tilt
