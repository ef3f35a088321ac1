import Verif.Flex.Model
import Verif.Rot.Basic
import Mathlib.Analysis.Normed.Algebra.MatrixExponential
import Verif.Kalman.Props
/-! # Specification of the flexibility estimator with fixed contacts -/

namespace StateObs.Flex
open StateObs KF Imu Rot Kine Matrix

/-- Entry of a matrix of any size, zero outside. -/
def entry (M : DMat) (i j : ℕ) : ℝ := if h : i < M.rows ∧ j < M.cols then M.val ⟨i, h.1⟩ ⟨j, h.2⟩ else 0

/-- What the user has asked for: contacts, covariance of the six inertial measurements, variance of the virtual ones, covariance of the process. -/
structure Request where
  contacts : List V3
  imu : ℕ → ℕ → ℝ
  virt : ℝ
  proc : ℕ → ℕ → ℝ

/-- The documented default. -/
noncomputable def diag6 : ℕ → ℕ → ℝ := fun i j => if i = j then 1e-6 else 0

/-- The documented default for the process: 1e-8 for position and orientation, 1e-4 for the velocities, 1e-2 for the accelerations. -/
noncomputable def diag18 : ℕ → ℕ → ℝ := fun i j => if i = j then (if i < 6 then 1e-8 else if i < 12 then 1e-4 else 1e-2) else 0

/-- After the constructor. -/
noncomputable def Request.start : Request := ⟨[], diag6, 1e-10, diag18⟩

/-- The effect of a call on the request. -/
noncomputable def Request.after (q : Request) : Op → Request
  | .setContactsNumber n => { q with contacts := (List.range n).map fun i => q.contacts.getD i 0 }
  | .setContactPosition i p => { q with contacts := q.contacts.set i p }
  | .setVirtualMeasurementsCovariance c => { q with virt := c }
  | .setMeasurementNoiseCovariance R => { q with imu := entry R }
  | .setProcessNoiseCovariance Q => { q with proc := entry Q }
  | .resetCovarianceMatrices => { q with imu := diag6, proc := diag18 }
  | _ => q

/-- The covariance the filter should use. -/
noncomputable def Request.covariance (q : Request) (i j : ℕ) : ℝ :=
  if i < 6 ∧ j < 6 then q.imu i j else if i = j then q.virt else 0

/-- Calls on a new estimator. -/
noncomputable def run (dt : ℝ) (ops : List Op) : Res Fixed := do
  let s ← ctor dt
  ops.foldlM exec s

/-- Covariances given by the user are covariances, those of the measurements invertible. -/
def Op.Admissible : Op → Prop
  | .setVirtualMeasurementsCovariance c => 0 < c
  | .setMeasurementNoiseCovariance R => IsPD R
  | .setProcessNoiseCovariance Q => IsPSD Q
  | .setFlexibilityCovariance P => IsPSD P
  | _ => True

/-- The calls which compute a prediction in advance. -/
def Op.Predicts : Op → Prop
  | .getPrediction | .getPredictedMeasurement => True
  | _ => False

/-- The rotation of a rotation vector (see C34: those below 1e-16 count as none). -/
noncomputable def turn (v : V3) : M3 := if nrm v ≤ 1e-16 then 1 else NormedSpace.exp (hat v)

/-- A state is position, orientation, linear velocity, angular velocity, linear acceleration, angular acceleration, three numbers each. This says
that `z` is the state `dt` after `x` with constant accelerations. -/
structure Next (dt : ℝ) (x z : Fin 18 → ℝ) : Prop where
  pos : seg 3 z 0 = seg 3 x 0 + dt • seg 3 x 6 + (dt ^ 2 / 2) • seg 3 x 12
  ori : NormedSpace.exp (hat (seg 3 z 3)) = turn (dt • seg 3 x 9 + (dt ^ 2 / 2) • seg 3 x 15) * turn (seg 3 x 3)
  short : nrm (seg 3 z 3) ≤ Real.pi
  linVel : seg 3 z 6 = seg 3 x 6 + dt • seg 3 x 12
  angVel : seg 3 z 9 = seg 3 x 9 + dt • seg 3 x 15
  linAcc : seg 3 z 12 = seg 3 x 12
  angAcc : seg 3 z 15 = seg 3 x 15

/-- The acceleration of a point of the control frame with position, velocity and acceleration `p`, `v`, `a` in it, when the frame has
orientation `R` and motion `x`. -/
def pointAcceleration (R : M3) (x : Fin 18 → ℝ) (p v a : V3) : V3 :=
  seg 3 x 12 + seg 3 x 15 ⨯₃ (R *ᵥ p) + seg 3 x 9 ⨯₃ (seg 3 x 9 ⨯₃ (R *ᵥ p)) + (2 : ℝ) • (seg 3 x 9 ⨯₃ (R *ᵥ v)) + R *ᵥ a

/-- `y` is what the sensors of a robot with flexibility state `x` and contacts `c` say when the sensor moves in the control frame as in `u`
(position, orientation, velocities, acceleration): accelerometer and gyrometer in the frame of the sensor, then the displacements of the contacts. -/
structure Reading (c : List V3) (x : Fin 18 → ℝ) (u : Fin 15 → ℝ) (y : Fin (6 + 3 * c.length) → ℝ) : Prop where
  acc : (turn (seg 3 x 3) * turn (seg 3 u 3)) *ᵥ seg 3 y 0 =
    pointAcceleration (turn (seg 3 x 3)) x (seg 3 u 0) (seg 3 u 6) (seg 3 u 12) + ![0, 0, 9.8]
  gyro : (turn (seg 3 x 3) * turn (seg 3 u 3)) *ᵥ seg 3 y 3 = seg 3 x 9 + turn (seg 3 x 3) *ᵥ seg 3 u 9
  contact : ∀ i (h : i < c.length), seg 3 y (6 + 3 * i) = turn (seg 3 x 3) *ᵥ c[i] + seg 3 x 0 - c[i]

/-- The steps of the finite differences. -/
noncomputable def fdStep (i : Fin 18) : ℝ := if (3 ≤ i.val ∧ i.val < 6) ∨ (9 ≤ i.val ∧ i.val < 12) then 1e-4 else 1e-8

/-- The measurement of the user followed by zeros. -/
def padded (m : ℕ) (y : Fin 6 → ℝ) (i : Fin m) : ℝ := if h : i.val < 6 then y ⟨i.val, h⟩ else 0

end StateObs.Flex
