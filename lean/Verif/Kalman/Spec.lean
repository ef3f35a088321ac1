import Mathlib.Data.Real.Basic
import Mathlib.LinearAlgebra.Matrix.NonsingularInverse
import Mathlib.LinearAlgebra.Matrix.PosDef
/-!
# The Kalman filter, as in a textbook

Used to state the properties; nothing here refers to the model of the code.
-/

namespace StateObs.KFSpec
open Matrix
variable {n m p : ℕ}

/-- Predicted covariance. -/
def predCov (A Q P : Matrix (Fin n) (Fin n) ℝ) : Matrix (Fin n) (Fin n) ℝ := A * P * Aᵀ + Q

/-- Innovation covariance, from the predicted covariance `M`. -/
def innovCov (C : Matrix (Fin m) (Fin n) ℝ) (R : Matrix (Fin m) (Fin m) ℝ) (M : Matrix (Fin n) (Fin n) ℝ) :
    Matrix (Fin m) (Fin m) ℝ := C * M * Cᵀ + R

/-- Kalman gain. -/
noncomputable def gain (C : Matrix (Fin m) (Fin n) ℝ) (R : Matrix (Fin m) (Fin m) ℝ) (M : Matrix (Fin n) (Fin n) ℝ) :
    Matrix (Fin n) (Fin m) ℝ := M * Cᵀ * (innovCov C R M)⁻¹

/-- Covariance of the error after a correction with an arbitrary gain `K` (Joseph form). -/
def joseph (K : Matrix (Fin n) (Fin m) ℝ) (C : Matrix (Fin m) (Fin n) ℝ) (R : Matrix (Fin m) (Fin m) ℝ)
    (M : Matrix (Fin n) (Fin n) ℝ) : Matrix (Fin n) (Fin n) ℝ :=
  (1 - K * C) * M * (1 - K * C)ᵀ + K * R * Kᵀ

/-- Posterior covariance. -/
noncomputable def posterior (C : Matrix (Fin m) (Fin n) ℝ) (R : Matrix (Fin m) (Fin m) ℝ)
    (M : Matrix (Fin n) (Fin n) ℝ) : Matrix (Fin n) (Fin n) ℝ := (1 - gain C R M * C) * M

/-- Loewner order: `P ≤ Q` iff `Q - P` is positive semidefinite. -/
def Loewner (P Q : Matrix (Fin n) (Fin n) ℝ) : Prop := (Q - P).PosSemidef

/-- A linear model `x⁺ = A x + B u + w`, `y = C x + D u + v`, with covariances `Q` of `w` and `R` of `v`. -/
structure LinModel (n m p : ℕ) where
  A : Matrix (Fin n) (Fin n) ℝ
  B : Matrix (Fin n) (Fin p) ℝ
  C : Matrix (Fin m) (Fin n) ℝ
  D : Matrix (Fin m) (Fin p) ℝ
  Q : Matrix (Fin n) (Fin n) ℝ
  R : Matrix (Fin m) (Fin m) ℝ

/-- The covariances of the model are covariances, that of the measurement noise is invertible. -/
def LinModel.Ok (d : LinModel n m p) : Prop := d.Q.PosSemidef ∧ d.R.PosDef

/-- What a step is given: the input `u` at time `k`, the input `u'` and the measurement `y` at time `k+1`. -/
structure StepIn (m p : ℕ) where
  u : Fin p → ℝ
  u' : Fin p → ℝ
  y : Fin m → ℝ

/-- Predicted state. -/
def predState (d : LinModel n m p) (u : Fin p → ℝ) (x : Fin n → ℝ) : Fin n → ℝ := d.A *ᵥ x + d.B *ᵥ u

/-- Predicted measurement, from the predicted state. -/
def predMeas (d : LinModel n m p) (u' : Fin p → ℝ) (xb : Fin n → ℝ) : Fin m → ℝ := d.C *ᵥ xb + d.D *ᵥ u'

/-- One step of the textbook filter on (estimate, covariance). -/
noncomputable def linStep (d : LinModel n m p) (i : StepIn m p) (z : (Fin n → ℝ) × Matrix (Fin n) (Fin n) ℝ) :
    (Fin n → ℝ) × Matrix (Fin n) (Fin n) ℝ :=
  let M := predCov d.A d.Q z.2
  let xb := predState d i.u z.1
  (xb + gain d.C d.R M *ᵥ (i.y - predMeas d i.u' xb), posterior d.C d.R M)

/-- `N` steps with time-varying models. -/
noncomputable def linRun (d : ℕ → LinModel n m p) (i : ℕ → StepIn m p) (z : (Fin n → ℝ) × Matrix (Fin n) (Fin n) ℝ) :
    ℕ → (Fin n → ℝ) × Matrix (Fin n) (Fin n) ℝ
  | 0 => z
  | N + 1 => linStep (d N) (i N) (linRun d i z N)

/-- The true state of a system following the models, with process noise `w`. -/
def trueState (d : ℕ → LinModel n m p) (u : ℕ → Fin p → ℝ) (w : ℕ → Fin n → ℝ) (X0 : Fin n → ℝ) : ℕ → Fin n → ℝ
  | 0 => X0
  | N + 1 => (d N).A *ᵥ trueState d u w X0 N + (d N).B *ᵥ u N + w N

/-- What a sensor of that system delivers at times `1, 2, ...`, with measurement noise `v`, together with the inputs. -/
def sensorData (d : ℕ → LinModel n m p) (u : ℕ → Fin p → ℝ) (w : ℕ → Fin n → ℝ) (v : ℕ → Fin m → ℝ) (X0 : Fin n → ℝ) (N : ℕ) :
    StepIn m p :=
  ⟨u N, u (N + 1), (d N).C *ᵥ trueState d u w X0 (N + 1) + (d N).D *ᵥ u (N + 1) + v N⟩

end StateObs.KFSpec
