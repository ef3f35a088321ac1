import Verif.Kalman.Spec
import Mathlib.MeasureTheory.Function.L2Space
import Mathlib.Probability.Distributions.Gaussian.IsGaussianProcess.Def
/-!
# Random systems

A linear system whose initial state and noises are random vectors on a probability space `Ω`. Used to state property C116; nothing here
refers to the model of the code.
-/

namespace StateObs.KFSpec
open Matrix MeasureTheory ProbabilityTheory
variable {n m p : ℕ} {Ω : Type} [MeasurableSpace Ω]

/-- Mean of a random vector. -/
noncomputable def mean {a : ℕ} (μ : Measure Ω) (f : Ω → Fin a → ℝ) : Fin a → ℝ := fun i => ∫ ω, f ω i ∂μ

/-- Second moments of two random vectors: the expectation of `f gᵀ`. -/
noncomputable def secondMoment {a b : ℕ} (μ : Measure Ω) (f : Ω → Fin a → ℝ) (g : Ω → Fin b → ℝ) : Matrix (Fin a) (Fin b) ℝ :=
  Matrix.of fun i j => ∫ ω, f ω i * g ω j ∂μ

/-- Random vectors with finite second moments. -/
def SquareIntegrable {a : ℕ} (μ : Measure Ω) (f : Ω → Fin a → ℝ) : Prop := ∀ i, MemLp (fun ω => f ω i) 2 μ

/-- The assumptions of the Kalman filter: the initial state has mean `x` and covariance `P`, the process noise of time `k` has mean zero
and covariance `Q k`, the measurement noise of time `k + 1` has mean zero and covariance `R k`, and all of them are mutually uncorrelated. -/
structure Assumptions (μ : Measure Ω) (x : Fin n → ℝ) (P : Matrix (Fin n) (Fin n) ℝ) (d : ℕ → LinModel n m p)
    (X : Ω → Fin n → ℝ) (w : ℕ → Ω → Fin n → ℝ) (v : ℕ → Ω → Fin m → ℝ) : Prop where
  X_sq : SquareIntegrable μ X
  w_sq : ∀ k, SquareIntegrable μ (w k)
  v_sq : ∀ k, SquareIntegrable μ (v k)
  X_mean : mean μ X = x
  w_mean : ∀ k, mean μ (w k) = 0
  v_mean : ∀ k, mean μ (v k) = 0
  X_cov : secondMoment μ (fun ω => X ω - x) (fun ω => X ω - x) = P
  w_cov : ∀ k, secondMoment μ (w k) (w k) = (d k).Q
  v_cov : ∀ k, secondMoment μ (v k) (v k) = (d k).R
  X_w : ∀ k, secondMoment μ X (w k) = 0
  X_v : ∀ k, secondMoment μ X (v k) = 0
  w_w : ∀ k l, k ≠ l → secondMoment μ (w k) (w l) = 0
  v_v : ∀ k l, k ≠ l → secondMoment μ (v k) (v l) = 0
  w_v : ∀ k l, secondMoment μ (w k) (v l) = 0

/-- The family of all components of the initial state and of the noises. -/
def source (X : Ω → Fin n → ℝ) (w : ℕ → Ω → Fin n → ℝ) (v : ℕ → Ω → Fin m → ℝ) :
    Fin n ⊕ (ℕ × Fin n) ⊕ (ℕ × Fin m) → Ω → ℝ
  | .inl i, ω => X ω i
  | .inr (.inl (k, i)), ω => w k ω i
  | .inr (.inr (k, i)), ω => v k ω i

/-- State of the system at time `N`. -/
def stateAt (d : ℕ → LinModel n m p) (u : ℕ → Fin p → ℝ) (X : Ω → Fin n → ℝ) (w : ℕ → Ω → Fin n → ℝ) (N : ℕ) (ω : Ω) :
    Fin n → ℝ := trueState d u (fun j => w j ω) (X ω) N

/-- Measurement of time `j + 1`. -/
def measurementAt (d : ℕ → LinModel n m p) (u : ℕ → Fin p → ℝ) (X : Ω → Fin n → ℝ) (w : ℕ → Ω → Fin n → ℝ)
    (v : ℕ → Ω → Fin m → ℝ) (j : ℕ) (ω : Ω) : Fin m → ℝ :=
  (sensorData d u (fun j => w j ω) (fun j => v j ω) (X ω) j).y

end StateObs.KFSpec
