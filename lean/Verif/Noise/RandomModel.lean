import Verif.Noise.Model
import Verif.Rot.Eigen
import Mathlib.Analysis.SpecialFunctions.Trigonometric.Basic
/-!
# Random numbers, angles and rotations

The numbers that the generator draws are arguments: `g` for those of `std::normal_distribution<double>(0, 1)`, `u` in `[0, 1)` for the one of
`std::generate_canonical`.
-/

namespace StateObs.Noise
open Matrix StateObs

/-- `getGaussianScalar(std, bias)`, probability-law-simulation.cpp 11-15. `std::normal_distribution(mean, stddev)` scales a number of the standard law and adds the
mean; it requires a positive standard deviation. -/
noncomputable def getGaussianScalar (std bias g : ℝ) : Res ℝ := if 0 < std then .ok (g * std + bias) else .ub

/-- `getUniformScalar(min, max)`, probability-law-simulation.cpp 17-21. `std::uniform_real_distribution(a, b)` gives `u * (b - a) + a`; it requires `a ≤ b`. -/
noncomputable def getUniformScalar (min max u : ℝ) : Res ℝ := if min ≤ max then .ok (u * (max - min) + min) else .ub

/-- `randomAngle`, rigid-body-kinematics.hxx 492-495. -/
noncomputable def randomAngle (u : ℝ) : Res ℝ := getUniformScalar (-Real.pi) Real.pi u

/-- `zeroRotationQuaternion`, rigid-body-kinematics.hxx 482-485. -/
def zeroRotationQuaternion : Rot.Quat := ⟨1, 0, 0, 0⟩

/-- `MatrixBase::normalized()` of a vector with four coefficients: unchanged if the norm is zero. -/
noncomputable def normalized4 (v : Fin 4 → ℝ) : Fin 4 → ℝ := if v ⬝ᵥ v > 0 then (1 / Real.sqrt (v ⬝ᵥ v)) • v else v

/-- `Quaternion(Vector4)`: the coefficients are stored in the order x, y, z, w. -/
def quatOfCoeffs (v : Fin 4 → ℝ) : Rot.Quat := ⟨v 3, v 0, v 1, v 2⟩

/-- `randomRotationQuaternion`, rigid-body-kinematics.hxx 487-490. -/
noncomputable def randomRotationQuaternion (g : ℕ → ℝ) : Res Rot.Quat := do
  let v ← getGaussianVector ⟨4, 4, 1⟩ ⟨4, 0⟩ 4 g
  if h : v.size = 4 then .ok (quatOfCoeffs (normalized4 (v.val ∘ Fin.cast h.symm))) else .assertFail

end StateObs.Noise
