import Verif.Rot.Basic
import Mathlib.MeasureTheory.Constructions.BorelSpace.Real
/-!
# Specification: uniformly distributed rotations

A random rotation is uniformly distributed if turning it, on either side, by any fixed rotation does not change its law. (`C115_unique` shows that there is only one
such law.)
-/

namespace StateObs.Noise
open MeasureTheory Rot

/-- The law of a random matrix: a measure on its coefficients. -/
noncomputable def law {Ω : Type*} [MeasurableSpace Ω] (P : Measure Ω) (R : Ω → M3) : Measure (Fin 3 → Fin 3 → ℝ) := P.map fun ω i j => R ω i j

/-- The random matrix `R` is a uniformly distributed rotation. -/
structure UniformRotation {Ω : Type*} [MeasurableSpace Ω] (P : Measure Ω) (R : Ω → M3) : Prop where
  measurable : AEMeasurable (fun ω i j => R ω i j) P
  rotation : ∀ᵐ ω ∂P, IsRot (R ω)
  left : ∀ Q, IsRot Q → law P (fun ω => Q * R ω) = law P R
  right : ∀ Q, IsRot Q → law P (fun ω => R ω * Q) = law P R

end StateObs.Noise
