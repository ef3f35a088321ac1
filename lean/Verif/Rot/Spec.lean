import Verif.Rot.Basic
import Mathlib.Analysis.SpecialFunctions.Trigonometric.Basic
/-!
# Specification vocabulary for rotations: elementary rotations
-/

namespace StateObs.Rot
open Matrix

/-- Rotation of angle `t` about the x axis. -/
noncomputable def rotX (t : ℝ) : M3 := !![1, 0, 0; 0, Real.cos t, -Real.sin t; 0, Real.sin t, Real.cos t]
/-- Rotation of angle `t` about the y axis. -/
noncomputable def rotY (t : ℝ) : M3 := !![Real.cos t, 0, Real.sin t; 0, 1, 0; -Real.sin t, 0, Real.cos t]
/-- Rotation of angle `t` about the z axis. -/
noncomputable def rotZ (t : ℝ) : M3 := !![Real.cos t, -Real.sin t, 0; Real.sin t, Real.cos t, 0; 0, 0, 1]

end StateObs.Rot
