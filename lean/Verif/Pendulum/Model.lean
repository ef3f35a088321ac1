import Verif.Imu.Model
import Verif.Kalman.DynMat
import Mathlib.Analysis.SpecialFunctions.Trigonometric.Basic
/-!
# The elastic inverted pendulum

src/bidim-elastic-inv-pendulum-dyn-sys.cpp, bidim-elastic-inv-pendulum-dyn-sys.hpp, dynamical-system-functor-base.hpp.
-/

namespace StateObs.Pendulum
open StateObs

/-- The members, hpp 72-79. `k_` is not initialised by the constructor (`none`). A noise is any function on vectors of size 4 with a state `R`. -/
structure Sys (R : Type) where
  k : Option ℝ
  m : ℝ
  h : ℝ
  noise : Option (Imu.VNoise R 4)
  dt : ℝ

/-- The constructor, cpp 8-14. -/
def Sys.new {R : Type} : Sys R := ⟨none, 1, 1, none, 1⟩

/-- `thetadotdot`, cpp 33-35. Reading `k_` before it is set and a division by zero are `ub`. -/
noncomputable def angAcc {R : Type} (s : Sys R) (p θ pd θd pdd : ℝ) : Res ℝ :=
  match s.k with
  | none => .ub
  | some k =>
    if s.m * (p * p + s.h * s.h) = 0 then .ub
    else .ok ((1 / (s.m * (p * p + s.h * s.h))) * (-k * θ - s.m * 9.8 * (Real.cos θ * p - Real.sin θ * s.h) + s.m * (s.h * pdd - 2 * θd * (s.h * pd))))

/-- `stateDynamics`, cpp 21-46. -/
noncomputable def stateDynamics {R : Type} (s : Sys R) (r : R) (x u : DVec) : Res ((Fin 4 → ℝ) × R) :=
  if hx : x.size = 4 then
    if hu : u.size = 1 then do
      let x := x.val ∘ Fin.cast hx.symm
      let u := u.val ∘ Fin.cast hu.symm
      let a ← angAcc s (x 0) (x 1) (x 2) (x 3) (u 0)
      Imu.addNoise s.noise r ![x 0 + s.dt * x 2, x 1 + s.dt * x 3, x 2 + s.dt * u 0, x 3 + s.dt * a]
    else .assertFail
  else .assertFail

/-- `measureDynamics`, cpp 66-70. -/
def measureDynamics (_x _u : DVec) : Fin 0 → ℝ := 0

/-- The calls that change the object, cpp 48-64, 72-96. -/
inductive Op (R : Type) where
  | setHeight (h : ℝ)
  | setMass (m : ℝ)
  | setElasticity (k : ℝ)
  | setProcessNoise (n : Imu.VNoise R 4)
  | resetProcessNoise
  | setMeasurementNoise
  | resetMeasurementNoise
  | setSamplingPeriod (dt : ℝ)

/-- Their effects. -/
def Op.exec {R : Type} (s : Sys R) : Op R → Sys R
  | .setHeight h => { s with h := h }
  | .setMass m => { s with m := m }
  | .setElasticity k => { s with k := some k }
  | .setProcessNoise n => { s with noise := some n }
  | .resetProcessNoise => { s with noise := none }
  | .setMeasurementNoise => s
  | .resetMeasurementNoise => s
  | .setSamplingPeriod dt => { s with dt := dt }

/-- A run. -/
def run {R : Type} (l : List (Op R)) : Sys R := l.foldl Op.exec Sys.new

end StateObs.Pendulum
