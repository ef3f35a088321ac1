import Verif.Imu.CacheProps
import Verif.Rot.Props
import Mathlib.Topology.Basic
/-! # What one prediction of the systems of an inertial measurement unit means -/

namespace StateObs.Imu
open StateObs Matrix Rot Kine

/-- The rotation of the rotation vector `v`: its exponential; vectors not longer than 1e-16 give no rotation (C34). -/
noncomputable def turned (v : V3) : M3 := if nrm v ≤ 1e-16 then 1 else NormedSpace.exp (hat v)

/-- A state has position, orientation, linear velocity, angular velocity, linear acceleration, angular acceleration, three numbers each. This says that `z` has the pose and the
velocities `dt` after `x` with the constant accelerations `a`, `α`. -/
structure After (dt : ℝ) (a α : V3) (x z : Fin 18 → ℝ) : Prop where
  pos : seg 3 z 0 = seg 3 x 0 + dt • seg 3 x 6 + (dt ^ 2 / 2) • a
  linVel : seg 3 z 6 = seg 3 x 6 + dt • a
  ori : NormedSpace.exp (hat (seg 3 z 3)) = turned (dt • seg 3 x 9 + (dt ^ 2 / 2) • α) * turned (seg 3 x 3)
  short : nrm (seg 3 z 3) ≤ Real.pi
  angVel : seg 3 z 9 = seg 3 x 9 + dt • α

/-- The accelerations of `z`. -/
structure Accelerates (z : Fin 18 → ℝ) (a α : V3) : Prop where
  linAcc : seg 3 z 12 = a
  angAcc : seg 3 z 15 = α

/-- The acceleration of a spring that pulls to the origin, with pulsation 5 and damping ratio 0.1: `-ω₀² x - 2 ζ ω₀ x'`. -/
noncomputable def spring (x x' : V3) : V3 := -((5 : ℝ) ^ 2) • x - (2 * 0.1 * 5 : ℝ) • x'

/-- What the class does with the accelerations: the accelerations during the step, and those of the next state. -/
def Steps : (v : Variant) → ℝ → (Fin 18 → ℝ) → (Fin (inputSize v) → ℝ) → (Fin 18 → ℝ) → Prop
  | .imu, dt, x, u, z => After dt (seg 3 x 12) (seg 3 x 15) x z ∧ Accelerates z (seg 3 u 0) (seg 3 u 3)
  | .mag, dt, x, _, z => After dt (seg 3 x 12) (seg 3 x 15) x z ∧ Accelerates z 0 0
  | .fixed, dt, x, _, z => After dt (seg 3 x 12) (seg 3 x 15) x z ∧ Accelerates z (seg 3 x 12) (seg 3 x 15)
  | .stable, dt, x, _, z => After dt (spring (seg 3 x 0) (seg 3 x 6)) (spring (seg 3 x 3) (seg 3 x 9)) x z ∧
      Accelerates z (spring (seg 3 x 0) (seg 3 x 6)) (spring (seg 3 x 3) (seg 3 x 9))

/-- The sampling period after some calls: the last one that was set, or that of the constructor. -/
def period {G : Type} {v : Variant} (dt : ℝ) : List (Op G v) → ℝ
  | [] => dt
  | .setSamplingPeriod d :: ops => period d ops
  | _ :: ops => period dt ops

/-- Whether there is a process noise after some calls: none at first, then what was set last. -/
def hasNoise {G : Type} {v : Variant} (b : Bool) : List (Op G v) → Bool
  | [] => b
  | .setProcessNoise n :: ops => hasNoise n.isSome ops
  | _ :: ops => hasNoise b ops

/-- `z` is what a system with the sampling period `dt`, without process noise, predicts from `x`, for some input, after some calls. -/
def Predicted (G : Type) (v : Variant) (dt : ℝ) (x z : Fin 18 → ℝ) : Prop :=
  ∃ (dt0 : ℝ) (past : List (Op G v)) (r0 r r' : G) (s s' : Sys G) (u : Fin (inputSize v) → ℝ),
    run v (ctor dt0) r0 past = .ok (s, r) ∧ period dt0 past = dt ∧ hasNoise false past = false ∧ stateDynamics v s x u r = .ok (z, s', r')

end StateObs.Imu
