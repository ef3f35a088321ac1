import Verif.Offline.MltpModel
import Verif.Imu.MltpProps
import Verif.Flex.Spec
import Verif.EKF.FDGeneral
/-! # Specification of the offline estimation of the attitude with a quaternion -/

namespace StateObs.Offline
open StateObs KF Flex Matrix Imu EKF KFSpec Rot Kine Mltp

/-- A state is position (0-2), quaternion (3-6), linear velocity (7-9), angular velocity (10-12), linear acceleration (13-15), angular
acceleration (16-18). The rotation of its quaternion. -/
noncomputable def rotOf (x : Fin 19 → ℝ) : M3 := (quatOf (seg 4 x 3)).toMat

/-- The rotation vector of the motion during `dt` in state `x`. -/
noncomputable def rotationDuring (dt : ℝ) (x : Fin 19 → ℝ) : V3 := dt • seg 3 x 10 + (dt ^ 2 / 2) • seg 3 x 16

/-- `z` is the state `dt` after `x` with constant accelerations, the accelerations being then those of the input `u`. -/
structure MltpNext (dt : ℝ) (x : Fin 19 → ℝ) (u : Fin 6 → ℝ) (z : Fin 19 → ℝ) : Prop where
  unit : Unit4 z
  pos : seg 3 z 0 = seg 3 x 0 + dt • seg 3 x 7 + (dt ^ 2 / 2) • seg 3 x 13
  ori : rotOf z = turn (rotationDuring dt x) * rotOf x
  linVel : seg 3 z 7 = seg 3 x 7 + dt • seg 3 x 13
  angVel : seg 3 z 10 = seg 3 x 10 + dt • seg 3 x 16
  linAcc : seg 3 z 13 = seg 3 u 0
  angAcc : seg 3 z 16 = seg 3 u 3

/-- `y` is what the accelerometer and the gyrometer say in the state `x`. -/
structure MltpReading (x : Fin 19 → ℝ) (y : Fin 6 → ℝ) : Prop where
  acc : rotOf x *ᵥ seg 3 y 0 = seg 3 x 13 + ![0, 0, 9.8]
  gyro : rotOf x *ᵥ seg 3 y 3 = seg 3 x 10

/-- `A` is the derivative of the motion `F` at `x` when the rotation during `dt` is above 1e-16; below, the rotation is counted as null in `A`
(and nothing is said at exactly 1e-16). -/
structure StateJac (dt : ℝ) (F : (Fin 19 → ℝ) → Fin 19 → ℝ) (x : Fin 19 → ℝ) (A : Matrix (Fin 18) (Fin 18) ℝ) : Prop where
  deriv : 1e-16 < nrm (rotationDuring dt x) → ∀ (X : ℝ → Fin 19 → ℝ) (ξ : Fin 18 → ℝ), X 0 = x → (∀ τ, Unit4 (X τ)) → Moves X ξ 0 →
    Moves (fun τ => F (X τ)) (A *ᵥ ξ) 0
  small : nrm (rotationDuring dt x) < 1e-16 → ∀ ξ : Fin 18 → ℝ,
    seg 3 (A *ᵥ ξ) 0 = seg 3 ξ 0 + dt • seg 3 ξ 6 + (dt ^ 2 / 2) • seg 3 ξ 12 ∧
    seg 3 (A *ᵥ ξ) 3 = seg 3 ξ 3 + dt • seg 3 ξ 9 + (dt ^ 2 / 2) • seg 3 ξ 15 ∧
    seg 3 (A *ᵥ ξ) 6 = seg 3 ξ 6 + dt • seg 3 ξ 12 ∧
    seg 3 (A *ᵥ ξ) 9 = seg 3 ξ 9 + dt • seg 3 ξ 15 ∧ seg 3 (A *ᵥ ξ) 12 = 0 ∧ seg 3 (A *ᵥ ξ) 15 = 0

/-- `C` is the derivative of the measurement `H` at `x`. -/
def MeasJac (H : (Fin 19 → ℝ) → Fin 6 → ℝ) (x : Fin 19 → ℝ) (C : Matrix (Fin 6) (Fin 18) ℝ) : Prop :=
  ∀ (X : ℝ → Fin 19 → ℝ) (ξ : Fin 18 → ℝ), X 0 = x → Moves X ξ 0 → HasDerivAt (fun τ => H (X τ)) (C *ᵥ ξ) 0

/-- `v` is `x` corrected by `d`: the vectors are added, the rotation turns from the left. -/
structure Corrected (x : Fin 19 → ℝ) (d : Fin 18 → ℝ) (v : Fin 19 → ℝ) : Prop where
  unit : Unit4 v
  pos : seg 3 v 0 = seg 3 x 0 + seg 3 d 0
  ori : rotOf v = turn (seg 3 d 3) * rotOf x
  linVel : seg 3 v 7 = seg 3 x 7 + seg 3 d 6
  angVel : seg 3 v 10 = seg 3 x 10 + seg 3 d 9
  linAcc : seg 3 v 13 = seg 3 x 13 + seg 3 d 12
  angAcc : seg 3 v 16 = seg 3 x 16 + seg 3 d 15

/-- `MltpRun dt Q R x P l r`: starting from the estimate `x` with covariance `P`, a multiplicative extended Kalman filter with covariances `Q` and `R`
on the motion of an inertial unit, given the measurements with the inputs one sampling time before, gives the estimates `r`. -/
inductive MltpRun (dt : ℝ) (Q : Matrix (Fin 18) (Fin 18) ℝ) (R : Matrix (Fin 6) (Fin 6) ℝ) :
    (Fin 19 → ℝ) → Matrix (Fin 18) (Fin 18) ℝ → List ((Fin 6 → ℝ) × (Fin 6 → ℝ)) → List (Fin 19 → ℝ) → Prop
  | done (x P) : MltpRun dt Q R x P [] []
  | step (x P u y l r) (F : (Fin 19 → ℝ) → Fin 19 → ℝ) (H : (Fin 19 → ℝ) → Fin 6 → ℝ) (A C Pp d v)
      (hF : ∀ x, Unit4 x → MltpNext dt x u (F x)) (hH : ∀ x, Unit4 x → MltpReading x (H x))
      (hA : StateJac dt F x A) (hC : MeasJac H (F x) C) (hP : Pp = predCov A Q P)
      (hd : d = gain C R Pp *ᵥ (y - H (F x))) (hv : Corrected (F x) d v)
      (h : MltpRun dt Q R v (posterior C R Pp) l r) : MltpRun dt Q R x P ((u, y) :: l) (v :: r)

end StateObs.Offline
