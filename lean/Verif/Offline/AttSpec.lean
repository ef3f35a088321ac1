import Verif.Offline.AttModel
import Verif.Flex.Spec
import Verif.EKF.FDGeneral
/-! # Specification of the offline estimation of the attitude of an inertial unit -/

namespace StateObs.Offline
open StateObs KF Flex Matrix Imu EKF KFSpec Rot Kine

/-- A state is position, orientation, linear velocity, angular velocity, linear acceleration, angular acceleration. This says that `z` is the
state `dt` after `x` with constant accelerations, the accelerations being then those of the input `u`. -/
structure ImuNext (dt : ℝ) (x : Fin 18 → ℝ) (u : Fin 6 → ℝ) (z : Fin 18 → ℝ) : Prop where
  pos : seg 3 z 0 = seg 3 x 0 + dt • seg 3 x 6 + (dt ^ 2 / 2) • seg 3 x 12
  ori : NormedSpace.exp (hat (seg 3 z 3)) = turn (dt • seg 3 x 9 + (dt ^ 2 / 2) • seg 3 x 15) * turn (seg 3 x 3)
  short : nrm (seg 3 z 3) ≤ Real.pi
  linVel : seg 3 z 6 = seg 3 x 6 + dt • seg 3 x 12
  angVel : seg 3 z 9 = seg 3 x 9 + dt • seg 3 x 15
  linAcc : seg 3 z 12 = seg 3 u 0
  angAcc : seg 3 z 15 = seg 3 u 3

/-- `y` is what the accelerometer and the gyrometer say in the state `x`. -/
structure ImuReading (x : Fin 18 → ℝ) (y : Fin 6 → ℝ) : Prop where
  acc : turn (seg 3 x 3) *ᵥ seg 3 y 0 = seg 3 x 12 + ![0, 0, 9.8]
  gyro : turn (seg 3 x 3) *ᵥ seg 3 y 3 = seg 3 x 9

/-- `AttRun dt Q R x P l r`: starting from the estimate `x` with covariance `P`, an extended Kalman filter with covariances `Q` and `R` on the motion
of an inertial unit, given the measurements with the inputs one sampling time before, gives the estimates `r`. The Jacobians are forward
differences with steps 1e-8. After each correction the orientation vector is replaced by one of norm at most 3π/2 with the same rotation; if it is
longer than π(2³³-1) the behaviour is undefined. -/
inductive AttRun (dt : ℝ) (Q : Matrix (Fin 18) (Fin 18) ℝ) (R : Matrix (Fin 6) (Fin 6) ℝ) :
    (Fin 18 → ℝ) → Matrix (Fin 18) (Fin 18) ℝ → List ((Fin 6 → ℝ) × (Fin 6 → ℝ)) → Res (List (Fin 18 → ℝ)) → Prop
  | done (x P) : AttRun dt Q R x P [] (.ok [])
  | step (x P u y l r) (F : (Fin 18 → ℝ) → Fin 18 → ℝ) (H : (Fin 18 → ℝ) → Fin 6 → ℝ) (A C Pp d v)
      (hF : ∀ x, ImuNext dt x u (F x)) (hH : ∀ x, ImuReading x (H x))
      (hA : A = forwardDiff F (fun _ => 1e-8) x) (hC : C = forwardDiff H (fun _ => 1e-8) (F x)) (hP : Pp = predCov A Q P)
      (hd : d = gain C R Pp *ᵥ (y - H (F x)))
      (hv : ∀ i : Fin 18, i.val < 3 ∨ 6 ≤ i.val → v i = F x i + d i)
      (ho : NormedSpace.exp (hat (seg 3 v 3)) = NormedSpace.exp (hat (seg 3 (F x + d) 3))) (hn : nrm (seg 3 v 3) ≤ 3 / 2 * Real.pi)
      (h : AttRun dt Q R v (posterior C R Pp) l r) : AttRun dt Q R x P ((u, y) :: l) (r >>= fun q => .ok (v :: q))
  | tooLong (x P u y l) (F : (Fin 18 → ℝ) → Fin 18 → ℝ) (H : (Fin 18 → ℝ) → Fin 6 → ℝ) (A C Pp d)
      (hF : ∀ x, ImuNext dt x u (F x)) (hH : ∀ x, ImuReading x (H x))
      (hA : A = forwardDiff F (fun _ => 1e-8) x) (hC : C = forwardDiff H (fun _ => 1e-8) (F x)) (hP : Pp = predCov A Q P)
      (hd : d = gain C R Pp *ᵥ (y - H (F x)))
      (ho : Real.pi * (2 ^ 33 - 1) < nrm (seg 3 (F x + d) 3)) : AttRun dt Q R x P ((u, y) :: l) .ub

end StateObs.Offline
