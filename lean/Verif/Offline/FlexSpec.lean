import Verif.Offline.FlexModel
import Verif.Flex.Spec
import Verif.EKF.FDGeneral
/-! # Specification of the offline estimation of a flexibility -/

namespace StateObs.Offline
open StateObs KF Flex Matrix Imu EKF KFSpec Rot Kine

/-- What is said about one time: the estimate, the correction made by the filter, the measurement predicted. -/
structure Report (m : ℕ) where
  estimate : Fin 18 → ℝ
  correction : Fin 18 → ℝ
  predicted : Fin m → ℝ

/-- `FlexRun dt c Q R x P l r`: starting from the estimate `x` with covariance `P`, an extended Kalman filter with process and measurement covariances
`Q` and `R` on the motion with constant accelerations and period `dt`, measured by the sensors of a robot with contacts `c`, given the inputs and
measurements `l`, reports `r`. The Jacobians are forward differences with the documented steps. After each correction the orientation vector is
replaced by one of norm at most 3π/2 with the same rotation; if it is longer than π(2³³-1) the behaviour is undefined. -/
inductive FlexRun (dt : ℝ) (c : List V3) (Q : Matrix (Fin 18) (Fin 18) ℝ) (R : Matrix (Fin (6 + 3 * c.length)) (Fin (6 + 3 * c.length)) ℝ) :
    (Fin 18 → ℝ) → Matrix (Fin 18) (Fin 18) ℝ → List ((Fin 15 → ℝ) × (Fin 6 → ℝ)) → Res (List (Report (6 + 3 * c.length))) → Prop
  | done (x P) : FlexRun dt c Q R x P [] (.ok [])
  | step (x P u y l r) (F : (Fin 18 → ℝ) → Fin 18 → ℝ) (H : (Fin 18 → ℝ) → Fin (6 + 3 * c.length) → ℝ) (A C Pp d v)
      (hF : ∀ x, Next dt x (F x)) (hH : ∀ x, Reading c x u (H x))
      (hA : A = forwardDiff F fdStep x) (hC : C = forwardDiff H fdStep (F x)) (hP : Pp = predCov A Q P)
      (hd : d = gain C R Pp *ᵥ (padded (6 + 3 * c.length) y - H (F x)))
      (hv : ∀ i : Fin 18, i.val < 3 ∨ 6 ≤ i.val → v i = F x i + d i)
      (ho : NormedSpace.exp (hat (seg 3 v 3)) = NormedSpace.exp (hat (seg 3 (F x + d) 3))) (hn : nrm (seg 3 v 3) ≤ 3 / 2 * Real.pi)
      (h : FlexRun dt c Q R v (posterior C R Pp) l r) : FlexRun dt c Q R x P ((u, y) :: l) (r >>= fun q => .ok (⟨v, d, H (F x)⟩ :: q))
  | tooLong (x P u y l) (F : (Fin 18 → ℝ) → Fin 18 → ℝ) (H : (Fin 18 → ℝ) → Fin (6 + 3 * c.length) → ℝ) (A C Pp d)
      (hF : ∀ x, Next dt x (F x)) (hH : ∀ x, Reading c x u (H x))
      (hA : A = forwardDiff F fdStep x) (hC : C = forwardDiff H fdStep (F x)) (hP : Pp = predCov A Q P)
      (hd : d = gain C R Pp *ᵥ (padded (6 + 3 * c.length) y - H (F x)))
      (ho : Real.pi * (2 ^ 33 - 1) < nrm (seg 3 (F x + d) 3)) : FlexRun dt c Q R x P ((u, y) :: l) .ub

/-- The covariance of process and initial guess: 1e-8 for linear velocity and angular acceleration, 1e-4 for the others. -/
noncomputable def guessCov : Matrix (Fin 18) (Fin 18) ℝ :=
  Matrix.diagonal fun i => if (6 ≤ i.val ∧ i.val < 9) ∨ 15 ≤ i.val then 1e-8 else 1e-4

/-- The covariance of the measurements: 1e-30 for the sensors, 1e-10 for the contacts. -/
noncomputable def measCov (m : ℕ) : Matrix (Fin m) (Fin m) ℝ := Matrix.diagonal fun i => if i.val < 6 then 1e-30 else 1e-10

/-- The array `a` has the values `w` from time `k` on. -/
def Holds (a : IArr DVec) (k : Int) (w : List DVec) : Prop := ∀ j (h : j < w.length), a.get (k + j) = .ok w[j]

/-- Values can be added to the array from time `k` on. -/
def Ready (a : IArr DVec) (k : Int) : Prop := a.v = [] ∨ a.getNextIndex = k

end StateObs.Offline
