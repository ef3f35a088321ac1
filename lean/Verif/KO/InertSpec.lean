import Verif.KO.StateSpec
import Verif.KO.StateLemmas
/-!
# Specification of the components that the estimation cannot see (C109)
-/

namespace StateObs.KO
open StateObs Matrix Rot Kine KF

/-- The biases of the gyrometers and the rest poses of the contacts. -/
def Comp.inert : Comp → Bool
  | .gyroBias _ | .contactPosition _ | .contactOrientation _ => true
  | _ => false

/-- The rows of these components in the tangent vector: the biases of the `ni` gyrometers from row 12, and the first six of the twelve rows of each contact, from
row `18 + 3 ni` (see C53). -/
def InertRow (ni k : ℕ) : Prop := (12 ≤ k ∧ k < 12 + 3 * ni) ∨ (18 + 3 * ni ≤ k ∧ (k - (18 + 3 * ni)) % 12 < 6)

/-- The matrix has no covariance between the rows in `s` and the others. -/
def NoCross (s : ℕ → Prop) (P : DMat) : Prop := ∀ (i : Fin P.rows) (j : Fin P.cols), (s i ↔ ¬ s j) → P.val i j = 0

/-- A covariance of a contact has no covariance between the pose and the wrench. -/
def PoseApart (B : M12) : Prop := ∀ i j, (i.1 < 6 ↔ ¬ j.1 < 6) → B i j = 0

/-- A diagonal matrix. -/
def Diag {n : ℕ} (B : Matrix (Fin n) (Fin n) ℝ) : Prop := ∀ i j, i ≠ j → B i j = 0

/-- The covariances given to a call do not relate the components `inert` to the others. (The default ones do not; the default ones of the biases and of the
unmodeled wrench must be diagonal, since `setGyroBias` and `setStateUnmodeledWrench` write them one row too low.) -/
def Op.Apart (ni : ℕ) : Op → Prop
  | .addContact _ c _ _ => ∀ p ∈ c, PoseApart p.1 ∧ PoseApart p.2
  | .setStateCovarianceMat P => NoCross (InertRow ni) P
  | .setProcessNoiseCovarianceMat Q => NoCross (InertRow ni) Q
  | .setContactStateCovMat _ B => PoseApart B
  | .setContactInitCovMatDefault B => PoseApart B
  | .setContactProcessCovMat _ B => PoseApart B
  | .setGyroBiasInitCovarianceDefault B => Diag B
  | .setUnmodeledWrenchInitCovMatDefault B => Diag B
  | _ => True

/-- The calls by which a client gives the bias of the gyrometer `i`: `setGyroBias`, and `setStateVector` (see C53 for the place). -/
noncomputable def biasStep (i : ℕ) (b : V3) : Op → V3
  | .setGyroBias c j _ => if j = i then c else b
  | .setStateVector v _ => ![at1 v (13 + 3 * i), at1 v (13 + 3 * i + 1), at1 v (13 + 3 * i + 2)]
  | _ => b

/-- The bias of the gyrometer `i` that the client gave last, zero before the first one. -/
noncomputable def givenBias (i : ℕ) (l : List Op) : V3 := l.foldl (biasStep i) 0

end StateObs.KO
