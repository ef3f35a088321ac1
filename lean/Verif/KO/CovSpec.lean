import Verif.KO.LayoutProps
import Mathlib.LinearAlgebra.Matrix.PosDef
/-!
# Covariances: what the setters should do (C54)
-/

namespace StateObs.KO
open StateObs Matrix Rot Kine KF

/-- The index `r` is in the segment of `n` entries that starts at `i`. -/
def InSeg (i n r : ℕ) : Prop := i ≤ r ∧ r < i + n

instance (i n r : ℕ) : Decidable (InSeg i n r) := inferInstanceAs (Decidable (_ ∧ _))

/-- `P'` is `P` in which the rows and columns of the segment of `n` entries starting at `i` are replaced: by `B` on the diagonal block, by zero elsewhere. -/
structure Replaced {N n : ℕ} (P P' : Matrix (Fin N) (Fin N) ℝ) (i : ℕ) (B : Matrix (Fin n) (Fin n) ℝ) : Prop where
  range : i + n ≤ N
  inside : ∀ r c : Fin n, P' ⟨i + r, by omega⟩ ⟨i + c, by omega⟩ = B r c
  right : ∀ r c : Fin N, InSeg i n r → ¬ InSeg i n c → P' r c = 0
  left : ∀ r c : Fin N, ¬ InSeg i n r → InSeg i n c → P' r c = 0
  outside : ∀ r c : Fin N, ¬ InSeg i n r → ¬ InSeg i n c → P' r c = P r c

/-- A block to be written: start, size, value. -/
structure Block where
  start : ℕ
  size : ℕ
  val : Matrix (Fin size) (Fin size) ℝ

/-- The replacements of a list of blocks, one after the other. -/
inductive ReplacedAll {N : ℕ} : Matrix (Fin N) (Fin N) ℝ → List Block → Matrix (Fin N) (Fin N) ℝ → Prop where
  | nil (P) : ReplacedAll P [] P
  | cons {P P1 P2 b l} (h : Replaced P P1 b.start b.val) (t : ReplacedAll P1 l P2) : ReplacedAll P (b :: l) P2

/-- The call changes the covariance of the state by these replacements, and nothing else. -/
def StateCov (o o' : Observer) (l : List Block) : Prop :=
  ∃ P P' : Matrix (Fin o.tangentSize) (Fin o.tangentSize) ℝ, o.getStateCovarianceMat = ⟨_, _, P⟩ ∧
    o' = { o with ekf := { o.ekf with st := { o.ekf.st with pr := ⟨_, _, P'⟩ } } } ∧ ReplacedAll P l P'

/-- The same for the covariance of the process noise. -/
def ProcessCov (o o' : Observer) (l : List Block) : Prop :=
  ∃ P P' : Matrix (Fin o.tangentSize) (Fin o.tangentSize) ℝ, o.ekf.st.q = ⟨_, _, P⟩ ∧
    o' = { o with ekf := { o.ekf with st := { o.ekf.st with q := ⟨_, _, P'⟩ } } } ∧ ReplacedAll P l P'

end StateObs.KO
