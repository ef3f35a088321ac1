import Verif.Outcome
import Mathlib.Data.Real.Basic
import Mathlib.Data.Matrix.Mul
import Mathlib.LinearAlgebra.Matrix.NonsingularInverse
/-!
# Dynamically sized matrices

`Eigen::MatrixXd` / `VectorXd` (definitions.hpp 60-120 `Matrix`, `Vector`): the sizes are run-time values. An operation on
incompatible sizes fails Eigen's own assertion (`eigen_assert`, checking build); here it is `assertFail`.
Entries are real numbers: rounding is not modelled.
-/

namespace StateObs

/-- `stateObservation::Matrix`. -/
structure DMat where
  rows : Nat
  cols : Nat
  val : Matrix (Fin rows) (Fin cols) ℝ

/-- `stateObservation::Vector`. -/
structure DVec where
  size : Nat
  val : Fin size → ℝ

namespace DMat

/-- `M.resize(0,0)`, also the value of a default-constructed matrix. -/
def empty : DMat := ⟨0, 0, 0⟩

/-- `M.rows() == r && M.cols() == c`. -/
def hasSize (M : DMat) (r c : Nat) : Bool := decide (M.rows = r ∧ M.cols = c)

/-- `A * B`. -/
def mul (A B : DMat) : Res DMat :=
  if h : A.cols = B.rows then .ok ⟨A.rows, B.cols, A.val * B.val.submatrix (Fin.cast h) id⟩ else .assertFail

/-- `A + B`. -/
def add (A B : DMat) : Res DMat :=
  if h : A.rows = B.rows ∧ A.cols = B.cols then
    .ok ⟨A.rows, A.cols, A.val + B.val.submatrix (Fin.cast h.1) (Fin.cast h.2)⟩ else .assertFail

/-- `A.transpose()`. -/
def transpose (A : DMat) : DMat := ⟨A.cols, A.rows, A.val.transpose⟩

/-- `A * s`. -/
def smul (s : ℝ) (A : DMat) : DMat := ⟨A.rows, A.cols, s • A.val⟩

/-- `-A`. -/
def neg (A : DMat) : DMat := ⟨A.rows, A.cols, -A.val⟩

/-- `A.diagonal().array() += 1`, also for a matrix that is not square. -/
def addDiagOne (A : DMat) : DMat := ⟨A.rows, A.cols, fun i j => A.val i j + if i.val = j.val then 1 else 0⟩

/-- `A * v`. -/
def mulVec (A : DMat) (v : DVec) : Res DVec :=
  if h : A.cols = v.size then .ok ⟨A.rows, A.val.mulVec (v.val ∘ Fin.cast h)⟩ else .assertFail

/-- `Matrix::Zero(r, c)`. -/
def zero (r c : Nat) : DMat := ⟨r, c, 0⟩

@[simp] theorem mul_mk {r k c : Nat} (A : Matrix (Fin r) (Fin k) ℝ) (B : Matrix (Fin k) (Fin c) ℝ) :
    mul ⟨r, k, A⟩ ⟨k, c, B⟩ = .ok ⟨r, c, A * B⟩ := by
  simp only [mul, dif_pos]; rfl

@[simp] theorem add_mk {r c : Nat} (A B : Matrix (Fin r) (Fin c) ℝ) :
    add ⟨r, c, A⟩ ⟨r, c, B⟩ = .ok ⟨r, c, A + B⟩ := by
  simp only [add, and_self, dif_pos]; rfl

@[simp] theorem transpose_mk {r c : Nat} (A : Matrix (Fin r) (Fin c) ℝ) :
    transpose ⟨r, c, A⟩ = ⟨c, r, A.transpose⟩ := rfl

@[simp] theorem smul_mk {r c : Nat} (s : ℝ) (A : Matrix (Fin r) (Fin c) ℝ) :
    smul s ⟨r, c, A⟩ = ⟨r, c, s • A⟩ := rfl

@[simp] theorem neg_mk {r c : Nat} (A : Matrix (Fin r) (Fin c) ℝ) : neg ⟨r, c, A⟩ = ⟨r, c, -A⟩ := rfl

@[simp] theorem addDiagOne_mk {r : Nat} (A : Matrix (Fin r) (Fin r) ℝ) : addDiagOne ⟨r, r, A⟩ = ⟨r, r, A + 1⟩ := by
  have : (fun i j => A i j + if i.val = j.val then 1 else 0) = (A + 1 : Matrix (Fin r) (Fin r) ℝ) := by
    ext i j
    simp [Matrix.one_apply, Fin.ext_iff]
  simp only [addDiagOne]
  rw [this]

@[simp] theorem mulVec_mk {r c : Nat} (A : Matrix (Fin r) (Fin c) ℝ) (v : Fin c → ℝ) :
    mulVec ⟨r, c, A⟩ ⟨c, v⟩ = .ok ⟨r, A.mulVec v⟩ := by
  simp only [mulVec, dif_pos]; rfl

@[simp] theorem hasSize_mk {r c : Nat} (A : Matrix (Fin r) (Fin c) ℝ) : hasSize ⟨r, c, A⟩ r c = true := by
  simp [hasSize]

theorem hasSize_iff (M : DMat) (r c : Nat) :
    M.hasSize r c = true ↔ ∃ A : Matrix (Fin r) (Fin c) ℝ, M = ⟨r, c, A⟩ := by
  constructor
  · intro h
    simp only [hasSize, decide_eq_true_eq] at h
    obtain ⟨rfl, rfl⟩ := h
    exact ⟨M.val, rfl⟩
  · rintro ⟨A, rfl⟩; simp

theorem empty_hasSize (r c : Nat) : empty.hasSize r c = true ↔ r = 0 ∧ c = 0 := by
  rw [hasSize, decide_eq_true_eq]; simp only [empty]; omega

theorem mk_eq {r c : Nat} {A B : Matrix (Fin r) (Fin c) ℝ} : (⟨r, c, A⟩ : DMat) = ⟨r, c, B⟩ ↔ A = B := by
  simp

end DMat

namespace DVec

/-- `v.rows() == n` (`v.cols()` is always 1). -/
def hasSize (v : DVec) (n : Nat) : Bool := decide (v.size = n)

/-- `v + w`. -/
def add (v w : DVec) : Res DVec :=
  if h : v.size = w.size then .ok ⟨v.size, v.val + w.val ∘ Fin.cast h⟩ else .assertFail

/-- `v - w`. -/
def sub (v w : DVec) : Res DVec :=
  if h : v.size = w.size then .ok ⟨v.size, v.val - w.val ∘ Fin.cast h⟩ else .assertFail

/-- `v / s`. -/
noncomputable def divBy (v : DVec) (s : ℝ) : DVec := ⟨v.size, fun i => v.val i / s⟩

/-- `Vector::Zero(n)`. -/
def zero (n : Nat) : DVec := ⟨n, 0⟩

@[simp] theorem add_mk {n : Nat} (v w : Fin n → ℝ) : add ⟨n, v⟩ ⟨n, w⟩ = .ok ⟨n, v + w⟩ := by
  simp only [add, dif_pos]; rfl

@[simp] theorem sub_mk {n : Nat} (v w : Fin n → ℝ) : sub ⟨n, v⟩ ⟨n, w⟩ = .ok ⟨n, v - w⟩ := by
  simp only [sub, dif_pos]; rfl

@[simp] theorem hasSize_mk {n : Nat} (v : Fin n → ℝ) : hasSize ⟨n, v⟩ n = true := by simp [hasSize]

theorem hasSize_iff (v : DVec) (n : Nat) : v.hasSize n = true ↔ ∃ w : Fin n → ℝ, v = ⟨n, w⟩ := by
  constructor
  · intro h
    simp only [hasSize, decide_eq_true_eq] at h
    subst h
    exact ⟨v.val, rfl⟩
  · rintro ⟨w, rfl⟩; simp

theorem mk_eq {n : Nat} {v w : Fin n → ℝ} : (⟨n, v⟩ : DVec) = ⟨n, w⟩ ↔ v = w := by simp

end DVec
end StateObs
