import Mathlib.Data.Real.StarOrdered
import Mathlib.LinearAlgebra.Matrix.PosDef
import Mathlib.LinearAlgebra.Matrix.Block
import Mathlib.Algebra.BigOperators.Fin
/-!
# Matrices with four blocks of the same size

The states of the LIPM estimators are pairs (DCM, bias); these are the corresponding block operations.
-/

namespace StateObs.Blocks
open Matrix
variable {d e : ℕ}

/-- `M << A, B, C, D`. -/
def blk (A B C D : Matrix (Fin d) (Fin d) ℝ) : Matrix (Fin (d + d)) (Fin (d + d)) ℝ :=
  fun i j => Fin.addCases (fun i => Fin.addCases (fun j => A i j) (fun j => B i j) j) (fun i => Fin.addCases (fun j => C i j) (fun j => D i j) j) i

/-- `M << A, B` (one above the other). -/
def colBlk (A B : Matrix (Fin d) (Fin e) ℝ) : Matrix (Fin (d + d)) (Fin e) ℝ :=
  fun i j => Fin.addCases (fun i => A i j) (fun i => B i j) i

/-- `M << A, B` (side by side). -/
def rowBlk (A B : Matrix (Fin e) (Fin d) ℝ) : Matrix (Fin e) (Fin (d + d)) ℝ :=
  fun i j => Fin.addCases (fun j => A i j) (fun j => B i j) j

/-- `topLeftCorner`. -/
def tl (M : Matrix (Fin (d + d)) (Fin (d + d)) ℝ) : Matrix (Fin d) (Fin d) ℝ := fun i j => M (Fin.castAdd d i) (Fin.castAdd d j)
/-- `topRightCorner`. -/
def tr (M : Matrix (Fin (d + d)) (Fin (d + d)) ℝ) : Matrix (Fin d) (Fin d) ℝ := fun i j => M (Fin.castAdd d i) (Fin.natAdd d j)
/-- `bottomLeftCorner`. -/
def bl (M : Matrix (Fin (d + d)) (Fin (d + d)) ℝ) : Matrix (Fin d) (Fin d) ℝ := fun i j => M (Fin.natAdd d i) (Fin.castAdd d j)
/-- `bottomRightCorner`. -/
def br (M : Matrix (Fin (d + d)) (Fin (d + d)) ℝ) : Matrix (Fin d) (Fin d) ℝ := fun i j => M (Fin.natAdd d i) (Fin.natAdd d j)

/-- `x << a, b`. -/
def vcat (a b : Fin d → ℝ) : Fin (d + d) → ℝ := fun i => Fin.addCases a b i
/-- `x.head`. -/
def head (x : Fin (d + d) → ℝ) : Fin d → ℝ := fun i => x (Fin.castAdd d i)
/-- `x.tail`. -/
def tail (x : Fin (d + d) → ℝ) : Fin d → ℝ := fun i => x (Fin.natAdd d i)

@[simp] theorem tl_blk (A B C D : Matrix (Fin d) (Fin d) ℝ) : tl (blk A B C D) = A := by ext i j; simp [-Fin.natAdd_eq_addNat, tl, blk]
@[simp] theorem tr_blk (A B C D : Matrix (Fin d) (Fin d) ℝ) : tr (blk A B C D) = B := by ext i j; simp [-Fin.natAdd_eq_addNat, tr, blk]
@[simp] theorem bl_blk (A B C D : Matrix (Fin d) (Fin d) ℝ) : bl (blk A B C D) = C := by ext i j; simp [-Fin.natAdd_eq_addNat, bl, blk]
@[simp] theorem br_blk (A B C D : Matrix (Fin d) (Fin d) ℝ) : br (blk A B C D) = D := by ext i j; simp [-Fin.natAdd_eq_addNat, br, blk]
@[simp] theorem head_vcat (a b : Fin d → ℝ) : head (vcat a b) = a := by ext i; simp [-Fin.natAdd_eq_addNat, head, vcat]
@[simp] theorem tail_vcat (a b : Fin d → ℝ) : tail (vcat a b) = b := by ext i; simp [-Fin.natAdd_eq_addNat, tail, vcat]

theorem vcat_eta (x : Fin (d + d) → ℝ) : vcat (head x) (tail x) = x := by
  ext i; refine Fin.addCases (fun i => ?_) (fun i => ?_) i <;> simp [-Fin.natAdd_eq_addNat, vcat, head, tail]

theorem blk_eta (M : Matrix (Fin (d + d)) (Fin (d + d)) ℝ) : blk (tl M) (tr M) (bl M) (br M) = M := by
  ext i j
  refine Fin.addCases (fun i => ?_) (fun i => ?_) i <;> refine Fin.addCases (fun j => ?_) (fun j => ?_) j <;> simp [-Fin.natAdd_eq_addNat, blk, tl, tr, bl, br]

theorem vcat_add (a b a' b' : Fin d → ℝ) : vcat a b + vcat a' b' = vcat (a + a') (b + b') := by
  ext i; refine Fin.addCases (fun i => ?_) (fun i => ?_) i <;> simp [-Fin.natAdd_eq_addNat, vcat]

theorem vcat_inj {a b a' b' : Fin d → ℝ} : vcat a b = vcat a' b' ↔ a = a' ∧ b = b' := by
  constructor
  · intro h
    have h1 := congrArg head h
    have h2 := congrArg tail h
    simpa using And.intro h1 h2
  · rintro ⟨rfl, rfl⟩; rfl

theorem head_add (x y : Fin (d + d) → ℝ) : head (x + y) = head x + head y := rfl
theorem tail_add (x y : Fin (d + d) → ℝ) : tail (x + y) = tail x + tail y := rfl

theorem blk_mulVec (A B C D : Matrix (Fin d) (Fin d) ℝ) (a b : Fin d → ℝ) :
    blk A B C D *ᵥ vcat a b = vcat (A *ᵥ a + B *ᵥ b) (C *ᵥ a + D *ᵥ b) := by
  ext i
  refine Fin.addCases (fun i => ?_) (fun i => ?_) i <;> simp [-Fin.natAdd_eq_addNat, mulVec, dotProduct, Fin.sum_univ_add, blk, vcat]

theorem colBlk_mulVec (A B : Matrix (Fin d) (Fin e) ℝ) (u : Fin e → ℝ) : colBlk A B *ᵥ u = vcat (A *ᵥ u) (B *ᵥ u) := by
  ext i
  refine Fin.addCases (fun i => ?_) (fun i => ?_) i <;> simp [-Fin.natAdd_eq_addNat, mulVec, dotProduct, colBlk, vcat]

theorem rowBlk_mulVec (A B : Matrix (Fin e) (Fin d) ℝ) (a b : Fin d → ℝ) : rowBlk A B *ᵥ vcat a b = A *ᵥ a + B *ᵥ b := by
  ext i
  simp [-Fin.natAdd_eq_addNat, mulVec, dotProduct, Fin.sum_univ_add, rowBlk, vcat]

theorem blk_transpose (A B C D : Matrix (Fin d) (Fin d) ℝ) : (blk A B C D)ᵀ = blk Aᵀ Cᵀ Bᵀ Dᵀ := by
  ext i j
  refine Fin.addCases (fun i => ?_) (fun i => ?_) i <;> refine Fin.addCases (fun j => ?_) (fun j => ?_) j <;> simp [-Fin.natAdd_eq_addNat, blk]

/-- The quadratic form of a block matrix. -/
theorem blk_quad (A B C D : Matrix (Fin d) (Fin d) ℝ) (a b : Fin d → ℝ) :
    vcat a b ⬝ᵥ (blk A B C D *ᵥ vcat a b) = a ⬝ᵥ (A *ᵥ a) + a ⬝ᵥ (B *ᵥ b) + (b ⬝ᵥ (C *ᵥ a) + b ⬝ᵥ (D *ᵥ b)) := by
  rw [blk_mulVec]
  simp only [dotProduct, Fin.sum_univ_add, vcat, Fin.addCases_left, Fin.addCases_right, Pi.add_apply, mul_add, Finset.sum_add_distrib]

theorem psd_iff {n : ℕ} (M : Matrix (Fin n) (Fin n) ℝ) : M.PosSemidef ↔ Mᵀ = M ∧ ∀ x, 0 ≤ x ⬝ᵥ (M *ᵥ x) := by
  constructor
  · intro h
    refine ⟨?_, fun x => ?_⟩
    · have := h.isHermitian
      rwa [IsHermitian, conjTranspose_eq_transpose_of_trivial] at this
    · have := h.dotProduct_mulVec_nonneg x
      simpa using this
  · rintro ⟨h1, h2⟩
    refine .of_dotProduct_mulVec_nonneg ?_ ?_
    · rw [IsHermitian, conjTranspose_eq_transpose_of_trivial]; exact h1
    · intro x; simpa using h2 x

/-- A block diagonal matrix with positive semidefinite blocks. -/
theorem blk_diag_psd {A D : Matrix (Fin d) (Fin d) ℝ} (hA : A.PosSemidef) (hD : D.PosSemidef) : (blk A 0 0 D).PosSemidef := by
  rw [psd_iff] at *
  refine ⟨by rw [blk_transpose, hA.1, hD.1]; simp, fun x => ?_⟩
  rw [← vcat_eta x, blk_quad]
  simpa using add_nonneg (hA.2 _) (hD.2 _)

/-- The covariance of (measurement - bias, bias) for independent measurement and bias errors. -/
theorem blk_corr_psd {B R : Matrix (Fin d) (Fin d) ℝ} (hB : B.PosSemidef) (hR : R.PosSemidef) : (blk (B + R) (-B) (-B) B).PosSemidef := by
  rw [psd_iff] at *
  refine ⟨by rw [blk_transpose, transpose_add, transpose_neg, hB.1, hR.1], fun x => ?_⟩
  rw [← vcat_eta x, blk_quad]
  set a := head x
  set b := tail x
  have h1 := hB.2 (a - b)
  have h2 := hR.2 a
  have : a ⬝ᵥ ((B + R) *ᵥ a) + a ⬝ᵥ (-B *ᵥ b) + (b ⬝ᵥ (-B *ᵥ a) + b ⬝ᵥ (B *ᵥ b)) = (a - b) ⬝ᵥ (B *ᵥ (a - b)) + a ⬝ᵥ (R *ᵥ a) := by
    simp only [add_mulVec, neg_mulVec, mulVec_sub, dotProduct_add, dotProduct_neg, sub_dotProduct, dotProduct_sub]
    ring
  rw [this]
  exact add_nonneg h1 h2

theorem tl_psd {M : Matrix (Fin (d + d)) (Fin (d + d)) ℝ} (h : M.PosSemidef) : (tl M).PosSemidef := h.submatrix _
theorem br_psd {M : Matrix (Fin (d + d)) (Fin (d + d)) ℝ} (h : M.PosSemidef) : (br M).PosSemidef := h.submatrix _

theorem diag_sq_psd (v : Fin d → ℝ) : (diagonal fun i => v i * v i).PosSemidef := by
  rw [psd_iff]
  refine ⟨diagonal_transpose _, fun x => ?_⟩
  simp only [dotProduct, mulVec_diagonal]
  refine Finset.sum_nonneg fun i _ => ?_
  have : x i * (v i * v i * x i) = (v i * x i) * (v i * x i) := by ring
  rw [this]; exact mul_self_nonneg _

theorem diag_sq_pd (c : ℝ) (hc : c ≠ 0) : (diagonal fun _ : Fin d => c * c).PosDef := by
  refine .of_dotProduct_mulVec_pos ?_ ?_
  · rw [IsHermitian, conjTranspose_eq_transpose_of_trivial, diagonal_transpose]
  · intro x hx
    simp only [star_trivial, dotProduct, mulVec_diagonal]
    obtain ⟨i, hi⟩ := Function.ne_iff.1 hx
    refine Finset.sum_pos' (fun j _ => ?_) ⟨i, Finset.mem_univ i, ?_⟩
    · have : x j * (c * c * x j) = (c * x j) * (c * x j) := by ring
      rw [this]; exact mul_self_nonneg _
    · have : x i * (c * c * x i) = (c * x i) * (c * x i) := by ring
      rw [this]
      exact mul_self_pos.2 (mul_ne_zero hc hi)

end StateObs.Blocks
