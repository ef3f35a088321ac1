import Verif.Rot.Basic
/-!
# Segments and blocks of vectors and matrices of fixed size

`segment`, `block` and `diagonal().setConstant` of Eigen on vectors `Fin N → ℝ`. The code uses them with constant positions, inside the range
(`Nat`s out of range read zero and write nothing; no definition of the models does that, which the lemmas about the offsets show).
-/

namespace StateObs.Imu
open Matrix

/-- `x.segment(i, n)`. -/
def seg (n : ℕ) {N : ℕ} (x : Fin N → ℝ) (i : ℕ) : Fin n → ℝ := fun j => if h : i + j.val < N then x ⟨i + j.val, h⟩ else 0

/-- `x.segment(i, n) = v`. -/
def setSeg {n N : ℕ} (x : Fin N → ℝ) (i : ℕ) (v : Fin n → ℝ) : Fin N → ℝ :=
  fun k => if h : i ≤ k.val ∧ k.val < i + n then v ⟨k.val - i, by omega⟩ else x k

/-- `M.block(i, j, a, b) = B`. -/
def setBlock {a b N P : ℕ} (M : Matrix (Fin N) (Fin P) ℝ) (i j : ℕ) (B : Matrix (Fin a) (Fin b) ℝ) : Matrix (Fin N) (Fin P) ℝ :=
  fun r c => if h : (i ≤ r.val ∧ r.val < i + a) ∧ j ≤ c.val ∧ c.val < j + b then B ⟨r.val - i, by omega⟩ ⟨c.val - j, by omega⟩ else M r c

/-- `M.block(i, j, a, a).diagonal().setConstant(v)`. -/
def setDiag {N P : ℕ} (M : Matrix (Fin N) (Fin P) ℝ) (i j a : ℕ) (v : ℝ) : Matrix (Fin N) (Fin P) ℝ :=
  fun r c => if (i ≤ r.val ∧ r.val < i + a) ∧ r.val + j = c.val + i then v else M r c

theorem seg_setSeg_same {n N : ℕ} (x : Fin N → ℝ) (i : ℕ) (v : Fin n → ℝ) (h : i + n ≤ N) : seg n (setSeg x i v) i = v := by
  funext j
  have := j.isLt
  simp only [seg, setSeg]
  rw [dif_pos (by omega), dif_pos ⟨by omega, by omega⟩]
  congr 1; ext; simp

theorem seg_setSeg_ne {n m N : ℕ} (x : Fin N → ℝ) (i j : ℕ) (v : Fin m → ℝ) (h : i + n ≤ j ∨ j + m ≤ i) :
    seg n (setSeg x j v) i = seg n x i := by
  funext k
  have := k.isLt
  simp only [seg, setSeg]
  split_ifs with h1 h2
  · omega
  · rfl
  · rfl

/-- `M.block(i, j, a, b)`. -/
def sub (a b : ℕ) {N P : ℕ} (M : Matrix (Fin N) (Fin P) ℝ) (i j : ℕ) : Matrix (Fin a) (Fin b) ℝ :=
  fun r c => if h : i + r.val < N ∧ j + c.val < P then M ⟨i + r.val, h.1⟩ ⟨j + c.val, h.2⟩ else 0

theorem sub_zero {a b N P : ℕ} (i j : ℕ) : sub a b (0 : Matrix (Fin N) (Fin P) ℝ) i j = 0 := by
  funext r c
  simp [sub]

theorem sub_setBlock_same {a b N P : ℕ} (M : Matrix (Fin N) (Fin P) ℝ) (i j : ℕ) (B : Matrix (Fin a) (Fin b) ℝ) (hi : i + a ≤ N) (hj : j + b ≤ P) :
    sub a b (setBlock M i j B) i j = B := by
  funext r c
  have := r.isLt
  have := c.isLt
  simp only [sub, setBlock]
  rw [dif_pos ⟨by omega, by omega⟩, dif_pos ⟨⟨by omega, by omega⟩, by omega, by omega⟩]
  congr 1 <;> ext <;> simp

theorem sub_setBlock_ne {a b a' b' N P : ℕ} (M : Matrix (Fin N) (Fin P) ℝ) (i j i' j' : ℕ) (B : Matrix (Fin a') (Fin b') ℝ)
    (h : (i + a ≤ i' ∨ i' + a' ≤ i) ∨ (j + b ≤ j' ∨ j' + b' ≤ j)) : sub a b (setBlock M i' j' B) i j = sub a b M i j := by
  funext r c
  have := r.isLt
  have := c.isLt
  simp only [sub, setBlock]
  split_ifs with h1 h2
  · omega
  · rfl
  · rfl

/-- A part of the written block. -/
theorem sub_setBlock_in {a b a' b' N P : ℕ} (M : Matrix (Fin N) (Fin P) ℝ) (i j i' j' : ℕ) (B : Matrix (Fin a') (Fin b') ℝ)
    (hi : i' ≤ i ∧ i + a ≤ i' + a') (hj : j' ≤ j ∧ j + b ≤ j' + b') (hN : i' + a' ≤ N) (hP : j' + b' ≤ P) :
    sub a b (setBlock M i' j' B) i j = sub a b B (i - i') (j - j') := by
  funext r c
  have := r.isLt
  have := c.isLt
  simp only [sub, setBlock]
  rw [dif_pos ⟨by omega, by omega⟩, dif_pos ⟨⟨by omega, by omega⟩, by omega, by omega⟩, dif_pos ⟨by omega, by omega⟩]
  congr 1 <;> ext <;> simp <;> omega

theorem sub_one_same (N i : ℕ) (a : ℕ) (h : i + a ≤ N) : sub a a (1 : Matrix (Fin N) (Fin N) ℝ) i i = 1 := by
  funext r c
  have := r.isLt
  have := c.isLt
  simp only [sub]
  rw [dif_pos ⟨by omega, by omega⟩, one_apply, one_apply]
  simp only [Fin.ext_iff, Nat.add_left_cancel_iff]

theorem sub_one_ne {a b N i j : ℕ} (h : i + a ≤ j ∨ j + b ≤ i) : sub a b (1 : Matrix (Fin N) (Fin N) ℝ) i j = 0 := by
  funext r c
  have := r.isLt
  have := c.isLt
  simp only [sub]
  split_ifs with h1
  · rw [one_apply_ne]
    · rfl
    · simp only [ne_eq, Fin.ext_iff]; omega
  · rfl

theorem sub_setDiag_same {a n N P : ℕ} (M : Matrix (Fin N) (Fin P) ℝ) (i j i' j' : ℕ) (v : ℝ) (hi : i' ≤ i ∧ i + a ≤ i' + n)
    (hj : i + j' = j + i') (hN : i' + n ≤ N) (hP : j' + n ≤ P) (h0 : sub a a M i j = 0) :
    sub a a (setDiag M i' j' n v) i j = v • (1 : Matrix (Fin a) (Fin a) ℝ) := by
  funext r c
  have hr := r.isLt
  have hc := c.isLt
  have h := congrFun (congrFun h0 r) c
  simp only [sub, setDiag] at h ⊢
  rw [dif_pos ⟨by omega, by omega⟩] at h ⊢
  rw [Matrix.smul_apply, one_apply]
  split_ifs with h1 h2 h2
  · simp
  · exfalso; apply h2; ext; omega
  · exfalso; apply h1; subst h2; omega
  · rw [h]; simp

theorem sub_setDiag_ne {a b n N P : ℕ} (M : Matrix (Fin N) (Fin P) ℝ) (i j i' j' : ℕ) (v : ℝ)
    (h : (i + a ≤ i' ∨ i' + n ≤ i) ∨ (i + a + j' ≤ j + i' ∨ j + b + i' ≤ i + j')) : sub a b (setDiag M i' j' n v) i j = sub a b M i j := by
  funext r c
  have := r.isLt
  have := c.isLt
  simp only [sub, setDiag]
  split_ifs with h1 h2
  · omega
  · rfl
  · rfl

/-- The product of a matrix with eighteen columns, by blocks. -/
theorem seg_mulVec {N : ℕ} (M : Matrix (Fin N) (Fin 18) ℝ) (ξ : Fin 18 → ℝ) (i : ℕ) (h : i + 3 ≤ N) : seg 3 (M *ᵥ ξ) i =
    sub 3 3 M i 0 *ᵥ seg 3 ξ 0 + sub 3 3 M i 3 *ᵥ seg 3 ξ 3 + sub 3 3 M i 6 *ᵥ seg 3 ξ 6 + sub 3 3 M i 9 *ᵥ seg 3 ξ 9 +
      sub 3 3 M i 12 *ᵥ seg 3 ξ 12 + sub 3 3 M i 15 *ᵥ seg 3 ξ 15 := by
  funext r
  have hr : i + r.val < N := by omega
  simp only [Pi.add_apply, Rot.mulVec3]
  simp only [seg, sub, hr, dif_pos, true_and, mulVec, dotProduct, Fin.sum_univ_succ]
  simp [← add_assoc]

end StateObs.Imu
