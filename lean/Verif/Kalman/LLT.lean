import Verif.Kalman.DynMat
import Mathlib.LinearAlgebra.Matrix.PosDef
import Mathlib.Analysis.SpecialFunctions.Sqrt
/-!
# Cholesky factorisation

`Eigen::LLT` as used by kalman-filter-base.cpp 127-131 (inverse of the innovation covariance), in exact arithmetic: the
factor is computed column by column from the lower triangle; a pivot that is not positive stops the factorisation
(`NumericalIssue`), which the code does not check.
-/

namespace StateObs
open Matrix

/-- `LLT::compute`: lower-triangular factor of a symmetric matrix, or `none` on a non-positive pivot. Only the lower triangle of
`S` is read. -/
noncomputable def chol : (n : ℕ) → Matrix (Fin n) (Fin n) ℝ → Option (Matrix (Fin n) (Fin n) ℝ)
  | 0, _ => some 0
  | n + 1, S =>
    if S 0 0 ≤ 0 then none
    else
      let l := Real.sqrt (S 0 0)
      let c : Fin n → ℝ := fun i => S i.succ 0 / l
      (chol n (fun i j => (if j ≤ i then S i.succ j.succ else S j.succ i.succ) - c i * c j)).map fun L =>
        Matrix.of (Fin.cons (Fin.cons l 0) fun i => Fin.cons (c i) (L i))

/-- kalman-filter-base.cpp 127-131: identity, then solve with `L`, then with `Lᵀ`. On a failed factorisation the result is made of
meaningless numbers (`ub`). -/
noncomputable def lltInverse {n : ℕ} (S : Matrix (Fin n) (Fin n) ℝ) : Res (Matrix (Fin n) (Fin n) ℝ) :=
  match chol n S with
  | none => .ub
  | some L => .ok (Lᵀ⁻¹ * (L⁻¹ * 1))

theorem posDef_schur {n : ℕ} (S : Matrix (Fin (n + 1)) (Fin (n + 1)) ℝ) (h : S.PosDef) :
    (Matrix.of fun i j : Fin n => S i.succ j.succ - S i.succ 0 * S j.succ 0 / S 0 0).PosDef := by
  have h0 : 0 < S 0 0 := h.diag_pos
  have hs : ∀ i j, S i j = S j i := fun i j => by
    have := congrFun (congrFun h.isHermitian j) i
    simpa [conjTranspose_apply] using this
  refine .of_dotProduct_mulVec_pos ?_ ?_
  · ext i j
    simp only [conjTranspose_apply, of_apply, star_trivial]
    rw [hs j.succ i.succ, mul_comm]
  · intro x hx
    set b : ℝ := ∑ j, S j.succ 0 * x j with hb
    have hy : (Fin.cons (-(b / S 0 0)) x : Fin (n + 1) → ℝ) ≠ 0 := by
      intro hc
      apply hx
      funext i
      have := congrFun hc i.succ
      simpa using this
    have := h.dotProduct_mulVec_pos hy
    simp only [dotProduct, mulVec, Fin.sum_univ_succ, Fin.cons_zero, Fin.cons_succ, star_trivial, Pi.star_apply] at this
    simp only [dotProduct, mulVec, of_apply, star_trivial, Pi.star_apply]
    have e1 : ∑ i : Fin n, S 0 i.succ * x i = b := by
      rw [hb]; exact Finset.sum_congr rfl fun i _ => by rw [hs]
    have e2 : ∑ i : Fin n, x i * (S i.succ 0 * -(b / S 0 0) + ∑ j : Fin n, S i.succ j.succ * x j) =
        -(b / S 0 0) * b + ∑ i : Fin n, x i * ∑ j : Fin n, S i.succ j.succ * x j := by
      simp only [mul_add, Finset.sum_add_distrib]
      congr 1
      rw [hb, Finset.mul_sum]
      exact Finset.sum_congr rfl fun i _ => by ring
    have e3 : ∑ i : Fin n, x i * ∑ j : Fin n, (S i.succ j.succ - S i.succ 0 * S j.succ 0 / S 0 0) * x j =
        ∑ i : Fin n, x i * ∑ j : Fin n, S i.succ j.succ * x j - b * b / S 0 0 := by
      have : ∀ i : Fin n, x i * ∑ j : Fin n, (S i.succ j.succ - S i.succ 0 * S j.succ 0 / S 0 0) * x j =
          x i * (∑ j : Fin n, S i.succ j.succ * x j) - (S i.succ 0 * x i) * (b / S 0 0) := by
        intro i
        simp only [sub_mul, Finset.sum_sub_distrib, mul_sub]
        congr 1
        rw [hb, div_eq_mul_inv, Finset.sum_mul, Finset.mul_sum, Finset.mul_sum]
        exact Finset.sum_congr rfl fun j _ => by ring
      rw [Finset.sum_congr rfl fun i _ => this i, Finset.sum_sub_distrib, ← Finset.sum_mul, ← hb]
      ring
    rw [e1, e2] at this
    rw [e3]
    have e4 : -(b / S 0 0) * (S 0 0 * -(b / S 0 0) + b) = 0 := by field_simp; ring
    rw [e4] at this
    have e5 : -(b / S 0 0) * b = - (b * b / S 0 0) := by ring
    rw [e5] at this
    linarith

/-- The factorisation succeeds on every positive definite matrix and is a factorisation: lower triangular, positive
diagonal, `L Lᵀ = S`. -/
theorem chol_spec : ∀ (n : ℕ) (S : Matrix (Fin n) (Fin n) ℝ), S.PosDef →
    ∃ L, chol n S = some L ∧ L * Lᵀ = S ∧ (∀ i, 0 < L i i) ∧ ∀ i j, i < j → L i j = 0
  | 0, S, _ => ⟨0, rfl, by ext i; exact i.elim0, fun i => i.elim0, fun i => i.elim0⟩
  | n + 1, S, h => by
    have h0 : 0 < S 0 0 := h.diag_pos
    have hs : ∀ i j, S i j = S j i := fun i j => by
      have := congrFun (congrFun h.isHermitian j) i
      simpa [conjTranspose_apply] using this
    have hl : Real.sqrt (S 0 0) * Real.sqrt (S 0 0) = S 0 0 := Real.mul_self_sqrt h0.le
    have hl0 : 0 < Real.sqrt (S 0 0) := Real.sqrt_pos.2 h0
    have hS : (fun i j : Fin n => (if j ≤ i then S i.succ j.succ else S j.succ i.succ) -
        S i.succ 0 / Real.sqrt (S 0 0) * (S j.succ 0 / Real.sqrt (S 0 0))) =
        Matrix.of fun i j : Fin n => S i.succ j.succ - S i.succ 0 * S j.succ 0 / S 0 0 := by
      funext i j
      rw [hs j.succ i.succ, ite_self, of_apply, div_mul_div_comm, hl]
    obtain ⟨L, h1, h2, h3, h4⟩ := chol_spec n _ (posDef_schur S h)
    refine ⟨Matrix.of (Fin.cons (Fin.cons (Real.sqrt (S 0 0)) 0) fun i =>
        Fin.cons (S i.succ 0 / Real.sqrt (S 0 0)) (L i)), ?_, ?_, ?_, ?_⟩
    · rw [chol, if_neg (by linarith)]
      simp only []
      rw [hS, h1]
      rfl
    · ext i j
      rw [mul_apply, Fin.sum_univ_succ]
      refine Fin.cases ?_ (fun i => ?_) i <;> refine Fin.cases ?_ (fun j => ?_) j
      · simp [hl]
      · simp only [transpose_apply, of_apply, Fin.cons_zero, Fin.cons_succ, Pi.zero_apply, zero_mul, Finset.sum_const_zero,
          add_zero]
        rw [mul_div_cancel₀ _ hl0.ne', hs]
      · simp only [transpose_apply, of_apply, Fin.cons_zero, Fin.cons_succ, Pi.zero_apply, mul_zero, Finset.sum_const_zero,
          add_zero]
        rw [div_mul_cancel₀ _ hl0.ne']
      · have := congrFun (congrFun h2 i) j
        simp only [mul_apply, transpose_apply, of_apply] at this
        simp only [transpose_apply, of_apply, Fin.cons_zero, Fin.cons_succ]
        rw [this, div_mul_div_comm, hl]
        ring
    · intro i
      refine Fin.cases ?_ (fun i => ?_) i
      · simpa using hl0
      · simpa using h3 i
    · intro i j
      refine Fin.cases ?_ (fun i => ?_) i <;> refine Fin.cases ?_ (fun j => ?_) j
      · intro h; exact absurd h (lt_irrefl _)
      · intro _; simp
      · intro h; simp at h
      · intro h; simpa using h4 i j (by simpa using h)

/-- On a positive definite matrix the code's inversion returns the inverse. -/
theorem lltInverse_posDef {n : ℕ} (S : Matrix (Fin n) (Fin n) ℝ) (h : S.PosDef) : lltInverse S = .ok S⁻¹ := by
  obtain ⟨L, h1, h2, -, -⟩ := chol_spec n S h
  simp only [lltInverse, h1]
  rw [Matrix.mul_one, ← Matrix.mul_inv_rev, h2]

end StateObs
