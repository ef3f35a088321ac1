import Verif.Kalman.Props
/-!
# Measurement noise that is only positive semidefinite

The Cholesky factorisation of the innovation covariance succeeds exactly if the matrix is positive definite. A step that does not run into a failed
factorisation therefore keeps the covariance positive semidefinite for every positive semidefinite `R`, also a singular one.
-/

namespace StateObs
open Matrix

theorem posDef_of_schur {n : ℕ} (S : Matrix (Fin (n + 1)) (Fin (n + 1)) ℝ) (hs : Sᵀ = S) (h0 : 0 < S 0 0)
    (h : (Matrix.of fun i j : Fin n => S i.succ j.succ - S i.succ 0 * S j.succ 0 / S 0 0).PosDef) : S.PosDef := by
  have hsym : ∀ i j, S i j = S j i := fun i j => congrFun (congrFun hs j) i
  refine .of_dotProduct_mulVec_pos ?_ ?_
  · rw [IsHermitian, conjTranspose_eq_transpose_of_trivial, hs]
  · intro x hx
    set b : ℝ := ∑ j : Fin n, S j.succ 0 * x j.succ with hb
    set y : Fin n → ℝ := fun i => x i.succ with hy
    have e1 : ∑ i : Fin n, S 0 i.succ * x i.succ = b := by
      rw [hb]; exact Finset.sum_congr rfl fun i _ => by rw [hsym]
    have e3 : ∑ i : Fin n, y i * ∑ j : Fin n, (S i.succ j.succ - S i.succ 0 * S j.succ 0 / S 0 0) * y j =
        ∑ i : Fin n, y i * ∑ j : Fin n, S i.succ j.succ * y j - b * b / S 0 0 := by
      have : ∀ i : Fin n, y i * ∑ j : Fin n, (S i.succ j.succ - S i.succ 0 * S j.succ 0 / S 0 0) * y j =
          y i * (∑ j : Fin n, S i.succ j.succ * y j) - (S i.succ 0 * y i) * (b / S 0 0) := by
        intro i
        simp only [sub_mul, Finset.sum_sub_distrib, mul_sub]
        congr 1
        rw [hb, div_eq_mul_inv, Finset.sum_mul, Finset.mul_sum, Finset.mul_sum]
        exact Finset.sum_congr rfl fun j _ => by ring
      rw [Finset.sum_congr rfl fun i _ => this i, Finset.sum_sub_distrib, ← Finset.sum_mul, ← hb]
      ring
    have e : star x ⬝ᵥ (S *ᵥ x) = (S 0 0 * x 0 + b) ^ 2 / S 0 0 +
        y ⬝ᵥ ((Matrix.of fun i j : Fin n => S i.succ j.succ - S i.succ 0 * S j.succ 0 / S 0 0) *ᵥ y) := by
      simp only [dotProduct, mulVec, Fin.sum_univ_succ, star_trivial, Pi.star_apply, of_apply]
      rw [e1, e3]
      have e2 : ∑ i : Fin n, x i.succ * (S i.succ 0 * x 0 + ∑ j : Fin n, S i.succ j.succ * x j.succ) =
          x 0 * b + ∑ i : Fin n, y i * ∑ j : Fin n, S i.succ j.succ * y j := by
        simp only [mul_add, Finset.sum_add_distrib]
        congr 1
        rw [hb, Finset.mul_sum]
        exact Finset.sum_congr rfl fun i _ => by ring
      rw [e2]
      field_simp; ring
    rw [e]
    by_cases hy0 : y = 0
    · have hb0 : b = 0 := by
        rw [hb]; refine Finset.sum_eq_zero fun i _ => ?_
        have : x i.succ = 0 := congrFun hy0 i
        rw [this, mul_zero]
      have hx0 : x 0 ≠ 0 := by
        intro hc
        apply hx; funext i
        refine Fin.cases hc (fun i => congrFun hy0 i) i
      rw [hy0, hb0]
      simp only [add_zero, zero_dotProduct]
      positivity
    · have := h.dotProduct_mulVec_pos hy0
      rw [star_trivial] at this
      have h2 : 0 ≤ (S 0 0 * x 0 + b) ^ 2 / S 0 0 := by positivity
      linarith

/-- A factorisation that succeeds proves that the (symmetric) matrix is positive definite. -/
theorem chol_posDef : ∀ (n : ℕ) (S L : Matrix (Fin n) (Fin n) ℝ), Sᵀ = S → chol n S = some L → S.PosDef
  | 0, S, _, _, _ => .of_dotProduct_mulVec_pos (by ext i; exact i.elim0) fun x hx => absurd (Subsingleton.elim x 0) hx
  | n + 1, S, L, hs, h => by
    have hsym : ∀ i j, S i j = S j i := fun i j => congrFun (congrFun hs j) i
    rw [chol] at h
    split_ifs at h with h0
    push Not at h0
    simp only [Option.map_eq_some_iff] at h
    obtain ⟨L', h1, -⟩ := h
    have hl : Real.sqrt (S 0 0) * Real.sqrt (S 0 0) = S 0 0 := Real.mul_self_sqrt h0.le
    have hS : (fun i j : Fin n => (if j ≤ i then S i.succ j.succ else S j.succ i.succ) -
        S i.succ 0 / Real.sqrt (S 0 0) * (S j.succ 0 / Real.sqrt (S 0 0))) =
        Matrix.of fun i j : Fin n => S i.succ j.succ - S i.succ 0 * S j.succ 0 / S 0 0 := by
      funext i j
      rw [hsym j.succ i.succ, ite_self, of_apply, div_mul_div_comm, hl]
    rw [hS] at h1
    refine posDef_of_schur S hs h0 (chol_posDef n _ L' ?_ h1)
    ext i j
    simp only [transpose_apply, of_apply]
    rw [hsym j.succ i.succ]; ring

namespace KFSpec
variable {n m : ℕ} {C : Matrix (Fin m) (Fin n) ℝ} {R : Matrix (Fin m) (Fin m) ℝ} {M : Matrix (Fin n) (Fin n) ℝ}

theorem joseph_gain' (hS : (innovCov C R M).PosDef) (hM : M.PosSemidef) : joseph (gain C R M) C R M = posterior C R M := by
  have h1 : gain C R M * innovCov C R M = M * Cᵀ := by
    rw [gain, Matrix.mul_assoc, Matrix.nonsing_inv_mul _ ((Matrix.isUnit_iff_isUnit_det _).1 hS.isUnit), Matrix.mul_one]
  have e : joseph (gain C R M) C R M = M - gain C R M * (C * M) - M * Cᵀ * (gain C R M)ᵀ + gain C R M * innovCov C R M * (gain C R M)ᵀ := by
    simp only [joseph, innovCov, transpose_sub, transpose_one, transpose_mul]
    simp only [Matrix.mul_add, Matrix.add_mul, Matrix.mul_sub, Matrix.sub_mul, Matrix.mul_assoc, Matrix.one_mul, Matrix.mul_one]; abel
  rw [e, h1, posterior]
  simp only [Matrix.sub_mul, Matrix.mul_assoc, Matrix.one_mul]; abel

theorem posterior_psd' (hS : (innovCov C R M).PosDef) (hR : R.PosSemidef) (hM : M.PosSemidef) : (posterior C R M).PosSemidef := by
  rw [← joseph_gain' hS hM]; exact joseph_psd hR hM _

theorem innovCov_psd (hR : R.PosSemidef) (hM : M.PosSemidef) : (innovCov C R M).PosSemidef := (psd_conj hM C).add hR

end KFSpec

namespace KF
open KFSpec
variable {E : Type}

theorem lltInv_pd {k : ℕ} {S : Matrix (Fin k) (Fin k) ℝ} {Si : DMat} (hs : Sᵀ = S) (h : lltInv ⟨k, k, S⟩ = .ok Si) : S.PosDef := by
  rw [lltInv_mk] at h
  unfold lltInverse at h
  cases hc : chol k S with
  | none => simp [hc] at h
  | some L => exact chol_posDef k S L hs hc

/-- A correction that returns: the innovation covariance is positive definite, and the result is the textbook one. -/
theorem correct_ok {st : KData E} {nt mt A Q P C R} (h : HasMats st nt mt A Q P C R) (hQ : Q.PosSemidef) (hP : P.PosSemidef) (hR : R.PosSemidef)
    {xb yb y xhat inn : DVec} {P' K : DMat} (hc : correct st xb yb y = .ok (xhat, P', inn, K)) :
    (innovCov C R (predCov A Q P)).PosDef ∧ P' = ⟨nt, nt, posterior C R (predCov A Q P)⟩ ∧ K = ⟨nt, mt, gain C R (predCov A Q P)⟩ ∧
    ∃ ino, st.arith.measurementDifference y yb = .ok ino ∧ K.mulVec ino = .ok inn ∧ st.arith.stateSum xb inn = .ok xhat := by
  have e1 : Q + A * (P * Aᵀ) = predCov A Q P := by rw [predCov, Matrix.mul_assoc, add_comm]
  have e2 : R + C * (predCov A Q P * Cᵀ) = innovCov C R (predCov A Q P) := by
    rw [innovCov, Matrix.mul_assoc, add_comm]
  have hM := predCov_psd (A := A) hQ hP
  have e4 : predCov A Q P * (Cᵀ * (innovCov C R (predCov A Q P))⁻¹) = gain C R (predCov A Q P) := by
    rw [gain, Matrix.mul_assoc]
  have e5 : (-gain C R (predCov A Q P) * C + 1) * predCov A Q P = posterior C R (predCov A Q P) := by
    rw [posterior, Matrix.neg_mul, neg_add_eq_sub]
  simp only [correct, h.a, h.q, h.pr, h.c, h.r, DMat.transpose_mk, DMat.mul_mk, DMat.add_mk, Res.ok_bind, e1, e2, Res.bind_eq_ok] at hc
  obtain ⟨ino, h1, Si, h2, b, h3a, K', h3b, inn', h4, xh, h5, p1, h6, p2, h7, p3, h8, h9⟩ := hc
  have hS := lltInv_pd (psd_symm (innovCov_psd (C := C) hR hM)) h2
  have e3 : lltInverse (innovCov C R (predCov A Q P)) = .ok (innovCov C R (predCov A Q P))⁻¹ := lltInverse_posDef _ hS
  have e6 : (0.5 : ℝ) • (posterior C R (predCov A Q P) + (posterior C R (predCov A Q P))ᵀ) =
      posterior C R (predCov A Q P) := by
    rw [psd_symm (posterior_psd' hS hR hM), ← two_smul ℝ, smul_smul]; norm_num
  rw [lltInv_mk, e3, Res.ok_bind] at h2
  obtain rfl : _ = Si := Res.ok.inj h2
  rw [DMat.mul_mk] at h3a
  obtain rfl : _ = b := Res.ok.inj h3a
  rw [DMat.mul_mk, e4] at h3b
  obtain rfl : _ = K' := Res.ok.inj h3b
  rw [DMat.neg_mk, DMat.mul_mk] at h6
  obtain rfl : _ = p1 := Res.ok.inj h6
  rw [DMat.addDiagOne_mk, DMat.mul_mk, e5] at h7
  obtain rfl : _ = p2 := Res.ok.inj h7
  rw [DMat.transpose_mk, DMat.add_mk] at h8
  obtain rfl : _ = p3 := Res.ok.inj h8
  rw [DMat.smul_mk, e6] at h9
  cases h9
  exact ⟨hS, rfl, rfl, ino, h1, h4, h5⟩

/-- **C15**, one step, any derived class, for a measurement noise that may be singular: a step that returns leaves a positive semidefinite covariance. -/
theorem C15_step_singular {V : Virt E} (hV : KeepsFilter V) {s s' : KFilter E} (h : oneStep V s = .ok s')
    (hP : IsPSD s.st.pr) (hQ : IsPSD s.st.q) (hR : IsPSD s.st.r) :
    IsPSD s'.st.pr ∧ IsPSD s'.st.q ∧ IsPSD s'.st.r := by
  obtain ⟨x, k, st1, xb, yb, y, xhat, P', inn, K, -, -, ⟨-, e1, -, e2, -, e3, e4, e5, e6, e7, -⟩, ⟨h1, h2, h3, h4, h5⟩, -, -, hc, rfl⟩ :=
    oneStep_ok hV h
  obtain ⟨A, Q, P, C, R, hm⟩ := hasMats_of_checks _ h1 h2 h3 h4 h5
  have hm1 : HasMats st1 s.st.nt s.st.mt A Q P C R :=
    ⟨e1 ▸ hm.hnt, e2 ▸ hm.hmt, e3 ▸ hm.a, e5 ▸ hm.q, e7 ▸ hm.pr, e4 ▸ hm.c, e6 ▸ hm.r⟩
  have hP' : P.PosSemidef := by rw [hm.pr] at hP; exact isPSD_mk.1 hP
  have hQ' : Q.PosSemidef := by rw [hm.q] at hQ; exact isPSD_mk.1 hQ
  have hR' : R.PosSemidef := by rw [hm.r] at hR; exact isPSD_mk.1 hR
  obtain ⟨hS, rfl, -⟩ := correct_ok hm1 hQ' hP' hR' hc
  refine ⟨isPSD_mk.2 (posterior_psd' hS hR' (predCov_psd hQ' hP')), ?_, ?_⟩
  · simpa [e5] using hQ
  · simpa [e6] using hR

end KF
end StateObs
