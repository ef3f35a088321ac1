import Verif.KO.CovSpec
/-! # Lemmas on the covariance setters -/

namespace StateObs.KO
open StateObs Matrix Rot Kine KF

/-- The matrix that `setBlockStateCovariance` computes. -/
def replaceBlock {N n : ℕ} (P : Matrix (Fin N) (Fin N) ℝ) (i : ℕ) (B : Matrix (Fin n) (Fin n) ℝ) : Matrix (Fin N) (Fin N) ℝ := fun r c =>
  if hr : InSeg i n r then if hc : InSeg i n c then B ⟨r - i, by have := hr; unfold InSeg at this; omega⟩ ⟨c - i, by have := hc; unfold InSeg at this; omega⟩ else 0
  else if InSeg i n c then 0 else P r c

theorem replaceBlock_replaced {N n : ℕ} (P : Matrix (Fin N) (Fin N) ℝ) (i : ℕ) (B : Matrix (Fin n) (Fin n) ℝ) (h : i + n ≤ N) :
    Replaced P (replaceBlock P i B) i B where
  range := h
  inside r c := by
    have hr : InSeg i n (i + r) := ⟨by omega, by omega⟩
    have hc : InSeg i n (i + c) := ⟨by omega, by omega⟩
    simp only [replaceBlock, hr, hc, dif_pos]
    congr 1 <;> ext <;> simp
  right r c hr hc := by simp [replaceBlock, hr, hc]
  left r c hr hc := by simp [replaceBlock, hr, hc]
  outside r c hr hc := by simp [replaceBlock, hr, hc]

theorem Replaced.unique {N n : ℕ} {P P' : Matrix (Fin N) (Fin N) ℝ} {i : ℕ} {B : Matrix (Fin n) (Fin n) ℝ} (h : Replaced P P' i B) :
    P' = replaceBlock P i B := by
  ext r c
  by_cases hr : InSeg i n r <;> by_cases hc : InSeg i n c
  · have := h.inside ⟨r - i, by have := hr; unfold InSeg at this; omega⟩ ⟨c - i, by have := hc; unfold InSeg at this; omega⟩
    simp only [replaceBlock, hr, hc, dif_pos]
    rw [← this]
    congr 1 <;> ext <;> simp only
    · have := hr.1; omega
    · have := hc.1; omega
  · simp [replaceBlock, hr, hc, h.right r c hr hc]
  · simp [replaceBlock, hr, hc, h.left r c hr hc]
  · simp [replaceBlock, hr, hc, h.outside r c hr hc]

theorem setBlockStateCovariance_mk {N n : ℕ} (P : Matrix (Fin N) (Fin N) ℝ) (i : ℕ) (B : Matrix (Fin n) (Fin n) ℝ) (h : i + n ≤ N) :
    setBlockStateCovariance n ⟨N, N, P⟩ ⟨n, n, B⟩ i = .ok ⟨N, N, replaceBlock P i B⟩ := by
  have h2 : i ≤ N := by omega
  have h3 : i + n + (N - i - n) ≤ N := by omega
  simp only [setBlockStateCovariance, DMat.setBlock, DMat.zeroBlock, h, h2, h3, and_self, if_true, dif_pos, Res.ok_bind, zero_add]
  congr 2
  ext r c
  simp only [replaceBlock, InSeg, zero_le, true_and]
  have hr := r.2
  have hc := c.2
  by_cases r1 : i ≤ r.1 <;> by_cases r2 : r.1 < i + n <;> by_cases c1 : i ≤ c.1 <;> by_cases c2 : c.1 < i + n <;>
    simp [r1, r2, c1, c2] <;> intros <;> first | omega | skip
  repeat rw [if_neg (by omega)]

theorem setBlockStateCovariance_iff {N n : ℕ} (P : Matrix (Fin N) (Fin N) ℝ) (i : ℕ) (B M : DMat) :
    setBlockStateCovariance n ⟨N, N, P⟩ B i = .ok M ↔
      ∃ B' : Matrix (Fin n) (Fin n) ℝ, B = ⟨n, n, B'⟩ ∧ i + n ≤ N ∧ M = ⟨N, N, replaceBlock P i B'⟩ := by
  constructor
  · intro h
    have h' := h
    simp only [setBlockStateCovariance, Res.bind_eq_ok] at h'
    obtain ⟨M1, h1, -⟩ := h'
    unfold DMat.setBlock at h1
    split_ifs at h1 with hN hB
    obtain ⟨B', rfl⟩ := (DMat.hasSize_iff B n n).1 (by simp [DMat.hasSize, hB])
    have hN' : i + n ≤ N := hN.1
    rw [setBlockStateCovariance_mk P i B' hN'] at h
    cases h
    exact ⟨B', rfl, hN', rfl⟩
  · rintro ⟨B', rfl, h, rfl⟩
    exact setBlockStateCovariance_mk P i B' h

/-- Replacing a block keeps a matrix positive semidefinite. -/
theorem Replaced.psd {N n : ℕ} {P P' : Matrix (Fin N) (Fin N) ℝ} {i : ℕ} {B : Matrix (Fin n) (Fin n) ℝ} (h : Replaced P P' i B) (hP : P.PosSemidef)
    (hB : B.PosSemidef) : P'.PosSemidef := by
  let D : Matrix (Fin N) (Fin N) ℝ := diagonal fun r => if InSeg i n r then 0 else 1
  let E : Matrix (Fin N) (Fin n) ℝ := fun r k => if r.1 = i + k.1 then 1 else 0
  have e : P' = D * P * Dᴴ + E * B * Eᴴ := by
    rw [h.unique]
    ext r c
    have key : ∀ r : Fin N, InSeg i n r → ∃ k : Fin n, r.1 = i + k.1 ∧ ∀ j : Fin n, E r j = if j = k then 1 else 0 := by
      intro r hr
      refine ⟨⟨r - i, by unfold InSeg at hr; omega⟩, by unfold InSeg at hr; simp only; omega, fun j => ?_⟩
      simp only [E]
      congr 1
      unfold InSeg at hr
      rw [Fin.ext_iff]
      simp only [eq_iff_iff]; omega
    have key0 : ∀ r : Fin N, ¬ InSeg i n r → ∀ j : Fin n, E r j = 0 := by
      intro r hr j
      simp only [E, ite_eq_right_iff, one_ne_zero, imp_false]
      unfold InSeg at hr; omega
    have e1 : (D * P * Dᴴ) r c = (if InSeg i n r then 0 else 1) * P r c * (if InSeg i n c then 0 else 1) := by
      simp only [D, diagonal_conjTranspose, mul_diagonal, diagonal_mul, star_trivial, Pi.star_apply]
    have e2 : (E * B * Eᴴ) r c = ∑ k, (∑ j, E r j * B j k) * E c k := by
      simp only [Matrix.mul_apply, conjTranspose_apply, star_trivial]
    rw [Matrix.add_apply, e1, e2]
    by_cases hr : InSeg i n r <;> by_cases hc : InSeg i n c
    · obtain ⟨kr, hkr, er⟩ := key r hr
      obtain ⟨kc, hkc, ec⟩ := key c hc
      simp only [replaceBlock, hr, hc, dif_pos, er, ec, ite_mul, one_mul, zero_mul, mul_ite, mul_one, mul_zero, Finset.sum_ite_eq', Finset.mem_univ, if_true, zero_add]
      congr 1 <;> (apply Fin.ext; simp only; omega)
    · simp [replaceBlock, hr, hc, key0 c hc]
    · simp [replaceBlock, hr, hc, key0 r hr]
    · simp [replaceBlock, hr, hc, key0 r hr]
  rw [e]
  exact (hP.mul_mul_conjTranspose_same D).add (hB.mul_mul_conjTranspose_same E)

theorem ReplacedAll.psd {N : ℕ} {P P' : Matrix (Fin N) (Fin N) ℝ} {l : List Block} (h : ReplacedAll P l P') (hP : P.PosSemidef)
    (hl : ∀ b ∈ l, b.val.PosSemidef) : P'.PosSemidef := by
  induction h with
  | nil => exact hP
  | cons h1 _ ih => exact ih (h1.psd hP (hl _ List.mem_cons_self)) fun b hb => hl b (List.mem_cons_of_mem _ hb)

theorem ReplacedAll.append {N : ℕ} {P P1 P2 : Matrix (Fin N) (Fin N) ℝ} {l1 l2 : List Block} (h1 : ReplacedAll P l1 P1) (h2 : ReplacedAll P1 l2 P2) :
    ReplacedAll P (l1 ++ l2) P2 := by
  induction h1 with
  | nil => exact h2
  | cons h _ ih => exact .cons h (ih h2)

variable {nc ni : ℕ} {o o' o'' : Observer}

theorem inv_tangentSize (hi : Inv nc ni o) : o.tangentSize = 18 + ni * 3 + 12 * nc := by rw [Observer.tangentSize, hi.1.1, hi.1.2]

theorem StateCov.append {l1 l2 : List Block} (h1 : StateCov o o' l1) (h2 : StateCov o' o'' l2) : StateCov o o'' (l1 ++ l2) := by
  obtain ⟨P, P1, hP, rfl, r1⟩ := h1
  obtain ⟨P1', P2, hP1, rfl, r2⟩ := h2
  have : P1 = P1' := DMat.mk_eq.1 hP1
  subst this
  exact ⟨P, P2, hP, rfl, r1.append r2⟩

theorem ProcessCov.append {l1 l2 : List Block} (h1 : ProcessCov o o' l1) (h2 : ProcessCov o' o'' l2) : ProcessCov o o'' (l1 ++ l2) := by
  obtain ⟨P, P1, hP, rfl, r1⟩ := h1
  obtain ⟨P1', P2, hP1, rfl, r2⟩ := h2
  have : P1 = P1' := DMat.mk_eq.1 hP1
  subst this
  exact ⟨P, P2, hP, rfl, r1.append r2⟩

theorem StateCov.refl (hi : Inv nc ni o) : StateCov o o [] := by
  obtain ⟨P, hP⟩ := (DMat.hasSize_iff _ _ _).1 hi.2.ekf.pr
  rw [← inv_tangentSize hi] at P
  obtain ⟨P, hP⟩ := (DMat.hasSize_iff o.ekf.st.pr o.tangentSize o.tangentSize).1 (by rw [inv_tangentSize hi]; exact hi.2.ekf.pr)
  exact ⟨P, P, hP, by rw [← hP], .nil P⟩

theorem ProcessCov.refl (hi : Inv nc ni o) : ProcessCov o o [] := by
  obtain ⟨P, hP⟩ := (DMat.hasSize_iff o.ekf.st.q o.tangentSize o.tangentSize).1 (by rw [inv_tangentSize hi]; exact hi.2.ekf.q)
  exact ⟨P, P, hP, by rw [← hP], .nil P⟩

/-- `withP` with one block. -/
theorem withP_block (hi : Inv nc ni o) {n : ℕ} {j : Res ℕ} {B : DMat} :
    (o.withP fun P => j >>= fun i => setBlockStateCovariance n P B i) = .ok o' ↔
      ∃ (i : ℕ) (B' : Matrix (Fin n) (Fin n) ℝ), j = .ok i ∧ i + n ≤ o.tangentSize ∧ B = ⟨n, n, B'⟩ ∧ StateCov o o' [⟨i, n, B'⟩] := by
  obtain ⟨P, hP⟩ := (DMat.hasSize_iff o.ekf.st.pr o.tangentSize o.tangentSize).1 (by rw [inv_tangentSize hi]; exact hi.2.ekf.pr)
  simp only [Observer.withP, hP, Res.bind_eq_ok, setBlockStateCovariance_iff, KF.setStateCovariance]
  constructor
  · rintro ⟨M, ⟨i, hj, B', rfl, hr, rfl⟩, e, ⟨_, -, h1⟩, h2⟩
    cases h1; cases h2
    exact ⟨i, B', hj, hr, rfl, P, _, hP, rfl, .cons (replaceBlock_replaced P i B' hr) (.nil _)⟩
  · rintro ⟨i, B', hj, hr, rfl, P1, P2, hP1, rfl, h⟩
    have e0 : P1 = P := DMat.mk_eq.1 (hP1.symm.trans hP)
    subst e0
    cases h with
    | cons h1 h2 =>
      cases h2
      rw [h1.unique]
      refine ⟨_, ⟨i, hj, B', rfl, hr, rfl⟩, _, ⟨(), ?_, rfl⟩, rfl⟩
      have : o.ekf.st.checkP ⟨o.tangentSize, o.tangentSize, replaceBlock P1 i B'⟩ = true := by
        rw [KData.checkP, hi.2.ekf.nt, ← inv_tangentSize hi]; simp
      simp [this]

theorem withQ_block (hi : Inv nc ni o) {n : ℕ} {j : Res ℕ} {B : DMat} :
    (o.withQ fun P => j >>= fun i => setBlockStateCovariance n P B i) = .ok o' ↔
      ∃ (i : ℕ) (B' : Matrix (Fin n) (Fin n) ℝ), j = .ok i ∧ i + n ≤ o.tangentSize ∧ B = ⟨n, n, B'⟩ ∧ ProcessCov o o' [⟨i, n, B'⟩] := by
  obtain ⟨P, hP⟩ := (DMat.hasSize_iff o.ekf.st.q o.tangentSize o.tangentSize).1 (by rw [inv_tangentSize hi]; exact hi.2.ekf.q)
  simp only [Observer.withQ, hP, Res.bind_eq_ok, setBlockStateCovariance_iff, KF.setQ]
  constructor
  · rintro ⟨M, ⟨i, hj, B', rfl, hr, rfl⟩, e, ⟨_, -, h1⟩, h2⟩
    cases h1; cases h2
    exact ⟨i, B', hj, hr, rfl, P, _, hP, rfl, .cons (replaceBlock_replaced P i B' hr) (.nil _)⟩
  · rintro ⟨i, B', hj, hr, rfl, P1, P2, hP1, rfl, h⟩
    have e0 : P1 = P := DMat.mk_eq.1 (hP1.symm.trans hP)
    subst e0
    cases h with
    | cons h1 h2 =>
      cases h2
      rw [h1.unique]
      refine ⟨_, ⟨i, hj, B', rfl, hr, rfl⟩, _, ⟨(), ?_, rfl⟩, rfl⟩
      have : o.ekf.st.checkQ ⟨o.tangentSize, o.tangentSize, replaceBlock P1 i B'⟩ = true := by
        rw [KData.checkQ, hi.2.ekf.nt, ← inv_tangentSize hi]; simp
      simp [this]

end StateObs.KO
