import Verif.Kalman.StableLemmas
import Mathlib.Topology.Instances.Matrix
import Mathlib.Algebra.Order.Chebyshev
import Mathlib.Topology.Algebra.Order.Group
import Mathlib.Analysis.SpecificLimits.Basic
/-!
# Stability of the Kalman filter: bounds

Lemmas for property C117: the covariance is bounded if some estimator with a constant gain is stable; two filters with different initial
covariances.
-/

namespace StateObs.KFSpec
open Matrix Filter Topology
variable {n m p : ℕ}

/-! ## Bounds by multiples of the identity -/

theorem qf_le_entries {M : Matrix (Fin n) (Fin n) ℝ} {c : ℝ} (hc : 0 ≤ c) (h : ∀ i j, |M i j| ≤ c) (z : Fin n → ℝ) :
    qf M z ≤ c * n * (z ⬝ᵥ z) := by
  have h1 : qf M z ≤ c * (∑ i, |z i|) ^ 2 := by
    rw [pow_two, Finset.sum_mul_sum, Finset.mul_sum]
    simp only [qf, dotProduct, Matrix.mulVec, Finset.mul_sum]
    refine Finset.sum_le_sum fun i _ => Finset.sum_le_sum fun j _ => ?_
    calc z i * (M i j * z j) ≤ |z i * (M i j * z j)| := le_abs_self _
      _ = |M i j| * (|z i| * |z j|) := by rw [abs_mul, abs_mul]; ring
      _ ≤ c * (|z i| * |z j|) := mul_le_mul_of_nonneg_right (h i j) (by positivity)
  have h2 : (∑ i, |z i|) ^ 2 ≤ n * ∑ i, |z i| ^ 2 := by
    have := sq_sum_le_card_mul_sum_sq (s := (Finset.univ : Finset (Fin n))) (f := fun i => |z i|)
    simpa using this
  have h3 : ∑ i, |z i| ^ 2 = z ⬝ᵥ z := by
    simp only [sq_abs, dotProduct]; exact Finset.sum_congr rfl fun i _ => pow_two _
  rw [h3] at h2
  calc qf M z ≤ c * (∑ i, |z i|) ^ 2 := h1
    _ ≤ c * (n * (z ⬝ᵥ z)) := mul_le_mul_of_nonneg_left h2 hc
    _ = _ := by ring

theorem exists_entries (M : Matrix (Fin n) (Fin m) ℝ) : ∃ c : ℝ, 0 < c ∧ ∀ i j, |M i j| ≤ c := by
  refine ⟨1 + ∑ i, ∑ j, |M i j|, by positivity, fun i j => ?_⟩
  have h1 : |M i j| ≤ ∑ j, |M i j| := Finset.single_le_sum (f := fun j => |M i j|) (fun _ _ => abs_nonneg _) (Finset.mem_univ j)
  have h2 : ∑ j, |M i j| ≤ ∑ i, ∑ j, |M i j| :=
    Finset.single_le_sum (f := fun i => ∑ j, |M i j|) (fun _ _ => Finset.sum_nonneg fun _ _ => abs_nonneg _) (Finset.mem_univ i)
  linarith

theorem one_symm_smul (b : ℝ) : (b • (1 : Matrix (Fin n) (Fin n) ℝ))ᵀ = b • 1 := by rw [Matrix.transpose_smul, Matrix.transpose_one]

theorem dot_self_nonneg (z : Fin n → ℝ) : 0 ≤ z ⬝ᵥ z := by
  have := qf_nonneg (Matrix.PosSemidef.one (n := Fin n) (R := ℝ)) z
  rwa [qf_one] at this

theorem exists_bound {M : Matrix (Fin n) (Fin n) ℝ} (h : Mᵀ = M) : ∃ b : ℝ, 0 < b ∧ Loewner M (b • 1) := by
  obtain ⟨c, hc, h1⟩ := exists_entries M
  refine ⟨c * n + 1, by positivity, loewner_of_qf h (one_symm_smul _) fun z => ?_⟩
  rw [qf_smul, qf_one]
  have := qf_le_entries hc.le h1 z
  nlinarith [dot_self_nonneg z]

theorem Loewner.smul {M M' : Matrix (Fin n) (Fin n) ℝ} (h : Loewner M M') {c : ℝ} (hc : 0 ≤ c) : Loewner (c • M) (c • M') := by
  have := Matrix.PosSemidef.smul h hc
  rw [Loewner]
  rwa [smul_sub] at this

theorem Loewner.smul_le {M : Matrix (Fin n) (Fin n) ℝ} (h : M.PosSemidef) {c c' : ℝ} (hc : c ≤ c') : Loewner (c • M) (c' • M) := by
  rw [Loewner, ← sub_smul]
  exact h.smul (by linarith)

/-- A positive definite matrix is at least a multiple of the identity. -/
theorem exists_lower {Q : Matrix (Fin n) (Fin n) ℝ} (h : Q.PosDef) : ∃ q : ℝ, 0 < q ∧ Loewner (q • 1) Q := by
  -- bound the inverse
  have hu := (Matrix.isUnit_iff_isUnit_det _).1 h.isUnit
  have hi : (Q⁻¹)ᵀ = Q⁻¹ := by rw [Matrix.transpose_nonsing_inv, pd_symm h]
  obtain ⟨b, hb, h1⟩ := exists_bound hi
  refine ⟨b⁻¹, by positivity, loewner_of_qf (one_symm_smul _) (pd_symm h) fun z => ?_⟩
  rw [qf_smul, qf_one]
  -- (Q z - z/b)ᵀ Q⁻¹ (Q z - z/b) ≥ 0
  have h2 := qf_nonneg h.inv.posSemidef (Q *ᵥ z - b⁻¹ • z)
  rw [qf_comb hi] at h2
  have h3 : qf Q⁻¹ (Q *ᵥ z) = qf Q z := by
    rw [qf, Matrix.mulVec_mulVec, Matrix.nonsing_inv_mul _ hu, Matrix.one_mulVec, dotProduct_comm, qf]
  have h4 : (Q *ᵥ z) ⬝ᵥ Q⁻¹ *ᵥ z = z ⬝ᵥ z := by
    rw [symm_dot hi, Matrix.mulVec_mulVec, Matrix.nonsing_inv_mul _ hu, Matrix.one_mulVec]
  have h5 := qf_le h1 z
  rw [qf_smul, qf_one] at h5
  rw [h3, h4] at h2
  have h6 : b⁻¹ ^ 2 * qf Q⁻¹ z ≤ b⁻¹ * (z ⬝ᵥ z) := by
    calc b⁻¹ ^ 2 * qf Q⁻¹ z ≤ b⁻¹ ^ 2 * (b * (z ⬝ᵥ z)) := mul_le_mul_of_nonneg_left h5 (by positivity)
      _ = _ := by field_simp
  linarith

/-! ## The covariance is bounded -/

theorem joseph_pred (L : Matrix (Fin n) (Fin m) ℝ) (d : LinModel n m p) (P : Matrix (Fin n) (Fin n) ℝ) :
    joseph L d.C d.R (predCov d.A d.Q P) = ((1 - L * d.C) * d.A) * P * ((1 - L * d.C) * d.A)ᵀ + joseph L d.C d.R d.Q := by
  simp only [joseph, predCov, Matrix.mul_add, Matrix.add_mul, Matrix.transpose_mul, Matrix.mul_assoc]
  abel

/-- A matrix whose powers tend to zero contracts some quadratic form. -/
theorem exists_lyapunov {F : Matrix (Fin n) (Fin n) ℝ} (h : Tendsto (fun k => F ^ k) atTop (𝓝 0)) :
    ∃ (S : Matrix (Fin n) (Fin n) ℝ) (s : ℝ), 1 ≤ s ∧ S.PosSemidef ∧ Loewner 1 S ∧ Loewner S (s • 1) ∧
      Loewner (F * S * Fᵀ) ((1 - 1 / (2 * s)) • S) := by
  have hG : Tendsto (fun k => F ^ k * (F ^ k)ᵀ) atTop (𝓝 0) := by
    have h1 : Tendsto (fun k => (F ^ k)ᵀ) atTop (𝓝 0) := by
      have h2 := ((continuous_id.matrix_transpose (X := Matrix (Fin n) (Fin n) ℝ)).tendsto 0).comp h
      simpa [Function.comp_def] using h2
    have := h.mul h1
    simpa using this
  have hev : ∀ᶠ k : ℕ in atTop, 1 ≤ k ∧ ∀ i j : Fin n, |(F ^ k * (F ^ k)ᵀ) i j| ≤ (1 / (2 * (n + 1)) : ℝ) := by
    refine (eventually_ge_atTop 1).and ?_
    rw [Filter.eventually_all]; intro i; rw [Filter.eventually_all]; intro j
    have h1 : Tendsto (fun k : ℕ => (F ^ k * (F ^ k)ᵀ) i j) atTop (𝓝 0) := by
      have h2 := tendsto_pi_nhds.1 (tendsto_pi_nhds.1 hG i) j
      simpa using h2
    have h3 := h1.abs
    rw [abs_zero] at h3
    have h4 : (0 : ℝ) < 1 / (2 * (n + 1)) := by positivity
    exact (h3.eventually (gt_mem_nhds h4)).mono fun k hk => hk.le
  obtain ⟨k, hk, hkk⟩ := hev.exists
  have hGs : ∀ i, (F ^ i * (F ^ i)ᵀ).PosSemidef := fun i => by
    have := psd_conj (Matrix.PosSemidef.one (n := Fin n) (R := ℝ)) (F ^ i)
    rwa [Matrix.mul_one] at this
  have hhalf : Loewner (F ^ k * (F ^ k)ᵀ) ((1 / 2 : ℝ) • 1) := by
    refine loewner_of_qf (psd_symm (hGs k)) (one_symm_smul _) fun z => ?_
    rw [qf_smul, qf_one]
    refine (qf_le_entries (by positivity) hkk z).trans ?_
    refine mul_le_mul_of_nonneg_right ?_ (dot_self_nonneg z)
    rw [div_mul_eq_mul_div, div_le_div_iff₀ (by positivity) (by positivity)]
    nlinarith [(Nat.cast_nonneg n : (0 : ℝ) ≤ n)]
  set S := ∑ i ∈ Finset.range k, F ^ i * (F ^ i)ᵀ with hS
  have hSp : S.PosSemidef := Matrix.posSemidef_sum _ fun i _ => hGs i
  obtain ⟨s, hs, hSs⟩ := exists_bound (psd_symm hSp)
  have hone : Loewner 1 S := by
    rw [Loewner, hS]
    obtain ⟨k', rfl⟩ := Nat.exists_eq_add_of_le' hk
    rw [Finset.sum_range_succ']
    simp only [pow_zero, Matrix.transpose_one, Matrix.mul_one, add_sub_cancel_right]
    exact Matrix.posSemidef_sum _ fun i _ => hGs _
  have hFS : F * S * Fᵀ = S - 1 + F ^ k * (F ^ k)ᵀ := by
    have h1 : F * S * Fᵀ = ∑ i ∈ Finset.range k, F ^ (i + 1) * (F ^ (i + 1))ᵀ := by
      rw [hS, Finset.mul_sum, Finset.sum_mul]
      refine Finset.sum_congr rfl fun i _ => ?_
      rw [pow_succ' F i, Matrix.transpose_mul]
      simp only [Matrix.mul_assoc]
    have h2 := Finset.sum_range_succ' (fun i => F ^ i * (F ^ i)ᵀ) k
    rw [Finset.sum_range_succ] at h2
    simp only [pow_zero, Matrix.transpose_one, Matrix.mul_one] at h2
    rw [h1, hS, sub_add_eq_add_sub, h2, add_sub_cancel_right]
  refine ⟨S, s + 1, by linarith, hSp, hone, hSs.trans (Loewner.smul_le Matrix.PosSemidef.one (by linarith)), ?_⟩
  rw [hFS]
  have hsym : (S - 1 + F ^ k * (F ^ k)ᵀ)ᵀ = S - 1 + F ^ k * (F ^ k)ᵀ := by
    rw [Matrix.transpose_add, Matrix.transpose_sub, Matrix.transpose_one, psd_symm hSp, psd_symm (hGs k)]
  refine loewner_of_qf hsym (by rw [Matrix.transpose_smul, psd_symm hSp]) fun z => ?_
  have q1 := qf_le hhalf z
  have q2 := qf_le hSs z
  rw [qf_smul, qf_one] at q1 q2
  have q3 : qf (S - 1) z = qf S z - z ⬝ᵥ z := by simp [qf, Matrix.sub_mulVec, dotProduct_sub]
  rw [qf_add, q3, qf_smul]
  have q4 : 1 / (2 * (s + 1)) * qf S z ≤ 1 / 2 * (z ⬝ᵥ z) := by
    have q5 : qf S z ≤ (s + 1) * (z ⬝ᵥ z) := by nlinarith [dot_self_nonneg z]
    calc 1 / (2 * (s + 1)) * qf S z ≤ 1 / (2 * (s + 1)) * ((s + 1) * (z ⬝ᵥ z)) := mul_le_mul_of_nonneg_left q5 (by positivity)
      _ = _ := by field_simp
  linarith

/-- If some estimator with a constant gain is stable, the covariance of the filter is bounded. -/
theorem cov_bounded (d : LinModel n m p) (hd : d.Ok) {P : Matrix (Fin n) (Fin n) ℝ} (hP : P.PosSemidef) (L : Matrix (Fin n) (Fin m) ℝ)
    (hL : Tendsto (fun k => ((1 - L * d.C) * d.A) ^ k) atTop (𝓝 0)) :
    ∃ b : ℝ, 0 < b ∧ ∀ (i : ℕ → StepIn m p) (x : Fin n → ℝ) (N : ℕ), Loewner (linRun (fun _ => d) i (x, P) N).2 (b • 1) := by
  obtain ⟨S, s, hs, hSp, h1S, hSs, hF⟩ := exists_lyapunov hL
  set F := (1 - L * d.C) * d.A with hFdef
  have hW : (joseph L d.C d.R d.Q).PosSemidef := joseph_psd hd.2.posSemidef hd.1 L
  obtain ⟨w, hw, hWw⟩ := exists_bound (psd_symm hW)
  obtain ⟨c, hc, hPc⟩ := exists_bound (psd_symm hP)
  set g := c + 2 * s * w with hg
  have hsub : ∀ N, Loewner (subCov (fun _ => d) (fun _ => L) P N) (g • S) := by
    intro N
    induction N with
    | zero =>
      refine hPc.trans ((h1S.smul hc.le).trans (Loewner.smul_le hSp ?_))
      have : 0 ≤ 2 * s * w := by positivity
      linarith
    | succ N ih =>
      rw [subCov, joseph_pred]
      have h1 : Loewner (F * subCov (fun _ => d) (fun _ => L) P N * Fᵀ) (g • ((1 - 1 / (2 * s)) • S)) := by
        have h2 := ih.conj F
        rw [Matrix.mul_smul, Matrix.smul_mul] at h2
        exact h2.trans (hF.smul (by positivity))
      refine (h1.add (hWw.trans (h1S.smul hw.le))).trans ?_
      rw [smul_smul, ← add_smul]
      refine Loewner.smul_le hSp ?_
      have h3 : g * (1 - 1 / (2 * s)) + w = g - c / (2 * s) := by rw [hg]; field_simp; ring
      rw [h3]
      have : 0 ≤ c / (2 * s) := by positivity
      linarith
  refine ⟨g * s, by positivity, fun i x N => ?_⟩
  have h1 := cov_le_sub (fun _ => d) (fun _ => hd) i x hP (fun _ => L) N
  have h2 := hSs.smul (c := g) (by positivity)
  rw [smul_smul] at h2
  exact (h1.trans (hsub N)).trans h2

/-! ## Two initial covariances -/

/-- Transition matrix of the error. -/
noncomputable def trans (d : ℕ → LinModel n m p) (P : Matrix (Fin n) (Fin n) ℝ) : ℕ → Matrix (Fin n) (Fin n) ℝ
  | 0 => 1
  | N + 1 =>
    let M := predCov (d N).A (d N).Q (linRun d (fun _ => ⟨0, 0, 0⟩) (0, P) N).2
    (1 - gain (d N).C (d N).R M * (d N).C) * (d N).A * trans d P N

theorem errRun_trans (d : ℕ → LinModel n m p) (P : Matrix (Fin n) (Fin n) ℝ) (e : Fin n → ℝ) (N : ℕ) :
    errRun d P e N = trans d P N *ᵥ e := by
  induction N with
  | zero => simp [errRun, trans]
  | succ N ih => simp only [errRun, trans, ih, Matrix.mulVec_mulVec, Matrix.mul_assoc]

theorem gain_post {C : Matrix (Fin m) (Fin n) ℝ} {R : Matrix (Fin m) (Fin m) ℝ} {M : Matrix (Fin n) (Fin n) ℝ} (hR : R.PosDef)
    (hM : M.PosSemidef) : gain C R M * R = posterior C R M * Cᵀ := by
  have h := gain_mul (C := C) hR hM
  rw [innovCov, Matrix.mul_add] at h
  rw [posterior, Matrix.sub_mul, Matrix.sub_mul, Matrix.one_mul, ← h]
  simp only [Matrix.mul_assoc]
  abel

theorem posterior_sub {C : Matrix (Fin m) (Fin n) ℝ} {R : Matrix (Fin m) (Fin m) ℝ} {M M' : Matrix (Fin n) (Fin n) ℝ} (hR : R.PosDef)
    (hM : M.PosSemidef) (hM' : M'.PosSemidef) :
    posterior C R M - posterior C R M' = (1 - gain C R M * C) * (M - M') * (1 - gain C R M' * C)ᵀ := by
  have hu := (Matrix.isUnit_iff_isUnit_det _).1 hR.isUnit
  have s' := psd_symm (posterior_psd (C := C) hR hM')
  have g1 : gain C R M = posterior C R M * Cᵀ * R⁻¹ := by
    rw [← gain_post hR hM, Matrix.mul_assoc, Matrix.mul_nonsing_inv _ hu, Matrix.mul_one]
  have g2 : gain C R M' = posterior C R M' * Cᵀ * R⁻¹ := by
    rw [← gain_post hR hM', Matrix.mul_assoc, Matrix.mul_nonsing_inv _ hu, Matrix.mul_one]
  have hRi : (R⁻¹)ᵀ = R⁻¹ := by rw [Matrix.transpose_nonsing_inv, pd_symm hR]
  have p' : M' * (1 - gain C R M' * C)ᵀ = posterior C R M' := by
    rw [← s', posterior, Matrix.transpose_mul, psd_symm hM']
  have p : (1 - gain C R M * C) * M = posterior C R M := rfl
  rw [Matrix.mul_sub, Matrix.sub_mul, p, Matrix.mul_assoc, p']
  have e1 : (1 - gain C R M' * C)ᵀ = 1 - Cᵀ * R⁻¹ * C * posterior C R M' := by
    rw [g2, Matrix.transpose_sub, Matrix.transpose_one, Matrix.transpose_mul, Matrix.transpose_mul, Matrix.transpose_mul, hRi, s',
      Matrix.transpose_transpose]
    simp only [Matrix.mul_assoc]
  rw [e1, g1]
  simp only [Matrix.mul_sub, Matrix.sub_mul, Matrix.mul_one, Matrix.one_mul, Matrix.mul_assoc]
  abel

theorem cov_sub (d : ℕ → LinModel n m p) (hd : ∀ N, (d N).Ok) {P P' : Matrix (Fin n) (Fin n) ℝ} (hP : P.PosSemidef) (hP' : P'.PosSemidef)
    (N : ℕ) : (linRun d (fun _ => ⟨0, 0, 0⟩) (0, P) N).2 - (linRun d (fun _ => ⟨0, 0, 0⟩) (0, P') N).2 =
      trans d P N * (P - P') * (trans d P' N)ᵀ := by
  induction N with
  | zero => simp [linRun, trans]
  | succ N ih =>
    have hM := predCov_psd (A := (d N).A) (hd N).1 (LKF.linRun_psd d hd (fun _ => ⟨0, 0, 0⟩) 0 hP N)
    have hM' := predCov_psd (A := (d N).A) (hd N).1 (LKF.linRun_psd d hd (fun _ => ⟨0, 0, 0⟩) 0 hP' N)
    have h1 := posterior_sub (C := (d N).C) (hd N).2 hM hM'
    have h2 : predCov (d N).A (d N).Q (linRun d (fun _ => ⟨0, 0, 0⟩) (0, P) N).2 -
        predCov (d N).A (d N).Q (linRun d (fun _ => ⟨0, 0, 0⟩) (0, P') N).2 =
        (d N).A * (trans d P N * (P - P') * (trans d P' N)ᵀ) * (d N).Aᵀ := by
      rw [← ih, predCov, predCov, Matrix.mul_sub, Matrix.sub_mul]
      abel
    rw [h2] at h1
    simp only [linRun, linStep, trans]
    rw [h1]
    simp only [Matrix.transpose_mul, Matrix.mul_assoc]

theorem trans_entries {d : ℕ → LinModel n m p} {P : Matrix (Fin n) (Fin n) ℝ} {N : ℕ} {c : ℝ}
    (h : ∀ e : Fin n → ℝ, errRun d P e N ⬝ᵥ errRun d P e N ≤ c * (e ⬝ᵥ e)) (i j : Fin n) : trans d P N i j ^ 2 ≤ c := by
  have h1 := h (Pi.single j 1)
  rw [errRun_trans, Matrix.mulVec_single_one] at h1
  have h2 : (Pi.single j (1 : ℝ) : Fin n → ℝ) ⬝ᵥ Pi.single j 1 = 1 := by simp
  rw [h2, mul_one] at h1
  refine le_trans ?_ h1
  simp only [dotProduct, Matrix.col_apply]
  have := Finset.single_le_sum (f := fun k => trans d P N k j * trans d P N k j) (fun _ _ => mul_self_nonneg _) (Finset.mem_univ i)
  rw [pow_two]
  exact this

end StateObs.KFSpec
