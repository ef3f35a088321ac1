import Verif.Kalman.LinProps
import Mathlib.Tactic.Linarith
import Mathlib.Tactic.FieldSimp
/-!
# Stability of the Kalman filter

Lemmas for property C117, about the textbook filter.
-/

namespace StateObs.KFSpec
open Matrix
variable {n m p : ℕ}

/-! ## Quadratic forms -/

/-- Value of a quadratic form. -/
def qf (M : Matrix (Fin n) (Fin n) ℝ) (z : Fin n → ℝ) : ℝ := z ⬝ᵥ M *ᵥ z

theorem qf_nonneg {M : Matrix (Fin n) (Fin n) ℝ} (h : M.PosSemidef) (z : Fin n → ℝ) : 0 ≤ qf M z := by
  have := h.dotProduct_mulVec_nonneg z
  simpa [qf] using this

theorem qf_pos {M : Matrix (Fin n) (Fin n) ℝ} (h : M.PosDef) {z : Fin n → ℝ} (hz : z ≠ 0) : 0 < qf M z := by
  have := h.dotProduct_mulVec_pos hz
  simpa [qf] using this

theorem qf_le {M M' : Matrix (Fin n) (Fin n) ℝ} (h : Loewner M M') (z : Fin n → ℝ) : qf M z ≤ qf M' z := by
  have := qf_nonneg h z
  simp only [qf, Matrix.sub_mulVec, dotProduct_sub] at this ⊢
  linarith

theorem qf_add (M M' : Matrix (Fin n) (Fin n) ℝ) (z : Fin n → ℝ) : qf (M + M') z = qf M z + qf M' z := by
  simp only [qf, Matrix.add_mulVec, dotProduct_add]

theorem qf_smul (c : ℝ) (M : Matrix (Fin n) (Fin n) ℝ) (z : Fin n → ℝ) : qf (c • M) z = c * qf M z := by
  simp only [qf, Matrix.smul_mulVec, dotProduct_smul, smul_eq_mul]

theorem qf_one (z : Fin n → ℝ) : qf 1 z = z ⬝ᵥ z := by simp [qf]

theorem qf_conj {k : ℕ} (M : Matrix (Fin k) (Fin k) ℝ) (B : Matrix (Fin n) (Fin k) ℝ) (z : Fin n → ℝ) :
    qf (B * M * Bᵀ) z = qf M (Bᵀ *ᵥ z) := by
  simp only [qf, ← Matrix.mulVec_mulVec]
  rw [Matrix.dotProduct_mulVec, ← Matrix.mulVec_transpose]

theorem symm_dot {M : Matrix (Fin n) (Fin n) ℝ} (h : Mᵀ = M) (y z : Fin n → ℝ) : y ⬝ᵥ M *ᵥ z = z ⬝ᵥ M *ᵥ y := by
  rw [Matrix.dotProduct_mulVec, ← Matrix.mulVec_transpose, h, dotProduct_comm]

theorem qf_comb {M : Matrix (Fin n) (Fin n) ℝ} (h : Mᵀ = M) (y z : Fin n → ℝ) (t : ℝ) :
    qf M (y - t • z) = qf M y - 2 * t * (y ⬝ᵥ M *ᵥ z) + t ^ 2 * qf M z := by
  have := symm_dot h y z
  simp only [qf, Matrix.mulVec_sub, dotProduct_sub, sub_dotProduct, Matrix.mulVec_smul, dotProduct_smul, smul_dotProduct, smul_eq_mul]
  rw [← this]
  ring

theorem Loewner.refl (M : Matrix (Fin n) (Fin n) ℝ) : Loewner M M := by
  rw [Loewner, sub_self]; exact Matrix.PosSemidef.zero

theorem Loewner.trans {M M' M'' : Matrix (Fin n) (Fin n) ℝ} (h : Loewner M M') (h' : Loewner M' M'') : Loewner M M'' := by
  have := h.add h'
  rw [Loewner]
  rwa [show M'' - M = M' - M + (M'' - M') by abel]

theorem Loewner.add {M M' N N' : Matrix (Fin n) (Fin n) ℝ} (h : Loewner M M') (h' : Loewner N N') : Loewner (M + N) (M' + N') := by
  have := Matrix.PosSemidef.add h h'
  rw [Loewner]
  rwa [show M' + N' - (M + N) = M' - M + (N' - N) by abel]

theorem Loewner.conj {k : ℕ} {M M' : Matrix (Fin k) (Fin k) ℝ} (h : Loewner M M') (B : Matrix (Fin n) (Fin k) ℝ) :
    Loewner (B * M * Bᵀ) (B * M' * Bᵀ) := by
  have := psd_conj h B
  rwa [Matrix.mul_sub, Matrix.sub_mul] at this

theorem loewner_of_qf {M M' : Matrix (Fin n) (Fin n) ℝ} (h1 : Mᵀ = M) (h2 : M'ᵀ = M') (h : ∀ z, qf M z ≤ qf M' z) : Loewner M M' := by
  refine Matrix.PosSemidef.of_dotProduct_mulVec_nonneg ?_ fun z => ?_
  · rw [Matrix.IsHermitian, Matrix.conjTranspose_eq_transpose_of_trivial, Matrix.transpose_sub, h1, h2]
  · have := h z
    simp only [qf] at this
    simp only [star_trivial, Matrix.sub_mulVec, dotProduct_sub]
    linarith

/-! ## Monotonicity and bounds of the covariance -/

theorem predCov_mono {A Q P P' : Matrix (Fin n) (Fin n) ℝ} (h : Loewner P P') : Loewner (predCov A Q P) (predCov A Q P') :=
  (h.conj A).add (.refl Q)

theorem joseph_mono {C : Matrix (Fin m) (Fin n) ℝ} {R : Matrix (Fin m) (Fin m) ℝ} {M M' : Matrix (Fin n) (Fin n) ℝ}
    (K : Matrix (Fin n) (Fin m) ℝ) (h : Loewner M M') : Loewner (joseph K C R M) (joseph K C R M') :=
  (h.conj (1 - K * C)).add (.refl _)

/-- Error covariance of an estimator with arbitrary gains. -/
def subCov (d : ℕ → LinModel n m p) (L : ℕ → Matrix (Fin n) (Fin m) ℝ) (P : Matrix (Fin n) (Fin n) ℝ) : ℕ → Matrix (Fin n) (Fin n) ℝ
  | 0 => P
  | N + 1 => joseph (L N) (d N).C (d N).R (predCov (d N).A (d N).Q (subCov d L P N))

/-- The filter does at least as well as an estimator with other gains. -/
theorem cov_le_sub (d : ℕ → LinModel n m p) (hd : ∀ N, (d N).Ok) (i : ℕ → StepIn m p) (x : Fin n → ℝ) {P : Matrix (Fin n) (Fin n) ℝ}
    (hP : P.PosSemidef) (L : ℕ → Matrix (Fin n) (Fin m) ℝ) (N : ℕ) : Loewner (linRun d i (x, P) N).2 (subCov d L P N) := by
  induction N with
  | zero => exact .refl _
  | succ N ih =>
    have hM := predCov_psd (A := (d N).A) (hd N).1 (LKF.linRun_psd d hd i x hP N)
    exact (posterior_le_joseph (hd N).2 hM (L N)).trans (joseph_mono (L N) (predCov_mono ih))

/-! ## One step -/

/-- Bound on the vector, from the bound on the matrix. -/
theorem sq_le_of_bound {P : Matrix (Fin n) (Fin n) ℝ} (hP : P.PosSemidef) {b : ℝ} (hb : 0 < b) (h : Loewner P (b • 1)) (z : Fin n → ℝ) :
    (P *ᵥ z) ⬝ᵥ (P *ᵥ z) ≤ b * qf P z := by
  set e := P *ᵥ z with he
  have h1 := qf_nonneg hP (z - b⁻¹ • e)
  rw [qf_comb (psd_symm hP)] at h1
  have h2 : z ⬝ᵥ P *ᵥ e = e ⬝ᵥ e := by rw [symm_dot (psd_symm hP), ← he]
  have h3 := qf_le h e
  rw [qf_smul, qf_one] at h3
  rw [h2] at h1
  have h4 : b⁻¹ ^ 2 * qf P e ≤ b⁻¹ * (e ⬝ᵥ e) := by
    have := mul_le_mul_of_nonneg_left h3 (sq_nonneg b⁻¹)
    calc b⁻¹ ^ 2 * qf P e ≤ b⁻¹ ^ 2 * (b * (e ⬝ᵥ e)) := this
      _ = b⁻¹ * (e ⬝ᵥ e) := by field_simp
  have h5 : b⁻¹ * (e ⬝ᵥ e) ≤ qf P z := by linarith
  calc e ⬝ᵥ e = b * (b⁻¹ * (e ⬝ᵥ e)) := by field_simp
    _ ≤ b * qf P z := mul_le_mul_of_nonneg_left h5 hb.le

/-- The prediction: if `M` exceeds `A P Aᵀ` by a factor `t`, the weighted norm of the error decreases by that factor. -/
theorem pred_contract {A P M : Matrix (Fin n) (Fin n) ℝ} (hP : P.PosSemidef) {t : ℝ} (ht : 0 < t)
    (h : Loewner (t • (A * P * Aᵀ)) M) (z y : Fin n → ℝ) (hy : M *ᵥ y = A *ᵥ (P *ᵥ z)) : t * qf M y ≤ qf P z := by
  have h1 := qf_nonneg hP (Aᵀ *ᵥ y - t⁻¹ • z)
  rw [qf_comb (psd_symm hP), ← qf_conj] at h1
  have h2 : (Aᵀ *ᵥ y) ⬝ᵥ P *ᵥ z = qf M y := by
    rw [qf, hy, Matrix.dotProduct_mulVec, ← Matrix.mulVec_transpose, Matrix.dotProduct_mulVec, ← Matrix.mulVec_transpose,
      Matrix.dotProduct_mulVec, ← Matrix.mulVec_transpose]
  have h3 := qf_le h y
  rw [qf_smul] at h3
  rw [h2] at h1
  have h4 : qf (A * P * Aᵀ) y ≤ t⁻¹ * qf M y := by
    calc qf (A * P * Aᵀ) y = t⁻¹ * (t * qf (A * P * Aᵀ) y) := by field_simp
      _ ≤ _ := mul_le_mul_of_nonneg_left h3 (by positivity)
  have h5 : t⁻¹ * qf M y ≤ t⁻¹ ^ 2 * qf P z := by linarith
  calc t * qf M y = t ^ 2 * (t⁻¹ * qf M y) := by field_simp
    _ ≤ t ^ 2 * (t⁻¹ ^ 2 * qf P z) := mul_le_mul_of_nonneg_left h5 (sq_nonneg t)
    _ = qf P z := by field_simp

/-! ## The error without noise -/

/-- Evolution of the error of the filter without noise. -/
noncomputable def errRun (d : ℕ → LinModel n m p) (P : Matrix (Fin n) (Fin n) ℝ) (e : Fin n → ℝ) : ℕ → Fin n → ℝ
  | 0 => e
  | N + 1 =>
    let M := predCov (d N).A (d N).Q (linRun d (fun _ => ⟨0, 0, 0⟩) (0, P) N).2
    (1 - gain (d N).C (d N).R M * (d N).C) *ᵥ ((d N).A *ᵥ errRun d P e N)

theorem cov_indep (d : ℕ → LinModel n m p) (P : Matrix (Fin n) (Fin n) ℝ) (i i' : ℕ → StepIn m p) (x x' : Fin n → ℝ) (N : ℕ) :
    (linRun d i (x, P) N).2 = (linRun d i' (x', P) N).2 := by
  induction N with
  | zero => rfl
  | succ N ih => simp only [linRun, linStep, ih]

theorem err_eq (d : ℕ → LinModel n m p) (P : Matrix (Fin n) (Fin n) ℝ) (x X : Fin n → ℝ) (u : ℕ → Fin p → ℝ) (N : ℕ) :
    trueState d u 0 X N - (linRun d (sensorData d u 0 0 X) (x, P) N).1 = errRun d P (X - x) N := by
  induction N with
  | zero => rfl
  | succ N ih =>
    rw [errRun, ← ih]
    simp only [linRun, linStep, cov_indep d P (sensorData d u 0 0 X) (fun _ => ⟨0, 0, 0⟩) x 0, sensorData, trueState, predState, predMeas]
    simp only [Matrix.sub_mulVec, Matrix.one_mulVec, Matrix.mulVec_add, Matrix.mulVec_sub, ← Matrix.mulVec_mulVec, Pi.zero_apply, add_zero]
    abel

/-- Two filters with different initial estimates and the same data. -/
theorem err_two (d : ℕ → LinModel n m p) (P : Matrix (Fin n) (Fin n) ℝ) (x x' : Fin n → ℝ) (i : ℕ → StepIn m p) (N : ℕ) :
    (linRun d i (x, P) N).1 - (linRun d i (x', P) N).1 = errRun d P (x - x') N := by
  induction N with
  | zero => rfl
  | succ N ih =>
    rw [errRun, ← ih]
    simp only [linRun, linStep, cov_indep d P i (fun _ => ⟨0, 0, 0⟩) x 0, cov_indep d P i (fun _ => ⟨0, 0, 0⟩) x' 0, predState, predMeas]
    simp only [Matrix.sub_mulVec, Matrix.one_mulVec, Matrix.mulVec_add, Matrix.mulVec_sub, ← Matrix.mulVec_mulVec]
    abel

/-- Geometric decrease of the error: process noise in all directions, bounded dynamics, bounded covariance. -/
theorem err_decrease (d : ℕ → LinModel n m p) (hd : ∀ N, (d N).Ok) {P : Matrix (Fin n) (Fin n) ℝ} (hP : P.PosSemidef)
    {q α b : ℝ} (hq : 0 < q) (hα : 0 < α) (hb : 0 < b) (hQ : ∀ N, Loewner (q • 1) (d N).Q) (hA : ∀ N, Loewner ((d N).A * (d N).Aᵀ) (α • 1))
    (hA' : ∀ N, Loewner ((d N).Aᵀ * (d N).A) (α • 1))
    (hB : ∀ N, Loewner (linRun d (fun _ => ⟨0, 0, 0⟩) (0, P) N).2 (b • 1)) (e : Fin n → ℝ) (N : ℕ) :
    errRun d P e (N + 1) ⬝ᵥ errRun d P e (N + 1) ≤ b * ((1 + q / (b * α))⁻¹ ^ N * (α / q * (e ⬝ᵥ e))) := by
  set cov : ℕ → Matrix (Fin n) (Fin n) ℝ := fun N => (linRun d (fun _ => ⟨0, 0, 0⟩) (0, P) N).2 with hcov
  have hcp : ∀ N, (cov N).PosSemidef := fun N => LKF.linRun_psd d hd _ _ hP N
  set M : ℕ → Matrix (Fin n) (Fin n) ℝ := fun N => predCov (d N).A (d N).Q (cov N) with hM
  have hqM : ∀ N, Loewner (q • 1) (M N) := fun N => by
    have := Matrix.PosSemidef.add (psd_conj (hcp N) (d N).A) (hQ N)
    rw [Loewner, hM]
    simp only [predCov]
    rwa [add_sub_assoc]
  have hMsymm : ∀ N, (M N)ᵀ = M N := fun N => psd_symm (predCov_psd (hd N).1 (hcp N))
  have hMpd : ∀ N, (M N).PosDef := fun N => by
    have h1 := Matrix.PosDef.posSemidef_add (hqM N) ((Matrix.PosDef.one (n := Fin n) (R := ℝ)).smul hq)
    rwa [sub_add_cancel] at h1
  have hMinv : ∀ N, M N * (M N)⁻¹ = 1 := fun N =>
    Matrix.mul_nonsing_inv _ ((Matrix.isUnit_iff_isUnit_det _).1 (hMpd N).isUnit)
  set ε := q / (b * α) with hε
  have hε0 : 0 < ε := by positivity
  -- the weighted vectors
  set z : ℕ → Fin n → ℝ := fun N => (M N)⁻¹ *ᵥ ((d N).A *ᵥ errRun d P e N) with hz
  have hMz : ∀ N, M N *ᵥ z N = (d N).A *ᵥ errRun d P e N := fun N => by
    rw [hz]; simp only [Matrix.mulVec_mulVec, ← Matrix.mul_assoc]; rw [hMinv, Matrix.one_mul]
  have hPz : ∀ N, errRun d P e (N + 1) = cov (N + 1) *ᵥ z N := fun N => by
    have h1 : cov (N + 1) = (1 - gain (d N).C (d N).R (M N) * (d N).C) * M N := rfl
    rw [h1, ← Matrix.mulVec_mulVec, hMz]
    rfl
  have hle : ∀ N, qf (cov (N + 1)) (z N) ≤ qf (M N) (z N) := fun N =>
    qf_le (posterior_le_pred (hd N).2 (hMpd N).posSemidef) _
  have hfac : ∀ N, Loewner ((1 + ε) • ((d N).A * cov N * (d N).Aᵀ)) (M N) := fun N => by
    have s1 : ((d N).A * cov N * (d N).Aᵀ)ᵀ = (d N).A * cov N * (d N).Aᵀ := psd_symm (psd_conj (hcp N) _)
    refine loewner_of_qf (by rw [Matrix.transpose_smul, s1]) (hMsymm N) fun y => ?_
    rw [qf_smul, hM]
    simp only [predCov, qf_add]
    have h1 : qf ((d N).A * cov N * (d N).Aᵀ) y ≤ b * (α * (y ⬝ᵥ y)) := by
      rw [qf_conj]
      have h2 := qf_le (hB N) ((d N).Aᵀ *ᵥ y)
      rw [qf_smul] at h2
      have h3 := qf_le (hA N) y
      rw [qf_smul, qf_one] at h3
      have h4 : qf 1 ((d N).Aᵀ *ᵥ y) = qf ((d N).A * (d N).Aᵀ) y := by
        rw [← qf_conj, Matrix.mul_one]
      rw [h4] at h2
      exact h2.trans (mul_le_mul_of_nonneg_left h3 hb.le)
    have h5 := qf_le (hQ N) y
    rw [qf_smul, qf_one] at h5
    have h6 : ε * qf ((d N).A * cov N * (d N).Aᵀ) y ≤ q * (y ⬝ᵥ y) := by
      calc ε * qf ((d N).A * cov N * (d N).Aᵀ) y ≤ ε * (b * (α * (y ⬝ᵥ y))) := mul_le_mul_of_nonneg_left h1 hε0.le
        _ = q * (y ⬝ᵥ y) := by rw [hε]; field_simp
    linarith
  have hstep : ∀ N, qf (M (N + 1)) (z (N + 1)) ≤ (1 + ε)⁻¹ * qf (M N) (z N) := fun N => by
    have h1 := pred_contract (hcp (N + 1)) (t := 1 + ε) (by positivity) (hfac (N + 1)) (z N) (z (N + 1)) (by rw [hMz, hPz])
    have h2 := h1.trans (hle N)
    calc qf (M (N + 1)) (z (N + 1)) = (1 + ε)⁻¹ * ((1 + ε) * qf (M (N + 1)) (z (N + 1))) := by field_simp
      _ ≤ _ := mul_le_mul_of_nonneg_left h2 (by positivity)
  -- the first value
  have h0 : qf (M 0) (z 0) ≤ α / q * (e ⬝ᵥ e) := by
    have h1 : qf (M 0) (z 0) = z 0 ⬝ᵥ (d 0).A *ᵥ e := by rw [qf, hMz]; rfl
    have h2 := qf_le (hqM 0) (z 0)
    rw [qf_smul, qf_one] at h2
    have h3 := qf_nonneg (Matrix.PosSemidef.one (n := Fin n) (R := ℝ)) (z 0 - q⁻¹ • ((d 0).A *ᵥ e))
    rw [qf_comb Matrix.transpose_one, Matrix.one_mulVec, qf_one, qf_one, ← h1] at h3
    have h4 : ((d 0).A *ᵥ e) ⬝ᵥ ((d 0).A *ᵥ e) ≤ α * (e ⬝ᵥ e) := by
      have h5 := qf_le (hA' 0) e
      rw [qf_smul, qf_one] at h5
      refine le_trans (le_of_eq ?_) h5
      rw [qf, ← Matrix.mulVec_mulVec, Matrix.dotProduct_mulVec e, ← Matrix.mulVec_transpose, Matrix.transpose_transpose]
    have h6 : q * qf (M 0) (z 0) ≤ α * (e ⬝ᵥ e) := by
      have h7 : q ^ 2 * (q⁻¹ ^ 2 * ((d 0).A *ᵥ e ⬝ᵥ (d 0).A *ᵥ e)) = (d 0).A *ᵥ e ⬝ᵥ (d 0).A *ᵥ e := by field_simp
      have h8 : q ^ 2 * (2 * q⁻¹ * qf (M 0) (z 0)) = 2 * q * qf (M 0) (z 0) := by field_simp
      have h9 := mul_nonneg (sq_nonneg q) h3
      have h10 : q ^ 2 * (z 0 ⬝ᵥ z 0) ≤ q * qf (M 0) (z 0) := by
        rw [pow_two, mul_assoc]; exact mul_le_mul_of_nonneg_left h2 hq.le
      nlinarith
    calc qf (M 0) (z 0) = q⁻¹ * (q * qf (M 0) (z 0)) := by field_simp
      _ ≤ q⁻¹ * (α * (e ⬝ᵥ e)) := mul_le_mul_of_nonneg_left h6 (by positivity)
      _ = _ := by field_simp
  have hgeo : ∀ N, qf (M N) (z N) ≤ (1 + ε)⁻¹ ^ N * (α / q * (e ⬝ᵥ e)) := fun N => by
    induction N with
    | zero => simpa using h0
    | succ N ih =>
      refine (hstep N).trans ?_
      rw [pow_succ', mul_assoc]
      exact mul_le_mul_of_nonneg_left ih (by positivity)
  rw [hPz]
  refine (sq_le_of_bound (hcp (N + 1)) hb (hB (N + 1)) (z N)).trans ?_
  exact mul_le_mul_of_nonneg_left ((hle N).trans (hgeo N)) hb.le

end StateObs.KFSpec
