import Verif.Kalman.StableBound
/-!
# Convergence of the linear filter with time-varying models

Bounds that depend on bounds on the models only.
-/

namespace StateObs.KFSpec
open StateObs Matrix
variable {n m p : ℕ}

/-- The rate of decrease, from the bounds. -/
theorem exists_rate_varying {q α b : ℝ} (hq : 0 < q) (hα : 0 < α) (hb : 0 < b) :
    ∃ c ρ : ℝ, 0 ≤ c ∧ 0 ≤ ρ ∧ ρ < 1 ∧ ∀ (d : ℕ → LinModel n m p) (_ : ∀ N, (d N).Ok) (P : Matrix (Fin n) (Fin n) ℝ) (_ : P.PosSemidef)
      (_ : ∀ N, Loewner (q • 1) (d N).Q) (_ : ∀ N, Loewner ((d N).A * (d N).Aᵀ) (α • 1)) (_ : ∀ N, Loewner ((d N).Aᵀ * (d N).A) (α • 1))
      (_ : ∀ N, Loewner (linRun d (fun _ => ⟨0, 0, 0⟩) (0, P) N).2 (b • 1)) (e : Fin n → ℝ) (N : ℕ),
      errRun d P e N ⬝ᵥ errRun d P e N ≤ c * ρ ^ N * (e ⬝ᵥ e) := by
  set ρ := (1 + q / (b * α))⁻¹ with hρ
  have hε : 0 < q / (b * α) := by positivity
  have hρ0 : 0 < ρ := by positivity
  refine ⟨1 + b * (α / q) / ρ, ρ, by positivity, hρ0.le, inv_lt_one_of_one_lt₀ (by linarith), fun d hd P hP hQ hA hA' hB e N => ?_⟩
  have hdec := err_decrease d hd hP hq hα hb hQ hA hA' hB
  have he := dot_self_nonneg e
  cases N with
  | zero =>
    simp only [errRun, pow_zero, mul_one]
    have : 0 ≤ b * (α / q) / ρ * (e ⬝ᵥ e) := by positivity
    linarith
  | succ N =>
    refine (hdec e N).trans ?_
    have h3 : (1 + b * (α / q) / ρ) * ρ ^ (N + 1) = ρ ^ (N + 1) + b * (α / q) * ρ ^ N := by
      rw [pow_succ]; field_simp
    rw [h3]
    have h4 : 0 ≤ ρ ^ (N + 1) * (e ⬝ᵥ e) := by positivity
    nlinarith

/-- Bound on the coefficients. -/
def Bd {r c : ℕ} (b : ℝ) (M : Matrix (Fin r) (Fin c) ℝ) : Prop := ∀ i j, |M i j| ≤ b

theorem Bd.le {r c : ℕ} {b b' : ℝ} {M : Matrix (Fin r) (Fin c) ℝ} (h : Bd b M) (hb : b ≤ b') : Bd b' M := fun i j => (h i j).trans hb
theorem Bd.transpose {r c : ℕ} {b : ℝ} {M : Matrix (Fin r) (Fin c) ℝ} (h : Bd b M) : Bd b Mᵀ := fun i j => h j i
theorem Bd.add {r c : ℕ} {b b' : ℝ} {M M' : Matrix (Fin r) (Fin c) ℝ} (h : Bd b M) (h' : Bd b' M') : Bd (b + b') (M + M') :=
  fun i j => (abs_add_le _ _).trans (add_le_add (h i j) (h' i j))
theorem Bd.sub {r c : ℕ} {b b' : ℝ} {M M' : Matrix (Fin r) (Fin c) ℝ} (h : Bd b M) (h' : Bd b' M') : Bd (b + b') (M - M') :=
  fun i j => (abs_sub _ _).trans (add_le_add (h i j) (h' i j))
theorem Bd.one : Bd 1 (1 : Matrix (Fin n) (Fin n) ℝ) := fun i j => by
  rw [Matrix.one_apply]; split_ifs <;> simp
theorem Bd.mul {r c s : ℕ} {b b' : ℝ} {M : Matrix (Fin r) (Fin s) ℝ} {M' : Matrix (Fin s) (Fin c) ℝ} (hb : 0 ≤ b) (h : Bd b M)
    (h' : Bd b' M') : Bd (s * (b * b')) (M * M') := fun i j => by
  rw [Matrix.mul_apply]
  refine (Finset.abs_sum_le_sum_abs _ _).trans ?_
  have := Finset.sum_le_card_nsmul (Finset.univ : Finset (Fin s)) (fun k => |M i k * M' k j|) (b * b') fun k _ => by
    rw [abs_mul]; exact mul_le_mul (h i k) (h' k j) (abs_nonneg _) hb
  simpa using this

theorem Bd.loewner {b : ℝ} (hb : 0 ≤ b) {M : Matrix (Fin n) (Fin n) ℝ} (hM : Mᵀ = M) (h : Bd b M) : Loewner M ((n * b) • 1) :=
  loewner_of_qf hM (one_symm_smul _) fun z => by
    rw [qf_smul, qf_one, mul_comm (n : ℝ) b]
    exact qf_le_entries hb h z

/-- If some estimator forgets everything in two steps, the covariance of the filter is bounded. -/
theorem cov_bounded_two {c : ℝ} (hc : 0 ≤ c) {P : Matrix (Fin n) (Fin n) ℝ} (hP : P.PosSemidef) :
    ∃ b : ℝ, 0 < b ∧ ∀ (d : ℕ → LinModel n m p) (_ : ∀ N, (d N).Ok) (L : ℕ → Matrix (Fin n) (Fin m) ℝ)
      (_ : ∀ N, ((1 - L (N + 1) * (d (N + 1)).C) * (d (N + 1)).A) * ((1 - L N * (d N).C) * (d N).A) = 0)
      (_ : ∀ N, Bd c ((1 - L N * (d N).C) * (d N).A)) (_ : ∀ N, Bd c (joseph (L N) (d N).C (d N).R (d N).Q))
      (i : ℕ → StepIn m p) (x : Fin n → ℝ) (N : ℕ), Loewner (linRun d i (x, P) N).2 (b • 1) := by
  obtain ⟨p0, hp0, hPb⟩ := exists_entries P
  have hpb : Bd p0 P := hPb
  set B := n * ((n * (c * (p0 + c))) * c) + c + p0 with hB
  have hB0 : 0 ≤ B := by positivity
  refine ⟨n * B + 1, by positivity, fun d hd L h2 hF hJ i x N => ?_⟩
  refine (cov_le_sub d hd i x hP L N).trans (Loewner.trans ?_ (Loewner.smul_le Matrix.PosSemidef.one (by linarith : n * B ≤ n * B + 1)))
  have hS : ∀ N, (subCov d L P N).PosSemidef := fun N => by
    induction N with
    | zero => exact hP
    | succ N ih => exact joseph_psd (hd N).2.posSemidef (predCov_psd (hd N).1 ih) _
  refine Bd.loewner hB0 (psd_symm (hS N)) ?_
  have step : ∀ {M : Matrix (Fin n) (Fin n) ℝ} (N : ℕ), Bd (p0 + c) M → Bd B
      (((1 - L N * (d N).C) * (d N).A) * M * ((1 - L N * (d N).C) * (d N).A)ᵀ + joseph (L N) (d N).C (d N).R (d N).Q) := by
    intro M N h
    refine Bd.le (((Bd.mul hc (hF N) h).mul (by positivity) (hF N).transpose).add (hJ N)) ?_
    rw [hB]; linarith
  match N with
  | 0 => exact hpb.le (by rw [hB]; have : 0 ≤ n * ((n * (c * (p0 + c))) * c) := by positivity
                          linarith)
  | 1 =>
    simp only [subCov]
    rw [joseph_pred]
    exact step 0 (hpb.le (by linarith))
  | N + 2 =>
    rw [subCov, joseph_pred]
    rw [show subCov d L P (N + 1) = ((1 - L N * (d N).C) * (d N).A) * subCov d L P N * ((1 - L N * (d N).C) * (d N).A)ᵀ +
      joseph (L N) (d N).C (d N).R (d N).Q by rw [subCov, joseph_pred]]
    rw [Matrix.mul_add, ← Matrix.mul_assoc, ← Matrix.mul_assoc, h2 N, Matrix.zero_mul, Matrix.zero_mul, zero_add]
    exact step (N + 1) ((hJ N).le (by linarith))

end StateObs.KFSpec
