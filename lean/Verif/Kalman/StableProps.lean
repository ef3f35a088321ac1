import Verif.Kalman.StableVarying
import Mathlib.Topology.MetricSpace.Pseudo.Lemmas
import Mathlib.Analysis.Normed.Field.Lemmas
/-!
# Property C117: the linear Kalman filter forgets its initial estimate and finds the state

For a constant model with process noise in all directions, observed well enough for some estimator with a constant gain to converge.
The filter is driven through its public interface.
-/

namespace StateObs.LKF
open StateObs Matrix KFSpec KF Filter Topology
variable {n m p : ℕ}

theorem exists_rate (d : LinModel n m p) (hQ : d.Q.PosDef) (hR : d.R.PosDef) {P : Matrix (Fin n) (Fin n) ℝ} (hP : P.PosSemidef)
    (L : Matrix (Fin n) (Fin m) ℝ) (hL : Tendsto (fun k => ((1 - L * d.C) * d.A) ^ k) atTop (𝓝 0)) :
    ∃ c ρ : ℝ, 0 ≤ c ∧ 0 ≤ ρ ∧ ρ < 1 ∧ ∀ (e : Fin n → ℝ) (N : ℕ),
      errRun (fun _ => d) P e N ⬝ᵥ errRun (fun _ => d) P e N ≤ c * ρ ^ N * (e ⬝ᵥ e) := by
  have hd : d.Ok := ⟨hQ.posSemidef, hR⟩
  obtain ⟨b, hb, hB⟩ := cov_bounded d hd hP L hL
  obtain ⟨q, hq, hqQ⟩ := exists_lower hQ
  obtain ⟨α₁, h1, hα₁⟩ := exists_bound (M := d.A * d.Aᵀ) (by rw [Matrix.transpose_mul, Matrix.transpose_transpose])
  obtain ⟨α₂, h2, hα₂⟩ := exists_bound (M := d.Aᵀ * d.A) (by rw [Matrix.transpose_mul, Matrix.transpose_transpose])
  obtain ⟨c, ρ, h3, h4, h5, h6⟩ := exists_rate_varying (n := n) (m := m) (p := p) hq (by positivity : 0 < α₁ + α₂) hb
  exact ⟨c, ρ, h3, h4, h5, fun e N => h6 (fun _ => d) (fun _ => hd) P hP (fun _ => hqQ)
    (fun _ => hα₁.trans (Loewner.smul_le Matrix.PosSemidef.one (by linarith)))
    (fun _ => hα₂.trans (Loewner.smul_le Matrix.PosSemidef.one (by linarith))) (fun N => hB _ _ N) e N⟩

/-- **C117**, convergence. There are `c` and `ρ < 1`, which depend only on the model and on the initial covariance, such that, for a system
without noise, the error of the estimate after `N` sampling times is at most `c ρ^N` times the initial one – whatever the initial estimate,
the initial state and the inputs. -/
theorem C117_converges (d : LinModel n m p) (hQ : d.Q.PosDef) (hR : d.R.PosDef) (P : Matrix (Fin n) (Fin n) ℝ) (hP : P.PosSemidef)
    (L : Matrix (Fin n) (Fin m) ℝ) (hL : Tendsto (fun k => ((1 - L * d.C) * d.A) ^ k) atTop (𝓝 0)) :
    ∃ c ρ : ℝ, 0 ≤ ρ ∧ ρ < 1 ∧ ∀ (s : KFilter Ext) (x : Fin n → ℝ) (k : Int), InUse s n m p x P k →
      ∀ (X : Fin n → ℝ) (u : ℕ → Fin p → ℝ) (N : ℕ),
      ∃ s' xN, cycles (fun _ => d) (sensorData (fun _ => d) u 0 0 X) s N = .ok s' ∧ s'.x = some (⟨n, xN⟩, k + N) ∧
        ∑ i, (trueState (fun _ => d) u 0 X N i - xN i) ^ 2 ≤ c * ρ ^ N * ∑ i, (X i - x i) ^ 2 := by
  obtain ⟨c, ρ, -, h1, h2, h3⟩ := exists_rate d hQ hR hP L hL
  refine ⟨c, ρ, h1, h2, fun s x k hs X u N => ?_⟩
  obtain ⟨s', h4, h5⟩ := C20_run s x P k hs hP (fun _ => d) (fun _ => ⟨hQ.posSemidef, hR⟩) (sensorData (fun _ => d) u 0 0 X) N
  refine ⟨s', _, h4, h5.x, ?_⟩
  have h6 := h3 (X - x) N
  rw [← err_eq (fun _ => d) P x X u N] at h6
  simpa [dotProduct, pow_two] using h6

/-- **C117**, forgetting. Two filters with the same initial covariance, different initial estimates, and the same data – any data –: the
difference of their estimates decreases as `c ρ^N`. -/
theorem C117_forgets (d : LinModel n m p) (hQ : d.Q.PosDef) (hR : d.R.PosDef) (P : Matrix (Fin n) (Fin n) ℝ) (hP : P.PosSemidef)
    (L : Matrix (Fin n) (Fin m) ℝ) (hL : Tendsto (fun k => ((1 - L * d.C) * d.A) ^ k) atTop (𝓝 0)) :
    ∃ c ρ : ℝ, 0 ≤ ρ ∧ ρ < 1 ∧ ∀ (s₁ s₂ : KFilter Ext) (x₁ x₂ : Fin n → ℝ) (k : Int), InUse s₁ n m p x₁ P k → InUse s₂ n m p x₂ P k →
      ∀ (i : ℕ → StepIn m p) (N : ℕ),
      ∃ s₁' s₂' z₁ z₂, cycles (fun _ => d) i s₁ N = .ok s₁' ∧ cycles (fun _ => d) i s₂ N = .ok s₂' ∧
        s₁'.x = some (⟨n, z₁⟩, k + N) ∧ s₂'.x = some (⟨n, z₂⟩, k + N) ∧
        ∑ j, (z₁ j - z₂ j) ^ 2 ≤ c * ρ ^ N * ∑ j, (x₁ j - x₂ j) ^ 2 := by
  obtain ⟨c, ρ, -, h1, h2, h3⟩ := exists_rate d hQ hR hP L hL
  refine ⟨c, ρ, h1, h2, fun s₁ s₂ x₁ x₂ k hs₁ hs₂ i N => ?_⟩
  obtain ⟨s₁', h4, h5⟩ := C20_run s₁ x₁ P k hs₁ hP (fun _ => d) (fun _ => ⟨hQ.posSemidef, hR⟩) i N
  obtain ⟨s₂', h6, h7⟩ := C20_run s₂ x₂ P k hs₂ hP (fun _ => d) (fun _ => ⟨hQ.posSemidef, hR⟩) i N
  refine ⟨s₁', s₂', _, _, h4, h6, h5.x, h7.x, ?_⟩
  have h8 := h3 (x₁ - x₂) N
  rw [← err_two (fun _ => d) P x₁ x₂ i N] at h8
  simpa [dotProduct, pow_two] using h8

/-- Covariance of the filter with a constant model. -/
noncomputable def cov (d : LinModel n m p) (P : Matrix (Fin n) (Fin n) ℝ) (N : ℕ) : Matrix (Fin n) (Fin n) ℝ :=
  (linRun (fun _ => d) (fun _ => ⟨0, 0, 0⟩) (0, P) N).2

theorem cov_succ (d : LinModel n m p) (P : Matrix (Fin n) (Fin n) ℝ) (N : ℕ) :
    cov d P (N + 1) = posterior d.C d.R (predCov d.A d.Q (cov d P N)) := rfl

theorem cov_shift (d : LinModel n m p) (P : Matrix (Fin n) (Fin n) ℝ) (N : ℕ) : cov d (cov d P 1) N = cov d P (N + 1) := by
  induction N with
  | zero => rfl
  | succ N ih => rw [cov_succ, ih, ← cov_succ]

theorem cov_psd (d : LinModel n m p) (hd : d.Ok) {P : Matrix (Fin n) (Fin n) ℝ} (hP : P.PosSemidef) (N : ℕ) : (cov d P N).PosSemidef :=
  linRun_psd (fun _ => d) (fun _ => hd) _ _ hP N

/-- Two initial covariances. -/
theorem cov_rate (d : LinModel n m p) (hQ : d.Q.PosDef) (hR : d.R.PosDef) {P P' : Matrix (Fin n) (Fin n) ℝ} (hP : P.PosSemidef)
    (hP' : P'.PosSemidef) (L : Matrix (Fin n) (Fin m) ℝ) (hL : Tendsto (fun k => ((1 - L * d.C) * d.A) ^ k) atTop (𝓝 0)) :
    ∃ c ρ : ℝ, 0 ≤ c ∧ 0 ≤ ρ ∧ ρ < 1 ∧ ∀ N i j, |(cov d P N - cov d P' N) i j| ≤ c * ρ ^ N := by
  obtain ⟨c, ρ, c0, h1, h2, h3⟩ := exists_rate d hQ hR hP L hL
  obtain ⟨c', ρ', c0', h1', h2', h3'⟩ := exists_rate d hQ hR hP' L hL
  obtain ⟨δ, hδ, hD⟩ := exists_entries (P - P')
  have hd : d.Ok := ⟨hQ.posSemidef, hR⟩
  set r := max ρ ρ' with hr
  set C := max c c' with hC
  have hr0 : 0 ≤ r := h1.trans (le_max_left _ _)
  have hr1 : r < 1 := max_lt h2 h2'
  have hC0 : 0 ≤ C := c0.trans (le_max_left _ _)
  have e1 : ∀ N i j, |trans (fun _ => d) P N i j| ^ 2 ≤ C * r ^ N := fun N i j => by
    rw [sq_abs]
    refine (trans_entries (fun e => h3 e N) i j).trans ?_
    exact mul_le_mul (le_max_left _ _) (pow_le_pow_left₀ h1 (le_max_left _ _) N) (by positivity) hC0
  have e2 : ∀ N i j, |trans (fun _ => d) P' N i j| ^ 2 ≤ C * r ^ N := fun N i j => by
    rw [sq_abs]
    refine (trans_entries (fun e => h3' e N) i j).trans ?_
    exact mul_le_mul (le_max_right _ _) (pow_le_pow_left₀ h1' (le_max_right _ _) N) (by positivity) hC0
  refine ⟨n * (n * (δ * C)), r, by positivity, hr0, hr1, fun N i j => ?_⟩
  have h4 : cov d P N - cov d P' N = trans (fun _ => d) P N * (P - P') * (trans (fun _ => d) P' N)ᵀ :=
    cov_sub (fun _ => d) (fun _ => hd) hP hP' N
  rw [h4]
  simp only [Matrix.mul_apply, Matrix.transpose_apply, Finset.sum_mul]
  refine (Finset.abs_sum_le_sum_abs _ _).trans ?_
  have hb : ∀ l ∈ (Finset.univ : Finset (Fin n)),
      |∑ k, trans (fun _ => d) P N i k * (P - P') k l * trans (fun _ => d) P' N j l| ≤ n * (δ * (C * r ^ N)) := by
    intro l _
    refine (Finset.abs_sum_le_sum_abs _ _).trans ?_
    have hb' : ∀ k ∈ (Finset.univ : Finset (Fin n)),
        |trans (fun _ => d) P N i k * (P - P') k l * trans (fun _ => d) P' N j l| ≤ δ * (C * r ^ N) := by
      intro k _
      rw [abs_mul, abs_mul]
      have a1 := e1 N i k
      have a2 := e2 N j l
      have a3 : |trans (fun _ => d) P N i k| * |trans (fun _ => d) P' N j l| ≤ C * r ^ N := by
        nlinarith [sq_nonneg (|trans (fun _ => d) P N i k| - |trans (fun _ => d) P' N j l|)]
      calc |trans (fun _ => d) P N i k| * |(P - P') k l| * |trans (fun _ => d) P' N j l|
          = |(P - P') k l| * (|trans (fun _ => d) P N i k| * |trans (fun _ => d) P' N j l|) := by ring
        _ ≤ δ * (C * r ^ N) := mul_le_mul (hD k l) a3 (by positivity) hδ.le
    have := Finset.sum_le_card_nsmul _ _ _ hb'
    simpa using this
  have := Finset.sum_le_card_nsmul _ _ _ hb
  refine this.trans (le_of_eq ?_)
  simp only [Finset.card_univ, Fintype.card_fin, nsmul_eq_mul]
  ring

theorem steady_fixed (d : LinModel n m p) (hd : d.Ok) {S : Matrix (Fin n) (Fin n) ℝ} (hpsd : S.PosSemidef)
    (hT : Tendsto (cov d 0) atTop (𝓝 S)) : S = posterior d.C d.R (predCov d.A d.Q S) := by
  have hR := hd.2
  have h0 : (0 : Matrix (Fin n) (Fin n) ℝ).PosSemidef := Matrix.PosSemidef.zero
  have hu := (Matrix.isUnit_iff_isUnit_det _).1 hR.isUnit
  set F := (1 - gain d.C d.R (predCov d.A d.Q (S)) * d.C) with hF
  have hid : ∀ N, posterior d.C d.R (predCov d.A d.Q (S)) - cov d 0 (N + 1) =
      F * (d.A * (S - cov d 0 N) * d.Aᵀ) * (1 - cov d 0 (N + 1) * d.Cᵀ * d.R⁻¹ * d.C)ᵀ := fun N => by
    have hM := predCov_psd (A := d.A) hd.1 hpsd
    have hM' := predCov_psd (A := d.A) hd.1 (cov_psd d hd h0 N)
    have g2 : gain d.C d.R (predCov d.A d.Q (cov d 0 N)) = cov d 0 (N + 1) * d.Cᵀ * d.R⁻¹ := by
      rw [cov_succ, ← gain_post hR hM', Matrix.mul_assoc, Matrix.mul_nonsing_inv _ hu, Matrix.mul_one]
    have h2 := posterior_sub (C := d.C) hR hM hM'
    rw [g2, ← hF, ← cov_succ] at h2
    rw [h2]
    congr 2
    rw [predCov, predCov, Matrix.mul_sub, Matrix.sub_mul]
    abel
  have hT1 : Tendsto (fun N => cov d 0 (N + 1)) atTop (𝓝 (S)) := hT.comp (tendsto_add_atTop_nat 1)
  have hR1 : Tendsto (fun N => F * (d.A * (S - cov d 0 N) * d.Aᵀ) * (1 - cov d 0 (N + 1) * d.Cᵀ * d.R⁻¹ * d.C)ᵀ) atTop
      (𝓝 (F * (d.A * (S - S) * d.Aᵀ) * (1 - S * d.Cᵀ * d.R⁻¹ * d.C)ᵀ)) := by
    have c1 : Continuous fun Z : Matrix (Fin n) (Fin n) ℝ × Matrix (Fin n) (Fin n) ℝ =>
        F * (d.A * (S - Z.1) * d.Aᵀ) * (1 - Z.2 * d.Cᵀ * d.R⁻¹ * d.C)ᵀ := by fun_prop
    have c2 := (c1.tendsto (S, S)).comp (hT.prodMk_nhds hT1)
    exact c2
  have hR2 := hR1.congr fun N => (hid N).symm
  rw [sub_self, Matrix.mul_zero, Matrix.zero_mul, Matrix.mul_zero, Matrix.zero_mul] at hR2
  have hR3 := (tendsto_const_nhds (x := posterior d.C d.R (predCov d.A d.Q (S)))).sub hT1
  exact (sub_eq_zero.1 (tendsto_nhds_unique hR3 hR2)).symm

theorem exists_steady (d : LinModel n m p) (hQ : d.Q.PosDef) (hR : d.R.PosDef)
    (L : Matrix (Fin n) (Fin m) ℝ) (hL : Tendsto (fun k => ((1 - L * d.C) * d.A) ^ k) atTop (𝓝 0)) :
    ∃ Pi : Matrix (Fin n) (Fin n) ℝ, Pi.PosSemidef ∧ Pi = posterior d.C d.R (predCov d.A d.Q Pi) ∧
      ∀ P : Matrix (Fin n) (Fin n) ℝ, P.PosSemidef → Tendsto (cov d P) atTop (𝓝 Pi) := by
  have hd : d.Ok := ⟨hQ.posSemidef, hR⟩
  have h0 : (0 : Matrix (Fin n) (Fin n) ℝ).PosSemidef := Matrix.PosSemidef.zero
  -- the sequence from zero converges
  obtain ⟨c, ρ, hc, hρ, hρ1, h1⟩ := cov_rate d hQ hR h0 (cov_psd d hd h0 1) L hL
  have hlim : ∀ i j, ∃ l, Tendsto (fun N => cov d 0 N i j) atTop (𝓝 l) := fun i j => by
    refine cauchySeq_tendsto_of_complete (cauchySeq_of_le_geometric ρ c hρ1 fun N => ?_)
    rw [Real.dist_eq]
    have := h1 N i j
    rwa [cov_shift, Matrix.sub_apply] at this
  choose Pi hPi using hlim
  have hT : Tendsto (cov d 0) atTop (𝓝 (Matrix.of Pi)) := by
    refine tendsto_pi_nhds.2 fun i => tendsto_pi_nhds.2 fun j => hPi i j
  have hsym : (Matrix.of Pi)ᵀ = Matrix.of Pi := by
    ext i j
    refine tendsto_nhds_unique (hPi j i) ?_
    have e : (fun N => cov d 0 N j i) = fun N => cov d 0 N i j := by
      funext N
      have := congrFun (congrFun (psd_symm (cov_psd d hd h0 N)) i) j
      exact this
    rw [e]
    exact hPi i j
  have hpsd : (Matrix.of Pi).PosSemidef := by
    refine Matrix.PosSemidef.of_dotProduct_mulVec_nonneg ?_ fun z => ?_
    · rw [Matrix.IsHermitian, Matrix.conjTranspose_eq_transpose_of_trivial, hsym]
    · have hq : Tendsto (fun N => z ⬝ᵥ cov d 0 N *ᵥ z) atTop (𝓝 (z ⬝ᵥ Matrix.of Pi *ᵥ z)) := by
        simp only [dotProduct, Matrix.mulVec]
        refine tendsto_finsetSum _ fun i _ => Tendsto.const_mul _ (tendsto_finsetSum _ fun j _ => ?_)
        exact (hPi i j).mul_const _
      rw [star_trivial]
      exact ge_of_tendsto' hq fun N => qf_nonneg (cov_psd d hd h0 N) z
  have hall : ∀ P : Matrix (Fin n) (Fin n) ℝ, P.PosSemidef → Tendsto (cov d P) atTop (𝓝 (Matrix.of Pi)) := by
    intro P hP
    obtain ⟨c', ρ', hc', hρ', hρ1', h1'⟩ := cov_rate d hQ hR hP h0 L hL
    have hz : Tendsto (fun N => cov d P N - cov d 0 N) atTop (𝓝 0) := by
      refine tendsto_pi_nhds.2 fun i => tendsto_pi_nhds.2 fun j => ?_
      have hg : Tendsto (fun N => c' * ρ' ^ N) atTop (𝓝 0) := by
        simpa using (tendsto_pow_atTop_nhds_zero_of_lt_one hρ' hρ1').const_mul c'
      exact squeeze_zero_norm (fun N => by rw [Real.norm_eq_abs]; exact h1' N i j) hg
    have := hz.add hT
    simpa using this
  exact ⟨Matrix.of Pi, hpsd, steady_fixed d hd hpsd hT, hall⟩

/-- **C117**, steady state. There is exactly one covariance that a step of the filter does not change, and the covariance stored by every
filter tends to it – whatever the initial covariance, the initial estimate and the data. -/
theorem C117_steady (d : LinModel n m p) (hQ : d.Q.PosDef) (hR : d.R.PosDef)
    (L : Matrix (Fin n) (Fin m) ℝ) (hL : Tendsto (fun k => ((1 - L * d.C) * d.A) ^ k) atTop (𝓝 0)) :
    ∃ Pi : Matrix (Fin n) (Fin n) ℝ,
      (∀ P : Matrix (Fin n) (Fin n) ℝ, P.PosSemidef → (P = posterior d.C d.R (predCov d.A d.Q P) ↔ P = Pi)) ∧ Pi.PosSemidef ∧
      ∀ (s : KFilter Ext) (x : Fin n → ℝ) (P : Matrix (Fin n) (Fin n) ℝ) (k : Int), InUse s n m p x P k → P.PosSemidef →
        ∀ i : ℕ → StepIn m p, ∃ (s' : ℕ → KFilter Ext) (PN : ℕ → Matrix (Fin n) (Fin n) ℝ),
          (∀ N, cycles (fun _ => d) i s N = .ok (s' N) ∧ (s' N).st.pr = ⟨n, n, PN N⟩) ∧ Tendsto PN atTop (𝓝 Pi) := by
  obtain ⟨Pi, h1, h2, h3⟩ := exists_steady d hQ hR L hL
  refine ⟨Pi, fun P hP => ⟨fun h => ?_, fun h => by rw [h]; exact h2⟩, h1, fun s x P k hs hP i => ?_⟩
  · have hc : ∀ N, cov d P N = P := fun N => by
      induction N with
      | zero => rfl
      | succ N ih => rw [cov_succ, ih, ← h]
    have h4 := h3 P hP
    rw [show cov d P = fun _ => P from funext hc] at h4
    exact tendsto_nhds_unique tendsto_const_nhds h4
  · have := fun N => C20_run s x P k hs hP (fun _ => d) (fun _ => ⟨hQ.posSemidef, hR⟩) i N
    choose s' h4 h5 using this
    refine ⟨s', cov d P, fun N => ⟨h4 N, ?_⟩, h3 P hP⟩
    rw [(h5 N).pr, cov_indep (fun _ => d) P i (fun _ => ⟨0, 0, 0⟩) x 0 N]
    rfl

/-- The hypotheses of C117 are met by an unstable system: position and velocity, with the position alone measured. -/
example : ∃ L : Matrix (Fin 2) (Fin 1) ℝ, Tendsto (fun k : ℕ => ((1 - L * (!![1, 0] : Matrix (Fin 1) (Fin 2) ℝ)) * !![1, 1; 0, 1]) ^ k)
    atTop (𝓝 0) := by
  refine ⟨!![1; 1], tendsto_const_nhds.congr' ?_⟩
  filter_upwards [eventually_ge_atTop 2] with k hk
  obtain ⟨l, rfl⟩ := Nat.exists_eq_add_of_le hk
  have : ((1 - (!![1; 1] : Matrix (Fin 2) (Fin 1) ℝ) * (!![1, 0] : Matrix (Fin 1) (Fin 2) ℝ)) * !![1, 1; 0, 1]) ^ 2 = 0 := by
    rw [pow_two]
    ext i j
    fin_cases i <;> fin_cases j <;> simp [Matrix.mul_apply, Fin.sum_univ_two, Matrix.sub_apply, Matrix.one_apply]
  rw [pow_add, this, Matrix.zero_mul]

end StateObs.LKF
