import Verif.Kalman.GaussLemmas
import Mathlib.MeasureTheory.Function.FactorsThrough
import Mathlib.Probability.Independence.InfinitePi
import Mathlib.Probability.Distributions.Gaussian.Real
/-!
# Property C116: the estimate of the linear Kalman filter is the best one

The filter is driven through its public interface by the data of a random system.
-/

namespace StateObs.LKF
open StateObs Matrix KFSpec KF MeasureTheory ProbabilityTheory
variable {n m p : ℕ} {Ω : Type} [MeasurableSpace Ω]

omit [MeasurableSpace Ω] in
/-- The run of the filter on the data of the random system. -/
theorem runs (s : KFilter Ext) (x : Fin n → ℝ) (P : Matrix (Fin n) (Fin n) ℝ) (k : Int) (hs : InUse s n m p x P k)
    (hP : P.PosSemidef) (d : ℕ → LinModel n m p) (hd : ∀ N, (d N).Ok) (u : ℕ → Fin p → ℝ)
    (X : Ω → Fin n → ℝ) (w : ℕ → Ω → Fin n → ℝ) (v : ℕ → Ω → Fin m → ℝ) (N : ℕ) :
    ∃ s' : Ω → KFilter Ext, ∀ ω,
      cycles d (sensorData d u (fun j => w j ω) (fun j => v j ω) (X ω)) s N = .ok (s' ω) ∧
      (s' ω).x = some (⟨n, estAt x P d u X w v N ω⟩, k + N) ∧ (s' ω).st.pr = ⟨n, n, covAt P d N⟩ := by
  have := fun ω => C20_run s x P k hs hP d hd (sensorData d u (fun j => w j ω) (fun j => v j ω) (X ω)) N
  choose s' h1 h2 using this
  exact ⟨s', fun ω => ⟨h1 ω, (h2 ω).x, by rw [(h2 ω).pr, covAt_eq x P d]⟩⟩

theorem split_moment {μ : Measure Ω} {e δ : Ω → Fin n → ℝ} (he : SquareIntegrable μ e) (hδ : SquareIntegrable μ δ)
    (h : secondMoment μ e δ = 0) : secondMoment μ (fun ω => e ω + δ ω) (fun ω => e ω + δ ω) = secondMoment μ e e + secondMoment μ δ δ := by
  have h' : secondMoment μ δ e = 0 := by rw [← moment_transpose, h, Matrix.transpose_zero]
  rw [moment_add he hδ (he.add hδ), moment_add_right he he hδ, moment_add_right hδ he hδ, h, h', add_zero, zero_add]

theorem split_le {μ : Measure Ω} {e δ : Ω → Fin n → ℝ} (he : SquareIntegrable μ e) (hδ : SquareIntegrable μ δ)
    (h : secondMoment μ e δ = 0) (a : Fin n → ℝ) : ∫ ω, (a ⬝ᵥ e ω) ^ 2 ∂μ ≤ ∫ ω, (a ⬝ᵥ (e ω + δ ω)) ^ 2 ∂μ := by
  have h1 := integral_dot he he a a
  have h2 := integral_dot (he.add hδ) (he.add hδ) a a
  have h3 := integral_dot hδ hδ a a
  rw [split_moment he hδ h, Matrix.add_mulVec, dotProduct_add] at h2
  simp only [← pow_two] at h1 h2 h3
  rw [h1, h2]
  have : 0 ≤ ∫ ω, (a ⬝ᵥ δ ω) ^ 2 ∂μ := integral_nonneg fun ω => sq_nonneg _
  linarith

/-- **C116**, best linear estimate. The initial state and the noises of the system are random vectors satisfying the assumptions of the
filter – means, covariances, no correlation; no assumption on their law. Then the error of the estimate has mean zero, its covariance is the
covariance stored by the filter, and no estimate that is an affine function of the measurements used is better, in any direction `a`. -/
theorem C116_best (μ : Measure Ω) [IsProbabilityMeasure μ] (s : KFilter Ext) (x : Fin n → ℝ) (P : Matrix (Fin n) (Fin n) ℝ) (k : Int)
    (hs : InUse s n m p x P k) (hP : P.PosSemidef) (d : ℕ → LinModel n m p) (hd : ∀ N, (d N).Ok) (u : ℕ → Fin p → ℝ)
    (X : Ω → Fin n → ℝ) (w : ℕ → Ω → Fin n → ℝ) (v : ℕ → Ω → Fin m → ℝ) (h : Assumptions μ x P d X w v) (N : ℕ) :
    ∃ (s' : Ω → KFilter Ext) (xN : Ω → Fin n → ℝ) (PN : Matrix (Fin n) (Fin n) ℝ),
      (∀ ω, cycles d (sensorData d u (fun j => w j ω) (fun j => v j ω) (X ω)) s N = .ok (s' ω) ∧
        (s' ω).x = some (⟨n, xN ω⟩, k + N) ∧ (s' ω).st.pr = ⟨n, n, PN⟩) ∧
      mean μ (fun ω => stateAt d u X w N ω - xN ω) = 0 ∧
      secondMoment μ (fun ω => stateAt d u X w N ω - xN ω) (fun ω => stateAt d u X w N ω - xN ω) = PN ∧
      ∀ (c : Fin n → ℝ) (G : ℕ → Matrix (Fin n) (Fin m) ℝ) (a : Fin n → ℝ),
        ∫ ω, (a ⬝ᵥ (stateAt d u X w N ω - xN ω)) ^ 2 ∂μ ≤
          ∫ ω, (a ⬝ᵥ (stateAt d u X w N ω - (c + ∑ j ∈ Finset.range N, G j *ᵥ measurementAt d u X w v j ω))) ^ 2 ∂μ := by
  obtain ⟨s', h1⟩ := runs s x P k hs hP d hd u X w v N
  obtain ⟨h2, h3, h4⟩ := err_main (u := u) h hP hd N
  refine ⟨s', estAt x P d u X w v N, covAt P d N, h1, h2, h3, fun c G a => ?_⟩
  have se := (past_err (u := u) h N).sq
  have sest := (past_est (u := u) h N).sq
  have hsum : ∀ M ≤ N, SquareIntegrable μ (fun ω => ∑ j ∈ Finset.range M, G j *ᵥ measurementAt d u X w v j ω) ∧
      secondMoment μ (errAt x P d u X w v N) (fun ω => ∑ j ∈ Finset.range M, G j *ᵥ measurementAt d u X w v j ω) = 0 := by
    intro M hM
    induction M with
    | zero => exact ⟨by simpa using SquareIntegrable.const (μ := μ) (0 : Fin n → ℝ), by simpa using moment_const_right _ 0 h2⟩
    | succ M ih =>
      obtain ⟨i1, i2⟩ := ih (by omega)
      have sm := (past_meas (u := u) h N M (by omega)).sq
      simp only [Finset.sum_range_succ]
      exact ⟨i1.add (sm.mulVec _), by
        rw [moment_add_right se i1 (sm.mulVec _), i2, moment_mulVec_right se sm, h4 M (by omega), Matrix.zero_mul, add_zero]⟩
  obtain ⟨i1, i2⟩ := hsum N le_rfl
  have sz : SquareIntegrable μ (fun ω => c + ∑ j ∈ Finset.range N, G j *ᵥ measurementAt d u X w v j ω) := (SquareIntegrable.const c).add i1
  have hz : secondMoment μ (errAt x P d u X w v N) (fun ω => c + ∑ j ∈ Finset.range N, G j *ᵥ measurementAt d u X w v j ω) = 0 := by
    rw [moment_add_right se (.const c) i1, moment_const_right _ c h2, i2, add_zero]
  have hδ : secondMoment μ (errAt x P d u X w v N)
      (fun ω => estAt x P d u X w v N ω - (c + ∑ j ∈ Finset.range N, G j *ᵥ measurementAt d u X w v j ω)) = 0 := by
    rw [moment_sub_right se sest sz, perp_est (u := u) h N se h2 h4, hz, sub_self]
  have := split_le se (sest.sub sz) hδ a
  simp only [errAt, sub_add_sub_cancel] at this
  exact this

/-- **C116**, Gaussian systems. If moreover the initial state and the noises are jointly Gaussian, then, given the measurements used, the
state of the system is Gaussian, centred at the estimate, with the covariance stored by the filter: the error is a Gaussian
vector, with mean zero and that covariance, independent of the measurements; the estimate is the conditional expectation of the state given
the measurements; and no function of the measurements whatsoever is a better estimate, in any direction `a`. -/
theorem C116_gaussian (μ : Measure Ω) [IsProbabilityMeasure μ] (s : KFilter Ext) (x : Fin n → ℝ) (P : Matrix (Fin n) (Fin n) ℝ) (k : Int)
    (hs : InUse s n m p x P k) (hP : P.PosSemidef) (d : ℕ → LinModel n m p) (hd : ∀ N, (d N).Ok) (u : ℕ → Fin p → ℝ)
    (X : Ω → Fin n → ℝ) (w : ℕ → Ω → Fin n → ℝ) (v : ℕ → Ω → Fin m → ℝ) (h : Assumptions μ x P d X w v)
    (hX : Measurable X) (hw : ∀ j, Measurable (w j)) (hv : ∀ j, Measurable (v j)) (hg : IsGaussianProcess (source X w v) μ) (N : ℕ) :
    ∃ (s' : Ω → KFilter Ext) (xN : Ω → Fin n → ℝ) (PN : Matrix (Fin n) (Fin n) ℝ),
      (∀ ω, cycles d (sensorData d u (fun j => w j ω) (fun j => v j ω) (X ω)) s N = .ok (s' ω) ∧
        (s' ω).x = some (⟨n, xN ω⟩, k + N) ∧ (s' ω).st.pr = ⟨n, n, PN⟩) ∧
      HasGaussianLaw (fun ω => stateAt d u X w N ω - xN ω) μ ∧
      mean μ (fun ω => stateAt d u X w N ω - xN ω) = 0 ∧
      secondMoment μ (fun ω => stateAt d u X w N ω - xN ω) (fun ω => stateAt d u X w N ω - xN ω) = PN ∧
      IndepFun (fun ω => stateAt d u X w N ω - xN ω) (fun ω (j : Fin N) => measurementAt d u X w v j ω) μ ∧
      (∀ i, μ[fun ω => stateAt d u X w N ω i |
          MeasurableSpace.comap (fun ω (j : Fin N) => measurementAt d u X w v j ω) inferInstance] =ᵐ[μ] fun ω => xN ω i) ∧
      ∀ (g : (Fin N → Fin m → ℝ) → Fin n → ℝ), Measurable g →
        SquareIntegrable μ (fun ω => g (fun j => measurementAt d u X w v j ω)) → ∀ a : Fin n → ℝ,
        ∫ ω, (a ⬝ᵥ (stateAt d u X w N ω - xN ω)) ^ 2 ∂μ ≤
          ∫ ω, (a ⬝ᵥ (stateAt d u X w N ω - g (fun j => measurementAt d u X w v j ω))) ^ 2 ∂μ := by
  obtain ⟨s', h1⟩ := runs s x P k hs hP d hd u X w v N
  obtain ⟨h2, h3, h4⟩ := err_main (u := u) h hP hd N
  have hI := indep_err (u := u) h hg hP hd N
  have se := (past_err (u := u) h N).sq
  have sest := (past_est (u := u) h N).sq
  have hYm : Measurable (measurements d u X w v N) :=
    measurable_pi_iff.2 fun j => measurable_meas d u X w v hX hw hv j
  have hYc : ∀ j < N, Measurable[MeasurableSpace.comap (measurements d u X w v N) inferInstance] (measurementAt d u X w v j) :=
    fun j hj => (measurable_pi_apply (⟨j, hj⟩ : Fin N)).comp (comap_measurable (measurements d u X w v N))
  have hestm : Measurable[MeasurableSpace.comap (measurements d u X w v N) inferInstance] (estAt x P d u X w v N) :=
    measurable_est x P d u X w v N hYc
  have hestm' : Measurable (estAt x P d u X w v N) := hestm.mono hYm.comap_le le_rfl
  have hem : Measurable (errAt x P d u X w v N) := (measurable_state d u X w hX hw N).sub hestm'
  refine ⟨s', estAt x P d u X w v N, covAt P d N, h1, gauss_err h hg N, h2, h3, hI, fun i => ?_, fun g hgm hgs a => ?_⟩
  · -- the conditional expectation
    have hle := hYm.comap_le
    have e1 : (fun ω => stateAt d u X w N ω i) = (fun ω => estAt x P d u X w v N ω i) + fun ω => errAt x P d u X w v N ω i := by
      funext ω
      simp [errAt]
    have c1 : μ[fun ω => estAt x P d u X w v N ω i | MeasurableSpace.comap (measurements d u X w v N) inferInstance] =
        fun ω => estAt x P d u X w v N ω i :=
      condExp_of_stronglyMeasurable hle ((measurable_pi_apply i).comp hestm).stronglyMeasurable ((sest i).integrable one_le_two)
    have hIi : Indep (MeasurableSpace.comap (errAt x P d u X w v N) inferInstance)
        (MeasurableSpace.comap (measurements d u X w v N) inferInstance) μ := hI
    have c2 : μ[fun ω => errAt x P d u X w v N ω i | MeasurableSpace.comap (measurements d u X w v N) inferInstance] =ᵐ[μ]
        fun _ => ∫ ω, errAt x P d u X w v N ω i ∂μ :=
      condExp_indep_eq hem.comap_le hle
        ((measurable_pi_apply i).comp (comap_measurable (errAt x P d u X w v N))).stronglyMeasurable hIi
    have c3 := condExp_add ((sest i).integrable one_le_two) ((se i).integrable one_le_two)
      (MeasurableSpace.comap (measurements d u X w v N) inferInstance)
    have c4 : ∫ ω, errAt x P d u X w v N ω i ∂μ = 0 := congrFun h2 i
    have c5 := c3.trans ((Filter.EventuallyEq.of_eq c1).add c2)
    rw [c4] at c5
    rw [e1]
    refine c5.trans (.of_eq ?_)
    funext ω
    simp
  · -- no better function
    have hδs := sest.sub hgs
    obtain ⟨f, hf, hfe⟩ := hestm.exists_eq_measurable_comp
    have hδ : secondMoment μ (errAt x P d u X w v N) (fun ω => estAt x P d u X w v N ω - g (measurements d u X w v N ω)) = 0 := by
      ext i j
      simp only [secondMoment, Matrix.of_apply, Matrix.zero_apply]
      have hq : Measurable (fun z => f z j - g z j) := (measurable_pi_iff.1 hf j).sub (measurable_pi_iff.1 hgm j)
      have hij := hI.comp (measurable_pi_apply i) hq
      have e : (fun ω => (estAt x P d u X w v N ω - g (measurements d u X w v N ω)) j) =
          (fun z => f z j - g z j) ∘ measurements d u X w v N := by
        funext ω
        simp [hfe]
      have hm := hij.integral_fun_mul_eq_mul_integral ((measurable_pi_iff.1 hem i).aestronglyMeasurable)
        ((hq.comp hYm).aestronglyMeasurable)
      have c4 : ∫ ω, ((fun z : Fin n → ℝ => z i) ∘ errAt x P d u X w v N) ω ∂μ = 0 := congrFun h2 i
      rw [c4, zero_mul] at hm
      rw [← hm]
      refine integral_congr_ae (.of_forall fun ω => ?_)
      exact congrArg (errAt x P d u X w v N ω i * ·) (congrFun e ω)
    have := split_le se hδs hδ a
    simp only [errAt, sub_add_sub_cancel] at this
    exact this

/-! ## The hypotheses are met -/

/-- Independent standard Gaussian numbers, one for each component of the initial state and of the noises. -/
noncomputable def white (n m : ℕ) : Measure (Fin n ⊕ (ℕ × Fin n) ⊕ (ℕ × Fin m) → ℝ) := Measure.infinitePi fun _ => gaussianReal 0 1

instance (n m : ℕ) : IsProbabilityMeasure (white n m) := by unfold white; infer_instance

theorem white_map (t) : (white n m).map (fun ω => ω t) = gaussianReal 0 1 := Measure.infinitePi_map_eval _ t

theorem white_indep : iIndepFun (fun t (ω : Fin n ⊕ (ℕ × Fin n) ⊕ (ℕ × Fin m) → ℝ) => ω t) (white n m) :=
  iIndepFun_infinitePi (X := fun _ => id) fun _ => measurable_id

theorem white_process : IsGaussianProcess (fun t (ω : Fin n ⊕ (ℕ × Fin n) ⊕ (ℕ × Fin m) → ℝ) => ω t) (white n m) where
  hasGaussianLaw I := by
    have h := white_indep (n := n) (m := m)
    have h1 : iIndepFun (fun (t : I) (ω : Fin n ⊕ (ℕ × Fin n) ⊕ (ℕ × Fin m) → ℝ) => ω t) (white n m) := h.precomp Subtype.val_injective
    have h2 : ∀ t : I, HasGaussianLaw (fun ω : Fin n ⊕ (ℕ × Fin n) ⊕ (ℕ × Fin m) → ℝ => ω t) (white n m) :=
      fun t => ⟨by rw [white_map]; infer_instance⟩
    exact iIndepFun.hasGaussianLaw h2 h1

theorem white_memLp (t) : MemLp (fun ω => ω t) 2 (white n m) := by
  have h : HasGaussianLaw (fun ω : Fin n ⊕ (ℕ × Fin n) ⊕ (ℕ × Fin m) → ℝ => ω t) (white n m) := ⟨by rw [white_map]; infer_instance⟩
  exact h.memLp_two

theorem white_mean (t) : ∫ ω, ω t ∂(white n m) = 0 := by
  have h := integral_map (μ := white n m) (φ := fun ω => ω t) (measurable_pi_apply t).aemeasurable
    (f := id) (by exact aestronglyMeasurable_id)
  rw [white_map] at h
  simpa using h.symm

theorem white_moment (t t') : ∫ ω, ω t * ω t' ∂(white n m) = if t = t' then 1 else 0 := by
  split_ifs with h
  · subst h
    have h := integral_map (μ := white n m) (φ := fun ω => ω t) (measurable_pi_apply t).aemeasurable
      (f := fun z : ℝ => z * z) (by fun_prop)
    rw [white_map] at h
    rw [← h]
    have hv : Var[id; gaussianReal 0 1] = ((1 : NNReal) : ℝ) := variance_id_gaussianReal
    rw [variance_eq_integral aemeasurable_id] at hv
    simpa [pow_two] using hv
  · have := ((white_indep (n := n) (m := m)).indepFun h).integral_fun_mul_eq_mul_integral
      (measurable_pi_apply t).aestronglyMeasurable (measurable_pi_apply t').aestronglyMeasurable
    rw [this, white_mean, zero_mul]

/-- The hypotheses of C116 are met, for all sizes: any system with unit covariances, driven by independent standard Gaussian numbers. -/
example (A : ℕ → Matrix (Fin n) (Fin n) ℝ) (B : ℕ → Matrix (Fin n) (Fin p) ℝ) (C : ℕ → Matrix (Fin m) (Fin n) ℝ)
    (D : ℕ → Matrix (Fin m) (Fin p) ℝ) (k : Int) :
    (∃ s, init n m p 0 1 k = .ok s ∧ InUse s n m p 0 1 k) ∧ (1 : Matrix (Fin n) (Fin n) ℝ).PosSemidef ∧
    (∀ N, (⟨A N, B N, C N, D N, 1, 1⟩ : LinModel n m p).Ok) ∧
    Assumptions (white n m) 0 1 (fun N => ⟨A N, B N, C N, D N, 1, 1⟩) (fun ω i => ω (.inl i)) (fun j ω i => ω (.inr (.inl (j, i))))
      (fun j ω i => ω (.inr (.inr (j, i)))) ∧
    IsGaussianProcess (source (fun ω i => ω (.inl i)) (fun j ω i => ω (.inr (.inl (j, i)))) (fun j ω i => ω (.inr (.inr (j, i)))))
      (white n m) := by
  refine ⟨init_inUse n m p 0 1 k, Matrix.PosSemidef.one, fun N => ⟨Matrix.PosSemidef.one, Matrix.PosDef.one⟩, ?_, ?_⟩
  · constructor
    · exact fun i => white_memLp _
    · exact fun k i => white_memLp _
    · exact fun k i => white_memLp _
    · exact funext fun i => white_mean _
    · exact fun k => funext fun i => white_mean _
    · exact fun k => funext fun i => white_mean _
    · ext i j; simp [secondMoment, white_moment, Matrix.one_apply]
    · intro k; ext i j; simp [secondMoment, white_moment, Matrix.one_apply]
    · intro k; ext i j; simp [secondMoment, white_moment, Matrix.one_apply]
    · intro k; ext i j; simp [secondMoment, white_moment]
    · intro k; ext i j; simp [secondMoment, white_moment]
    · intro k l hkl; ext i j; simp [secondMoment, white_moment, hkl]
    · intro k l hkl; ext i j; simp [secondMoment, white_moment, hkl]
    · intro k l; ext i j; simp [secondMoment, white_moment]
  · have e : source (Ω := Fin n ⊕ (ℕ × Fin n) ⊕ (ℕ × Fin m) → ℝ) (fun ω i => ω (.inl i)) (fun j ω i => ω (.inr (.inl (j, i))))
        (fun j ω i => ω (.inr (.inr (j, i)))) = fun t ω => ω t := by
      funext t ω
      rcases t with i | ⟨k, i⟩ | ⟨k, i⟩ <;> rfl
    rw [e]
    exact white_process

end StateObs.LKF
