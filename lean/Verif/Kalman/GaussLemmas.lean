import Verif.Kalman.OptimalLemmas
import Mathlib.LinearAlgebra.Finsupp.LinearCombination
import Mathlib.Probability.ConditionalExpectation
import Mathlib.Probability.Independence.Integration
/-!
# Lemmas for property C116: Gaussian systems
-/

namespace StateObs.KFSpec
open Matrix MeasureTheory ProbabilityTheory
variable {n m p : ℕ} {Ω : Type} [MeasurableSpace Ω] {μ : Measure Ω} {a b : ℕ}

/-! ## Affine functions of a Gaussian process -/

section affine
variable {T : Type} (ξ : T → Ω → ℝ)

/-- Affine functions of finitely many components. -/
def affine : Submodule ℝ (Ω → ℝ) := Submodule.span ℝ (insert (fun _ => 1) (Set.range ξ))

omit [MeasurableSpace Ω] in
theorem affine_const (q : ℝ) : (fun _ => q) ∈ affine ξ := by
  have h := (affine ξ).smul_mem q (Submodule.subset_span (Set.mem_insert _ _))
  refine Eq.subst (motive := fun f => f ∈ affine ξ) ?_ h
  funext ω
  simp

omit [MeasurableSpace Ω] in
theorem affine_of (t : T) : ξ t ∈ affine ξ := Submodule.subset_span (Set.mem_insert_of_mem _ ⟨t, rfl⟩)

omit [MeasurableSpace Ω] in
theorem affine_mulVec {f : Ω → Fin a → ℝ} (hf : ∀ i, (fun ω => f ω i) ∈ affine ξ) (A : Matrix (Fin b) (Fin a) ℝ) (i : Fin b) :
    (fun ω => (A *ᵥ f ω) i) ∈ affine ξ := by
  have h := (affine ξ).sum_mem (t := Finset.univ) fun k _ => (affine ξ).smul_mem (A i k) (hf k)
  refine Eq.subst (motive := fun f => f ∈ affine ξ) ?_ h
  funext ω
  simp [Matrix.mulVec, dotProduct, Finset.sum_apply]

omit [MeasurableSpace Ω] in
theorem affine_form {f : Ω → ℝ} (hf : f ∈ affine ξ) :
    ∃ (q : ℝ) (I : Finset T) (L : (I → ℝ) →L[ℝ] ℝ), ∀ ω, f ω = L (I.restrict (ξ · ω)) + q := by
  obtain ⟨q, g, hg, rfl⟩ := Submodule.mem_span_insert.1 hf
  obtain ⟨c, rfl⟩ := Finsupp.mem_span_range_iff_exists_finsupp.1 hg
  refine ⟨q, c.support, ∑ i : c.support, c i • ContinuousLinearMap.proj i, fun ω => ?_⟩
  simp only [Pi.add_apply, Pi.smul_apply, smul_eq_mul, mul_one, ContinuousLinearMap.coe_sum', Finset.sum_apply,
    ContinuousLinearMap.coe_smul', ContinuousLinearMap.proj_apply, Finset.restrict, Finsupp.sum]
  rw [add_comm, Finset.sum_coe_sort c.support (fun i => c i * ξ i ω)]

theorem process_add_const {S : Type} {Y : S → Ω → ℝ} (hY : IsGaussianProcess Y μ) (q : S → ℝ) :
    IsGaussianProcess (fun s ω => Y s ω + q s) μ where
  hasGaussianLaw I := by
    constructor
    have h := (hY.hasGaussianLaw I).isGaussian_map
    have hm := (hY.hasGaussianLaw I).aemeasurable
    have e : (fun ω => I.restrict ((fun s ω => Y s ω + q s) · ω)) =
        (fun z : I → ℝ => z + I.restrict q) ∘ fun ω => I.restrict (Y · ω) := rfl
    rw [e, ← AEMeasurable.map_map_of_aemeasurable (by fun_prop) hm]
    infer_instance

variable {ξ} in
/-- Affine functions of a Gaussian process form a Gaussian process. -/
theorem affine_process (hξ : IsGaussianProcess ξ μ) {S : Type} {Y : S → Ω → ℝ} (hY : ∀ s, Y s ∈ affine ξ) : IsGaussianProcess Y μ := by
  choose q I L h using fun s => affine_form ξ (hY s)
  have h1 : IsGaussianProcess (fun s ω => L s ((I s).restrict (ξ · ω))) μ := hξ.of_isGaussianProcess fun s => ⟨I s, L s, fun ω => rfl⟩
  have h2 := process_add_const h1 q
  have e : (fun s ω => L s ((I s).restrict (ξ · ω)) + q s) = Y := funext fun s => funext fun ω => (h s ω).symm
  rwa [e] at h2

end affine

/-! ## The system and the filter -/

variable (x : Fin n → ℝ) (P : Matrix (Fin n) (Fin n) ℝ) (d : ℕ → LinModel n m p) (u : ℕ → Fin p → ℝ)
  (X : Ω → Fin n → ℝ) (w : ℕ → Ω → Fin n → ℝ) (v : ℕ → Ω → Fin m → ℝ)

omit [MeasurableSpace Ω] in
theorem affine_state (N : ℕ) (i : Fin n) : (fun ω => stateAt d u X w N ω i) ∈ affine (source X w v) := by
  induction N generalizing i with
  | zero => exact affine_of (source X w v) (.inl i)
  | succ N ih =>
    have h1 := affine_mulVec (source X w v) ih (d N).A i
    have h2 := affine_const (source X w v) (((d N).B *ᵥ u N) i)
    have h3 := affine_of (source X w v) (.inr (.inl (N, i)))
    exact add_mem (add_mem h1 h2) h3

omit [MeasurableSpace Ω] in
theorem affine_meas (N : ℕ) (i : Fin m) : (fun ω => measurementAt d u X w v N ω i) ∈ affine (source X w v) := by
  have h1 := affine_mulVec (source X w v) (affine_state d u X w v (N + 1)) (d N).C i
  have h2 := affine_const (source X w v) (((d N).D *ᵥ u (N + 1)) i)
  have h3 := affine_of (source X w v) (.inr (.inr (N, i)))
  exact add_mem (add_mem h1 h2) h3

omit [MeasurableSpace Ω] in
theorem affine_est (N : ℕ) (i : Fin n) : (fun ω => estAt x P d u X w v N ω i) ∈ affine (source X w v) := by
  induction N generalizing i with
  | zero => exact affine_const (source X w v) (x i)
  | succ N ih =>
    have h1 : ∀ i, (fun ω => ((d N).A *ᵥ estAt x P d u X w v N ω + (d N).B *ᵥ u N) i) ∈ affine (source X w v) := fun i =>
      add_mem (affine_mulVec (source X w v) ih (d N).A i) (affine_const (source X w v) (((d N).B *ᵥ u N) i))
    have h2 : ∀ i, (fun ω => (measurementAt d u X w v N ω -
        ((d N).C *ᵥ ((d N).A *ᵥ estAt x P d u X w v N ω + (d N).B *ᵥ u N) + (d N).D *ᵥ u (N + 1))) i) ∈ affine (source X w v) := fun i =>
      sub_mem (affine_meas d u X w v N i) (add_mem (affine_mulVec (source X w v) h1 (d N).C i)
        (affine_const (source X w v) (((d N).D *ᵥ u (N + 1)) i)))
    have h3 := add_mem (h1 i) (affine_mulVec (source X w v) h2 (gainAt P d N) i)
    refine Eq.subst (motive := fun f => f ∈ affine (source X w v)) ?_ h3
    funext ω
    rw [estAt_succ]
    rfl

omit [MeasurableSpace Ω] in
theorem affine_err (N : ℕ) (i : Fin n) : (fun ω => errAt x P d u X w v N ω i) ∈ affine (source X w v) :=
  sub_mem (affine_state d u X w v N i) (affine_est x P d u X w v N i)

theorem measurable_mulVec {𝓜 : MeasurableSpace Ω} {f : Ω → Fin a → ℝ} (hf : Measurable[𝓜] f) (A : Matrix (Fin b) (Fin a) ℝ) :
    Measurable[𝓜] (fun ω => A *ᵥ f ω) := by
  refine measurable_pi_iff.2 fun i => ?_
  simp only [Matrix.mulVec, dotProduct]
  exact Finset.measurable_sum _ fun k _ => (measurable_pi_iff.1 hf k).const_mul _

omit [MeasurableSpace Ω] in
/-- The estimate is a function of the measurements used. -/
theorem measurable_est {𝓜 : MeasurableSpace Ω} (N : ℕ) (h : ∀ j < N, Measurable[𝓜] (measurementAt d u X w v j)) :
    Measurable[𝓜] (estAt x P d u X w v N) := by
  induction N with
  | zero => exact measurable_const
  | succ N ih =>
    have h0 := ih fun j hj => h j (by omega)
    have h1 : Measurable[𝓜] (fun ω => (d N).A *ᵥ estAt x P d u X w v N ω + (d N).B *ᵥ u N) :=
      (measurable_mulVec h0 (d N).A).add_const _
    have h2 := (h N (by omega)).sub ((measurable_mulVec h1 (d N).C).add_const ((d N).D *ᵥ u (N + 1)))
    have h3 := h1.add (measurable_mulVec h2 (gainAt P d N))
    have e : estAt x P d u X w v (N + 1) = _ := funext fun ω => estAt_succ x P d u X w v N ω
    rw [e]
    exact h3

theorem measurable_state (hX : Measurable X) (hw : ∀ k, Measurable (w k)) (N : ℕ) : Measurable (stateAt d u X w N) := by
  induction N with
  | zero => exact hX
  | succ N ih => exact ((measurable_mulVec ih (d N).A).add_const _).add (hw N)

theorem measurable_meas (hX : Measurable X) (hw : ∀ k, Measurable (w k)) (hv : ∀ k, Measurable (v k)) (N : ℕ) :
    Measurable (measurementAt d u X w v N) :=
  ((measurable_mulVec (measurable_state d u X w hX hw (N + 1)) (d N).C).add_const _).add (hv N)

/-- The measurements of the times `1 … N`. -/
def measurements (N : ℕ) (ω : Ω) : Fin N → Fin m → ℝ := fun j => measurementAt d u X w v j ω

section
variable {x P d u X w v} [IsProbabilityMeasure μ] (h : Assumptions μ x P d X w v) (hg : IsGaussianProcess (source X w v) μ)
include h hg

theorem indep_err (hP : P.PosSemidef) (hd : ∀ N, (d N).Ok) (N : ℕ) :
    IndepFun (errAt x P d u X w v N) (measurements d u X w v N) μ := by
  obtain ⟨h0, -, hy⟩ := err_main (u := u) h hP hd N
  set E : Fin n → Ω → ℝ := fun i ω => errAt x P d u X w v N ω i with hE
  set Y : Fin N × Fin m → Ω → ℝ := fun j ω => measurementAt d u X w v j.1 ω j.2 with hY
  have hp : IsGaussianProcess (Sum.elim E Y) μ := affine_process hg (by
    rintro (i | j)
    · exact affine_err x P d u X w v N i
    · exact affine_meas d u X w v j.1 j.2)
  have hi : IndepFun (fun ω i => E i ω) (fun ω j => Y j ω) μ := by
    refine hp.indepFun_of_covariance_eq_zero (fun i => ?_) (fun j => ?_) fun i j => ?_
    · exact ((past_err (u := u) h N).sq i).aestronglyMeasurable.aemeasurable
    · exact ((past_meas (u := u) h N j.1 j.1.2).sq j.2).aestronglyMeasurable.aemeasurable
    · rw [covariance_eq_sub ((past_err (u := u) h N).sq i) ((past_meas (u := u) h N j.1 j.1.2).sq j.2)]
      have h1 := congrFun (congrFun (hy j.1 j.1.2) i) j.2
      have h2 := congrFun h0 i
      simp only [secondMoment, Matrix.of_apply, Matrix.zero_apply, mean, Pi.zero_apply] at h1 h2
      have h1' : ∫ ω, (E i * Y j) ω ∂μ = 0 := h1
      have h2' : ∫ ω, E i ω ∂μ = 0 := h2
      rw [h1', h2', zero_mul, sub_self]
  have hc : Measurable (fun (z : Fin N × Fin m → ℝ) (j : Fin N) (l : Fin m) => z (j, l)) := by fun_prop
  exact hi.comp measurable_id hc

theorem gauss_err (N : ℕ) : HasGaussianLaw (errAt x P d u X w v N) μ := by
  have hp : IsGaussianProcess (fun (i : Fin n) (ω : Ω) => errAt x P d u X w v N ω i) μ :=
    affine_process hg fun i => affine_err x P d u X w v N i
  have h1 := hp.hasGaussianLaw Finset.univ
  let L : (↥(Finset.univ : Finset (Fin n)) → ℝ) →L[ℝ] (Fin n → ℝ) :=
    ContinuousLinearMap.pi fun i => ContinuousLinearMap.proj ⟨i, Finset.mem_univ i⟩
  exact h1.map_fun L

end

end StateObs.KFSpec
