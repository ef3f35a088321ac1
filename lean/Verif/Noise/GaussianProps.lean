import Verif.Noise.Props
import Verif.Noise.RandomLemmas
/-! # C67: the law of the noise -/

namespace StateObs.Noise
open Matrix StateObs MeasureTheory ProbabilityTheory

/-- The law of a linear image of independent numbers of the standard normal law. -/
theorem gaussian_image {n : ℕ} (L S : Matrix (Fin n) (Fin n) ℝ) (hL : L * Lᵀ = S) (b : Fin n → ℝ) :
    (Measure.pi fun _ : Fin n => gaussianReal 0 1).map (fun x => (WithLp.toLp 2 (b + L *ᵥ x) : EuclideanSpace ℝ (Fin n))) = multivariateGaussian (WithLp.toLp 2 b) S := by
  have hS : S.PosSemidef := by
    rw [← hL, ← conjTranspose_eq_transpose_of_trivial]
    exact posSemidef_self_mul_conjTranspose L
  have hmL : Measurable fun x : Fin n → ℝ => (WithLp.toLp 2 (L *ᵥ x) : EuclideanSpace ℝ (Fin n)) := by
    have : Measurable fun x : Fin n → ℝ => L *ᵥ x := by unfold mulVec dotProduct; fun_prop
    fun_prop
  have e : (fun x => (WithLp.toLp 2 (b + L *ᵥ x) : EuclideanSpace ℝ (Fin n))) = (fun y => WithLp.toLp 2 b + y) ∘ fun x => WithLp.toLp 2 (L *ᵥ x) := rfl
  rw [e, ← Measure.map_map (by fun_prop) hmL]
  have i1 : IsProbabilityMeasure ((Measure.pi fun _ : Fin n => gaussianReal 0 1).map fun x => (WithLp.toLp 2 (L *ᵥ x) : EuclideanSpace ℝ (Fin n))) :=
    Measure.isProbabilityMeasure_map hmL.aemeasurable
  apply Measure.ext_of_charFun
  ext t
  rw [charFun_map_const_add, charFun_multivariateGaussian hS]
  have h1 : charFun ((Measure.pi fun _ : Fin n => gaussianReal 0 1).map fun x => (WithLp.toLp 2 (L *ᵥ x) : EuclideanSpace ℝ (Fin n))) t =
      charFun (stdGaussian (EuclideanSpace ℝ (Fin n))) (WithLp.toLp 2 (Lᵀ *ᵥ t.ofLp)) := by
    rw [← map_pi_eq_stdGaussian, charFun_apply, charFun_apply, integral_map hmL.aemeasurable (by fun_prop), integral_map (by fun_prop) (by fun_prop)]
    congr 1
    funext x
    congr 3
    simp only [PiLp.inner_apply, RCLike.inner_apply, conj_trivial]
    show t.ofLp ⬝ᵥ (L *ᵥ x) = (Lᵀ *ᵥ t.ofLp) ⬝ᵥ x
    rw [dotProduct_mulVec, mulVec_transpose]
  rw [h1, charFun_stdGaussian, ← Complex.exp_add]
  have h2 : ‖(WithLp.toLp 2 (Lᵀ *ᵥ t.ofLp) : EuclideanSpace ℝ (Fin n))‖ ^ 2 = t.ofLp ⬝ᵥ (S *ᵥ t.ofLp) := by
    rw [EuclideanSpace.real_norm_sq_eq]
    have : ∀ w : Fin n → ℝ, ∑ i, w i ^ 2 = w ⬝ᵥ w := fun w => by simp [dotProduct, sq]
    rw [this, dotProduct_mulVec, vecMul_transpose, mulVec_mulVec, hL, dotProduct_comm]
  rw [← h2, real_inner_comm]
  congr 1
  push_cast
  ring

/-- **C67**, the law: if the numbers drawn are independent and have the standard normal law, the noise has the normal law with the requested mean and covariance. -/
theorem C67_gaussian (n : ℕ) (s : GWN) (hn : s.dim = n) (hs : s.sum = DVec.add) (S : Matrix (Fin n) (Fin n) ℝ) (hS : S.PosDef) (b v : Fin n → ℝ)
    {Ω : Type*} [MeasurableSpace Ω] (P : Measure Ω) [IsProbabilityMeasure P] (g : Ω → ℕ → ℝ) (hm : ∀ i, AEMeasurable (fun ω => g ω i) P)
    (hi : iIndepFun (fun i ω => g ω i) P) (hg : ∀ i, P.map (fun ω => g ω i) = gaussianReal 0 1) :
    ∃ (s' : GWN) (y : Ω → Fin n → ℝ), run s [.setCovarianceMatrix ⟨n, n, S⟩, .setBias ⟨n, b⟩] = .ok s' ∧ (∀ ω, getNoisy s' ⟨n, v⟩ (g ω) = .ok ⟨n, y ω⟩) ∧
      P.map (fun ω => (WithLp.toLp 2 (y ω) : EuclideanSpace ℝ (Fin n))) = multivariateGaussian (WithLp.toLp 2 (v + b)) S := by
  obtain ⟨L, s', hL, hr, hy⟩ := C67_factor n s hn hs S hS b
  refine ⟨s', fun ω => v + (L *ᵥ (fun i : Fin n => g ω i) + b), hr, fun ω => hy v (g ω), ?_⟩
  have hl : P.map (fun ω (i : Fin n) => g ω i) = Measure.pi fun _ => gaussianReal 0 1 := by
    have := (iIndepFun_iff_map_fun_eq_pi_map (f := fun (i : Fin n) ω => g ω i) fun i => hm i).1 (hi.precomp Fin.val_injective)
    rw [this]
    simp only [hg]
  have hG : AEMeasurable (fun ω (i : Fin n) => g ω i) P := aemeasurable_pi_iff.2 fun i => hm i
  have hf : Measurable fun x : Fin n → ℝ => (WithLp.toLp 2 (v + b + L *ᵥ x) : EuclideanSpace ℝ (Fin n)) := by
    have : Measurable fun x : Fin n → ℝ => L *ᵥ x := by unfold mulVec dotProduct; fun_prop
    fun_prop
  rw [← gaussian_image L S hL (v + b), ← hl, AEMeasurable.map_map_of_aemeasurable hf.aemeasurable hG]
  congr 1
  funext ω
  simp only [Function.comp]
  congr 1
  abel

end StateObs.Noise
