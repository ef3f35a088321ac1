import Verif.Noise.RandomLemmas
import Mathlib.Probability.Independence.InfinitePi
/-! # C115: random rotations, angles and numbers -/

namespace StateObs.Noise
open Matrix StateObs MeasureTheory ProbabilityTheory Rot

/-- **C115**, value: a quaternion is always given; it is a unit quaternion unless the four numbers drawn are all zero. -/
theorem C115_unit (g : ℕ → ℝ) : ∃ q, randomRotationQuaternion g = .ok q ∧ ((∃ i < 4, g i ≠ 0) → q.normSq = 1) := by
  refine ⟨_, random_eq g, fun ⟨i, hi, h⟩ => normalized_unit fun e => h ?_⟩
  exact congrFun e ⟨i, hi⟩

variable {Ω : Type*} [MeasurableSpace Ω] (P : Measure Ω) [IsProbabilityMeasure P]

/-- **C115**, quaternions: with independent draws of the standard normal law, the quaternion is almost surely a unit quaternion, and its law on the sphere does not change by
a multiplication by a unit quaternion on either side: it is uniformly distributed. -/
theorem C115_quaternion (g : Ω → ℕ → ℝ) (hm : ∀ i, AEMeasurable (fun ω => g ω i) P) (hi : iIndepFun (fun i ω => g ω i) P)
    (hg : ∀ i, P.map (fun ω => g ω i) = gaussianReal 0 1) : ∃ q : Ω → Quat, (∀ ω, randomRotationQuaternion (g ω) = .ok (q ω)) ∧ (∀ᵐ ω ∂P, (q ω).normSq = 1) ∧
      ∀ u : Quat, u.normSq = 1 →
        P.map (fun ω => ![(u * q ω).w, (u * q ω).x, (u * q ω).y, (u * q ω).z]) = P.map (fun ω => ![(q ω).w, (q ω).x, (q ω).y, (q ω).z]) ∧
        P.map (fun ω => ![(q ω * u).w, (q ω * u).x, (q ω * u).y, (q ω * u).z]) = P.map (fun ω => ![(q ω).w, (q ω).x, (q ω).y, (q ω).z]) := by
  have hl := draws_law hm hi hg
  have hG : AEMeasurable (fun ω (i : Fin 4) => g ω i) P := aemeasurable_pi_iff.2 fun i => hm i
  refine ⟨fun ω => quatOfCoeffs (normalized4 fun i => g ω i), fun ω => random_eq _, ?_, fun u hu => ?_⟩
  · have : ∀ᵐ v ∂γ4, v ≠ 0 := by
      rw [ae_iff]; simpa using γ4_zero
    rw [← hl] at this
    filter_upwards [ae_of_ae_map hG this] with ω hω using normalized_unit hω
  · have key : ∀ A : Matrix (Fin 4) (Fin 4) ℝ, Aᵀ * A = 1 → ∀ f : (Fin 4 → ℝ) → (Fin 4 → ℝ), Measurable f →
        P.map (fun ω => f (A *ᵥ normalized4 fun i => g ω i)) = P.map (fun ω => f (normalized4 fun i => g ω i)) := fun A hA f hf => by
      have hA' : Measurable fun v : Fin 4 → ℝ => A *ᵥ v := by unfold mulVec dotProduct; fun_prop
      have e1 : (fun ω => f (A *ᵥ normalized4 fun i : Fin 4 => g ω i)) = (fun v => f (normalized4 v)) ∘ (fun v => A *ᵥ v) ∘ fun ω (i : Fin 4) => g ω i := by
        funext ω
        simp only [Function.comp, normalized_mulVec hA]
      have e2 : (fun ω => f (normalized4 fun i : Fin 4 => g ω i)) = (fun v => f (normalized4 v)) ∘ fun ω (i : Fin 4) => g ω i := rfl
      rw [e1, e2, ← AEMeasurable.map_map_of_aemeasurable (by fun_prop) (by fun_prop), ← AEMeasurable.map_map_of_aemeasurable (by fun_prop) hG,
        ← AEMeasurable.map_map_of_aemeasurable (by fun_prop) hG, hl, γ4_map hA]
    have hf : Measurable fun v : Fin 4 → ℝ => ![v 3, v 0, v 1, v 2] := by
      refine measurable_pi_iff.2 fun i => ?_
      fin_cases i <;> simp <;> fun_prop
    constructor
    · simp only [← quat_left]
      exact key (leftMat u) (leftMat_orth hu) _ hf
    · simp only [← quat_right]
      exact key (rightMat u) (rightMat_orth hu) _ hf

/-- **C115**, rotations: with independent draws of the standard normal law, the rotation is uniformly distributed. -/
theorem C115_uniform (g : Ω → ℕ → ℝ) (hm : ∀ i, AEMeasurable (fun ω => g ω i) P) (hi : iIndepFun (fun i ω => g ω i) P)
    (hg : ∀ i, P.map (fun ω => g ω i) = gaussianReal 0 1) : ∃ q : Ω → Quat, (∀ ω, randomRotationQuaternion (g ω) = .ok (q ω)) ∧ UniformRotation P fun ω => (q ω).toMat := by
  have hl := draws_law hm hi hg
  have hG : AEMeasurable (fun ω (i : Fin 4) => g ω i) P := aemeasurable_pi_iff.2 fun i => hm i
  have hunit : ∀ᵐ ω ∂P, (quatOfCoeffs (normalized4 fun i => g ω i)).normSq = 1 := by
    have : ∀ᵐ v ∂γ4, v ≠ 0 := by
      rw [ae_iff]; simpa using γ4_zero
    rw [← hl] at this
    filter_upwards [ae_of_ae_map hG this] with ω hω using normalized_unit hω
  have key : ∀ A : Matrix (Fin 4) (Fin 4) ℝ, Aᵀ * A = 1 →
      law P (fun ω => (quatOfCoeffs (A *ᵥ normalized4 fun i => g ω i)).toMat) = law P (fun ω => (quatOfCoeffs (normalized4 fun i => g ω i)).toMat) := fun A hA => by
    have hA' : Measurable fun v : Fin 4 → ℝ => A *ᵥ v := by unfold mulVec dotProduct; fun_prop
    have hT : Measurable fun (v : Fin 4 → ℝ) (i j : Fin 3) => (quatOfCoeffs (normalized4 v)).toMat i j := toMat_measurable.comp normalized_measurable
    have e1 : (fun ω (i j : Fin 3) => (quatOfCoeffs (A *ᵥ normalized4 fun i => g ω i)).toMat i j) =
        (fun (v : Fin 4 → ℝ) (i j : Fin 3) => (quatOfCoeffs (normalized4 v)).toMat i j) ∘ (fun v => A *ᵥ v) ∘ fun ω (i : Fin 4) => g ω i := by
      funext ω
      simp only [Function.comp, normalized_mulVec hA]
    unfold law
    rw [e1, ← AEMeasurable.map_map_of_aemeasurable hT.aemeasurable (by fun_prop), ← AEMeasurable.map_map_of_aemeasurable hA'.aemeasurable hG,
      hl, γ4_map hA, ← hl, AEMeasurable.map_map_of_aemeasurable hT.aemeasurable hG]
    rfl
  refine ⟨fun ω => quatOfCoeffs (normalized4 fun i => g ω i), fun ω => random_eq _, ⟨?_, ?_, fun Q hQ => ?_, fun Q hQ => ?_⟩⟩
  · exact (toMat_measurable.comp normalized_measurable).comp_aemeasurable hG
  · filter_upwards [hunit] with ω hω using Quat.toMat_isRot hω
  · obtain ⟨hu, hq⟩ := Quat.ofMat_spec hQ
    rw [← key _ (leftMat_orth hu)]
    refine Measure.map_congr ?_
    filter_upwards [hunit] with ω hω
    rw [quat_left, Quat.toMat_mul hu hω, hq]
  · obtain ⟨hu, hq⟩ := Quat.ofMat_spec hQ
    rw [← key _ (rightMat_orth hu)]
    refine Measure.map_congr ?_
    filter_upwards [hunit] with ω hω
    rw [quat_right, Quat.toMat_mul hω hu, hq]

/-- **C115**, the specification determines the law: two uniformly distributed rotations have the same law. -/
theorem C115_unique {Ω' : Type*} [MeasurableSpace Ω'] (P' : Measure Ω') [IsProbabilityMeasure P'] (R : Ω → M3) (R' : Ω' → M3) (h : UniformRotation P R)
    (h' : UniformRotation P' R') : law P R = law P' R' := by
  have i1 : IsProbabilityMeasure (law P R) := Measure.isProbabilityMeasure_map h.measurable
  have i2 : IsProbabilityMeasure (law P' R') := Measure.isProbabilityMeasure_map h'.measurable
  set m : (Fin 3 → Fin 3 → ℝ) × (Fin 3 → Fin 3 → ℝ) → (Fin 3 → Fin 3 → ℝ) := fun x i j => ∑ k, x.1 i k * x.2 k j with hm
  have mm : Measurable m := by
    refine measurable_pi_iff.2 fun i => measurable_pi_iff.2 fun j => ?_
    fun_prop
  have m1 : ∀ a, Measurable fun b => m (a, b) := fun a => mm.comp (by fun_prop)
  have m2 : ∀ b, Measurable fun a => m (a, b) := fun b => mm.comp (by fun_prop)
  have l' : ∀ Q : M3, IsRot Q → (law P' R').map (fun b => m ((fun i j => Q i j), b)) = law P' R' := fun Q hQ => by
    conv_rhs => rw [← h'.left Q hQ]
    unfold law
    rw [AEMeasurable.map_map_of_aemeasurable (m1 _).aemeasurable h'.measurable]
    rfl
  have r : ∀ Q : M3, IsRot Q → (law P R).map (fun a => m (a, fun i j => Q i j)) = law P R := fun Q hQ => by
    conv_rhs => rw [← h.right Q hQ]
    unfold law
    rw [AEMeasurable.map_map_of_aemeasurable (m2 _).aemeasurable h.measurable]
    rfl
  ext A hA
  have hA' := mm hA
  have e1 : ((law P R).prod (law P' R')) (m ⁻¹' A) = law P' R' A := by
    rw [Measure.prod_apply hA']
    have : ∀ᵐ a ∂(law P R), (law P' R') (Prod.mk a ⁻¹' (m ⁻¹' A)) = law P' R' A := by
      have hms : MeasurableSet {a | (law P' R') (Prod.mk a ⁻¹' (m ⁻¹' A)) = law P' R' A} := measurable_measure_prodMk_left hA' (measurableSet_singleton _)
      refine (ae_map_iff h.measurable hms).2 ?_
      filter_upwards [h.rotation] with ω hω
      conv_rhs => rw [← l' _ hω, Measure.map_apply (m1 _) hA]
      rfl
    rw [lintegral_congr_ae this, lintegral_const, measure_univ, mul_one]
  have e2 : ((law P R).prod (law P' R')) (m ⁻¹' A) = law P R A := by
    rw [Measure.prod_apply_symm hA']
    have : ∀ᵐ b ∂(law P' R'), (law P R) ((fun a => (a, b)) ⁻¹' (m ⁻¹' A)) = law P R A := by
      have hms : MeasurableSet {b | (law P R) ((fun a => (a, b)) ⁻¹' (m ⁻¹' A)) = law P R A} := measurable_measure_prodMk_right hA' (measurableSet_singleton _)
      refine (ae_map_iff h'.measurable hms).2 ?_
      filter_upwards [h'.rotation] with ω hω
      conv_rhs => rw [← r _ hω, Measure.map_apply (m2 _) hA]
      rfl
    rw [lintegral_congr_ae this, lintegral_const, measure_univ, mul_one]
  rw [← e1, ← e2]

/-- **C115**, uniform numbers: the number is at least `lo` and less than `hi`; if the number drawn is uniformly distributed between 0 and 1, the probability that it is in
an interval is proportional to the length of the interval. -/
theorem C115_scalar (lo hi : ℝ) (hlh : lo < hi) (u : Ω → ℝ) (hm : AEMeasurable u P) (hu : P.map u = volume.restrict (Set.Ico 0 1)) :
    ∃ a : Ω → ℝ, (∀ ω, getUniformScalar lo hi (u ω) = .ok (a ω)) ∧ (∀ ω, u ω ∈ Set.Ico (0 : ℝ) 1 → a ω ∈ Set.Ico lo hi) ∧
    ∀ x y, lo ≤ x → x ≤ y → y ≤ hi → P {ω | a ω ∈ Set.Ico x y} = ENNReal.ofReal ((y - x) / (hi - lo)) := by
  have hp : 0 < hi - lo := by linarith
  refine ⟨fun ω => u ω * (hi - lo) + lo, fun ω => if_pos hlh.le, fun ω hω => ?_, fun x y hx hxy hy => ?_⟩
  · obtain ⟨h0, h1⟩ := hω
    constructor <;> nlinarith
  · have e : {ω | u ω * (hi - lo) + lo ∈ Set.Ico x y} = u ⁻¹' Set.Ico ((x - lo) / (hi - lo)) ((y - lo) / (hi - lo)) := by
      ext ω
      simp only [Set.mem_setOf_eq, Set.mem_preimage, Set.mem_Ico]
      rw [div_le_iff₀ hp, lt_div_iff₀ hp]
      constructor <;> rintro ⟨h1, h2⟩ <;> constructor <;> linarith
    rw [e, ← Measure.map_apply_of_aemeasurable hm measurableSet_Ico, hu, Measure.restrict_apply measurableSet_Ico, Set.inter_eq_left.2, Real.volume_Ico]
    · congr 1
      field_simp
      ring
    · apply Set.Ico_subset_Ico
      · exact div_nonneg (by linarith) hp.le
      · rw [div_le_one hp]; linarith

/-- **C115**, angles: the angle is at least `-π` and less than `π`; if the number drawn is uniformly distributed between 0 and 1, the probability that it is in an interval is
the length of the interval divided by `2π`. -/
theorem C115_angle (u : Ω → ℝ) (hm : AEMeasurable u P) (hu : P.map u = volume.restrict (Set.Ico 0 1)) : ∃ a : Ω → ℝ, (∀ ω, randomAngle (u ω) = .ok (a ω)) ∧
    (∀ ω, u ω ∈ Set.Ico (0 : ℝ) 1 → a ω ∈ Set.Ico (-Real.pi) Real.pi) ∧
    ∀ x y, -Real.pi ≤ x → x ≤ y → y ≤ Real.pi → P {ω | a ω ∈ Set.Ico x y} = ENNReal.ofReal ((y - x) / (2 * Real.pi)) := by
  obtain ⟨a, h1, h2, h3⟩ := C115_scalar P (-Real.pi) Real.pi (by linarith [Real.pi_pos]) u hm hu
  refine ⟨a, h1, h2, fun x y hx hxy hy => ?_⟩
  rw [h3 x y hx hxy hy]
  congr 2
  ring

/-- **C115**, Gaussian numbers: with a positive standard deviation, the number has the normal law with this standard deviation and the given mean. -/
theorem C115_gaussian (std bias : ℝ) (hs : 0 < std) (g : Ω → ℝ) (hm : AEMeasurable g P) (hg : P.map g = gaussianReal 0 1) :
    ∃ x : Ω → ℝ, (∀ ω, getGaussianScalar std bias (g ω) = .ok (x ω)) ∧ P.map x = gaussianReal bias ⟨std ^ 2, sq_nonneg std⟩ := by
  refine ⟨fun ω => g ω * std + bias, fun ω => if_pos hs, ?_⟩
  have e : (fun ω => g ω * std + bias) = (fun x => x + bias) ∘ (fun x => x * std) ∘ g := rfl
  rw [e, ← AEMeasurable.map_map_of_aemeasurable (by fun_prop) (by fun_prop), ← AEMeasurable.map_map_of_aemeasurable (by fun_prop) hm, hg,
    gaussianReal_map_mul_const, gaussianReal_map_add_const]
  simp
  rfl

/-- **C115**, no rotation: the quaternion of no rotation. -/
theorem C115_zero (q : Quat) : zeroRotationQuaternion.toMat = 1 ∧ zeroRotationQuaternion * q = q ∧ q * zeroRotationQuaternion = q :=
  ⟨Quat.toMat_one, Quat.one_mul q, Quat.mul_one q⟩

/-- There are such draws: the hypotheses of `C115_quaternion` and `C115_uniform` are met. -/
example : let P : Measure (ℕ → ℝ) := Measure.infinitePi fun _ => gaussianReal 0 1
    (∀ i, AEMeasurable (fun ω : ℕ → ℝ => ω i) P) ∧ iIndepFun (fun i (ω : ℕ → ℝ) => ω i) P ∧ ∀ i, P.map (fun ω => ω i) = gaussianReal 0 1 := by
  refine ⟨fun i => (measurable_pi_apply i).aemeasurable, ?_, fun i => ?_⟩
  · exact iIndepFun_infinitePi (X := fun _ x => x) fun _ => by fun_prop
  · exact Measure.infinitePi_map_eval _ i

/-- And those of `C115_scalar` and `C115_angle`. -/
example : let P : Measure ℝ := volume.restrict (Set.Ico 0 1)
    IsProbabilityMeasure P ∧ AEMeasurable (fun x : ℝ => x) P ∧ P.map (fun x => x) = volume.restrict (Set.Ico 0 1) :=
  ⟨⟨by simp⟩, aemeasurable_id, Measure.map_id⟩

end StateObs.Noise
