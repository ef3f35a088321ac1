import Verif.Noise.RandomModel
import Verif.Noise.RandomSpec
import Verif.Rot.Quat
import Mathlib.Probability.Distributions.Gaussian.Multivariate
/-! # Helper lemmas: random rotations -/

namespace StateObs.Noise
open Matrix StateObs MeasureTheory ProbabilityTheory Rot

/-- Four independent numbers of the standard normal law. -/
noncomputable abbrev γ4 : Measure (Fin 4 → ℝ) := Measure.pi fun _ => gaussianReal 0 1

theorem γ4_map {A : Matrix (Fin 4) (Fin 4) ℝ} (hA : Aᵀ * A = 1) : γ4.map (fun v => A *ᵥ v) = γ4 := by
  have hn : ∀ v : EuclideanSpace ℝ (Fin 4), ‖Matrix.toEuclideanLin A v‖ = ‖v‖ := fun v => by
    have h1 : ‖Matrix.toEuclideanLin A v‖ ^ 2 = ‖v‖ ^ 2 := by
      rw [EuclideanSpace.real_norm_sq_eq, EuclideanSpace.real_norm_sq_eq]
      have : ∀ w : Fin 4 → ℝ, ∑ i, w i ^ 2 = w ⬝ᵥ w := fun w => by simp [dotProduct, sq]
      rw [this, this]
      show (A *ᵥ v.ofLp) ⬝ᵥ (A *ᵥ v.ofLp) = _
      rw [dotProduct_mulVec, vecMul_mulVec, hA, vecMul_one]
    exact (pow_left_inj₀ (norm_nonneg _) (norm_nonneg _) (by norm_num)).1 h1
  let li : EuclideanSpace ℝ (Fin 4) →ₗᵢ[ℝ] EuclideanSpace ℝ (Fin 4) := ⟨Matrix.toEuclideanLin A, hn⟩
  let e := li.toLinearIsometryEquiv rfl
  have hs := stdGaussian_map e
  rw [← map_pi_eq_stdGaussian] at hs
  have h2 := congrArg (fun m => Measure.map (fun x : EuclideanSpace ℝ (Fin 4) => x.ofLp) m) hs
  simp only at h2
  rw [Measure.map_map (by fun_prop) (by fun_prop), Measure.map_map (by fun_prop) (by fun_prop), Measure.map_map (by fun_prop) (by fun_prop)] at h2
  have i1 : ((fun x : EuclideanSpace ℝ (Fin 4) => x.ofLp) ∘ WithLp.toLp 2) = (id : (Fin 4 → ℝ) → _) := rfl
  rw [i1, Measure.map_id] at h2
  exact h2

/-- Multiplication by a quaternion from the left, on the coefficients x, y, z, w. -/
def leftMat (u : Quat) : Matrix (Fin 4) (Fin 4) ℝ :=
  !![u.w, -u.z, u.y, u.x; u.z, u.w, -u.x, u.y; -u.y, u.x, u.w, u.z; -u.x, -u.y, -u.z, u.w]

/-- Multiplication by a quaternion from the right. -/
def rightMat (u : Quat) : Matrix (Fin 4) (Fin 4) ℝ :=
  !![u.w, u.z, -u.y, u.x; -u.z, u.w, u.x, u.y; u.y, -u.x, u.w, u.z; -u.x, -u.y, -u.z, u.w]

theorem leftMat_orth {u : Quat} (h : u.normSq = 1) : (leftMat u)ᵀ * leftMat u = 1 := by
  unfold Quat.normSq at h
  ext i j
  fin_cases i <;> fin_cases j <;> simp [leftMat, Matrix.mul_apply, Fin.sum_univ_four] <;> linarith

theorem rightMat_orth {u : Quat} (h : u.normSq = 1) : (rightMat u)ᵀ * rightMat u = 1 := by
  unfold Quat.normSq at h
  ext i j
  fin_cases i <;> fin_cases j <;> simp [rightMat, Matrix.mul_apply, Fin.sum_univ_four] <;> linarith

theorem quat_left (u : Quat) (v : Fin 4 → ℝ) : quatOfCoeffs (leftMat u *ᵥ v) = u * quatOfCoeffs v := by
  ext <;> simp [quatOfCoeffs, leftMat, mulVec, dotProduct, Fin.sum_univ_four, Quat.mul_def, Quat.mul] <;> ring

theorem quat_right (u : Quat) (v : Fin 4 → ℝ) : quatOfCoeffs (rightMat u *ᵥ v) = quatOfCoeffs v * u := by
  ext <;> simp [quatOfCoeffs, rightMat, mulVec, dotProduct, Fin.sum_univ_four, Quat.mul_def, Quat.mul] <;> ring

theorem normalized_mulVec {A : Matrix (Fin 4) (Fin 4) ℝ} (hA : Aᵀ * A = 1) (v : Fin 4 → ℝ) : normalized4 (A *ᵥ v) = A *ᵥ normalized4 v := by
  have h : (A *ᵥ v) ⬝ᵥ (A *ᵥ v) = v ⬝ᵥ v := by rw [dotProduct_mulVec, vecMul_mulVec, hA, vecMul_one]
  unfold normalized4
  rw [h]
  split_ifs
  · rw [mulVec_smul]
  · rfl

theorem normSq_coeffs (v : Fin 4 → ℝ) : (quatOfCoeffs v).normSq = v ⬝ᵥ v := by
  simp [quatOfCoeffs, Quat.normSq, dotProduct, Fin.sum_univ_four]

theorem normalized_unit {v : Fin 4 → ℝ} (h : v ≠ 0) : (quatOfCoeffs (normalized4 v)).normSq = 1 := by
  have h0 : 0 < v ⬝ᵥ v := lt_of_le_of_ne (by rw [← normSq_coeffs]; exact Quat.normSq_nonneg _) fun e => h (dotProduct_self_eq_zero.1 e.symm)
  rw [normSq_coeffs, normalized4, if_pos h0, smul_dotProduct, dotProduct_smul, smul_eq_mul, smul_eq_mul]
  have := Real.mul_self_sqrt h0.le
  have hs := Real.sqrt_pos.2 h0
  field_simp
  linarith

@[fun_prop] theorem normalized_measurable : Measurable normalized4 := by
  unfold normalized4
  have : Measurable fun v : Fin 4 → ℝ => v ⬝ᵥ v := by unfold dotProduct; fun_prop
  refine Measurable.ite (measurableSet_lt measurable_const this) ?_ measurable_id
  exact (measurable_const.div this.sqrt).smul measurable_id

theorem random_eq (g : ℕ → ℝ) : randomRotationQuaternion g = .ok (quatOfCoeffs (normalized4 fun i => g i)) := by
  simp [randomRotationQuaternion, getGaussianVector, DMat.mulVec, DVec.add]

theorem toMat_measurable : Measurable fun (v : Fin 4 → ℝ) (i j : Fin 3) => (quatOfCoeffs v).toMat i j := by
  refine measurable_pi_iff.2 fun i => measurable_pi_iff.2 fun j => ?_
  fin_cases i <;> fin_cases j <;> simp [Quat.toMat, quatOfCoeffs] <;> fun_prop

theorem γ4_zero : γ4 {0} = 0 := by
  have : NullSingletonClass (gaussianReal 0 1) := nullSingletonClass_gaussianReal (by norm_num)
  have : NullSingletonClass γ4 := Measure.pi_nullSingletonClass (0 : Fin 4)
  exact measure_singleton 0

/-- Independent draws of the standard normal law. -/
theorem draws_law {Ω : Type*} [MeasurableSpace Ω] {P : Measure Ω} [IsProbabilityMeasure P] {g : Ω → ℕ → ℝ} (hm : ∀ i, AEMeasurable (fun ω => g ω i) P)
    (hi : iIndepFun (fun i ω => g ω i) P) (hg : ∀ i, P.map (fun ω => g ω i) = gaussianReal 0 1) : P.map (fun ω (i : Fin 4) => g ω i) = γ4 := by
  have := (iIndepFun_iff_map_fun_eq_pi_map (f := fun (i : Fin 4) ω => g ω i) fun i => hm i).1 (hi.precomp Fin.val_injective)
  rw [this]
  simp only [hg]

end StateObs.Noise
