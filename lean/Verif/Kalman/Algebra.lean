import Verif.Kalman.Spec
import Mathlib.Tactic.Abel
/-! # Matrix algebra of the Kalman correction -/

namespace StateObs.KFSpec
open Matrix
variable {n m : ℕ}

theorem psd_symm {k : ℕ} {M : Matrix (Fin k) (Fin k) ℝ} (h : M.PosSemidef) : Mᵀ = M := by
  have := h.isHermitian
  rwa [IsHermitian, conjTranspose_eq_transpose_of_trivial] at this

theorem pd_symm {k : ℕ} {M : Matrix (Fin k) (Fin k) ℝ} (h : M.PosDef) : Mᵀ = M := psd_symm h.posSemidef

theorem psd_conj {k l : ℕ} {M : Matrix (Fin k) (Fin k) ℝ} (h : M.PosSemidef) (B : Matrix (Fin l) (Fin k) ℝ) :
    (B * M * Bᵀ).PosSemidef := by
  have := h.mul_mul_conjTranspose_same B
  rwa [conjTranspose_eq_transpose_of_trivial] at this

theorem predCov_psd {A Q P : Matrix (Fin n) (Fin n) ℝ} (hQ : Q.PosSemidef) (hP : P.PosSemidef) :
    (predCov A Q P).PosSemidef := (psd_conj hP A).add hQ

variable {C : Matrix (Fin m) (Fin n) ℝ} {R : Matrix (Fin m) (Fin m) ℝ} {M : Matrix (Fin n) (Fin n) ℝ}

theorem innovCov_pd (hR : R.PosDef) (hM : M.PosSemidef) : (innovCov C R M).PosDef :=
  hR.posSemidef_add (psd_conj hM C)

theorem gain_mul (hR : R.PosDef) (hM : M.PosSemidef) : gain C R M * innovCov C R M = M * Cᵀ := by
  have h := (innovCov_pd (C := C) hR hM).isUnit
  rw [gain, Matrix.mul_assoc, Matrix.nonsing_inv_mul _ ((Matrix.isUnit_iff_isUnit_det _).1 h), Matrix.mul_one]

/-- Completion of squares. -/
theorem joseph_eq (hR : R.PosDef) (hM : M.PosSemidef) (G : Matrix (Fin n) (Fin m) ℝ) :
    joseph G C R M = posterior C R M + (G - gain C R M) * innovCov C R M * (G - gain C R M)ᵀ := by
  have hS := pd_symm (innovCov_pd (C := C) hR hM)
  have h1 := gain_mul (C := C) hR hM
  have h2 : innovCov C R M * (gain C R M)ᵀ = C * M := by
    have := congrArg transpose h1
    rwa [transpose_mul, transpose_mul, transpose_transpose, hS, psd_symm hM] at this
  have hM' := psd_symm hM
  have e : joseph G C R M = M - G * (C * M) - M * Cᵀ * Gᵀ + G * innovCov C R M * Gᵀ := by
    simp only [joseph, innovCov, transpose_sub, transpose_one, transpose_mul]
    simp only [Matrix.mul_add, Matrix.add_mul, Matrix.mul_sub, Matrix.sub_mul, Matrix.mul_assoc, Matrix.one_mul, Matrix.mul_one]; abel
  rw [e, posterior]
  have e2 : (G - gain C R M) * innovCov C R M * (G - gain C R M)ᵀ =
      G * innovCov C R M * Gᵀ - G * (innovCov C R M * (gain C R M)ᵀ) - gain C R M * innovCov C R M * Gᵀ +
        gain C R M * (innovCov C R M * (gain C R M)ᵀ) := by
    rw [transpose_sub]; simp only [Matrix.mul_add, Matrix.add_mul, Matrix.mul_sub, Matrix.sub_mul, Matrix.mul_assoc, Matrix.one_mul, Matrix.mul_one]; abel
  rw [e2, h1, h2]
  simp only [Matrix.mul_add, Matrix.add_mul, Matrix.mul_sub, Matrix.sub_mul, Matrix.mul_assoc, Matrix.one_mul, Matrix.mul_one]; abel

theorem joseph_gain (hR : R.PosDef) (hM : M.PosSemidef) : joseph (gain C R M) C R M = posterior C R M := by
  rw [joseph_eq hR hM]; simp

theorem joseph_psd (hR : R.PosSemidef) (hM : M.PosSemidef) (G : Matrix (Fin n) (Fin m) ℝ) : (joseph G C R M).PosSemidef :=
  (psd_conj hM _).add (psd_conj hR _)

theorem posterior_psd (hR : R.PosDef) (hM : M.PosSemidef) : (posterior C R M).PosSemidef := by
  rw [← joseph_gain hR hM]; exact joseph_psd hR.posSemidef hM _

theorem posterior_le_joseph (hR : R.PosDef) (hM : M.PosSemidef) (G : Matrix (Fin n) (Fin m) ℝ) :
    Loewner (posterior C R M) (joseph G C R M) := by
  rw [Loewner, joseph_eq hR hM, add_sub_cancel_left]
  exact psd_conj (innovCov_pd hR hM).posSemidef _

theorem posterior_le_pred (hR : R.PosDef) (hM : M.PosSemidef) : Loewner (posterior C R M) M := by
  have := posterior_le_joseph (C := C) hR hM 0
  simpa [joseph] using this

/-- Scaling `R` and `M` leaves the gain. -/
theorem gain_smul (c : ℝ) (hc : 0 < c) : gain C (c • R) (c • M) = gain C R M := by
  have h : innovCov C (c • R) (c • M) = c • innovCov C R M := by
    simp only [innovCov, Matrix.mul_smul, Matrix.smul_mul, smul_add]
  have h2 : (c • innovCov C R M)⁻¹ = c⁻¹ • (innovCov C R M)⁻¹ := by
    have hu : IsUnit c := hc.ne'.isUnit
    by_cases hd : IsUnit (innovCov C R M).det
    · have := Matrix.inv_smul' (A := innovCov C R M) hu.unit hd
      rw [Units.smul_def, IsUnit.unit_spec] at this
      rw [this, Units.smul_def]
      congr 1
      simp
    · rw [Matrix.nonsing_inv_apply_not_isUnit _ hd, smul_zero]
      apply Matrix.nonsing_inv_apply_not_isUnit
      rw [det_smul]
      intro h'
      exact hd (isUnit_of_mul_isUnit_right h')
  rw [gain, h, h2, gain]
  simp only [Matrix.smul_mul, Matrix.mul_smul, smul_smul]
  rw [inv_mul_cancel₀ hc.ne', one_smul]

theorem posterior_smul (c : ℝ) (hc : 0 < c) : posterior C (c • R) (c • M) = c • posterior C R M := by
  rw [posterior, gain_smul c hc, Matrix.mul_smul, posterior]

theorem predCov_smul (c : ℝ) (A Q P : Matrix (Fin n) (Fin n) ℝ) : predCov A (c • Q) (c • P) = c • predCov A Q P := by
  simp only [predCov, Matrix.mul_smul, Matrix.smul_mul, smul_add]

end StateObs.KFSpec
