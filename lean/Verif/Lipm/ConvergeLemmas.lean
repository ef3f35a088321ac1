import Verif.Kalman.StableVarying
import Verif.Lipm.Reach
import Mathlib.Tactic.LinearCombination
/-!
# Observability of the pendulum with a bias that turns with the robot

An estimator with well chosen gains finds DCM and bias in two sampling periods, whatever the rotations.
-/

namespace StateObs.Lipm
open StateObs Matrix KFSpec Blocks

/-- The model of the filter, the bias turning by `D`. -/
noncomputable def turning (w q1 q2 r : ℝ) (B : Matrix (Fin (2 + 2)) (Fin 2) ℝ) (D : Matrix (Fin 2) (Fin 2) ℝ) : LinModel (2 + 2) 2 2 :=
  ⟨blk (dblToDiag (1 + w)) 0 0 D, B, rowBlk 1 1, 0, blk (dblToSqDiag q1) 0 0 (dblToSqDiag q2), dblToSqDiag r⟩

theorem rot_dot {D : Matrix (Fin 2) (Fin 2) ℝ} (hD : Dᵀ * D = 1) (y : Fin 2 → ℝ) : (D *ᵥ y) ⬝ᵥ (D *ᵥ y) = y ⬝ᵥ y := by
  rw [dotProduct_mulVec, ← mulVec_transpose, mulVec_mulVec, hD, one_mulVec]

/-- `a - D` for a rotation `D` and `a > 1`. -/
theorem sub_rot_expand {D : Matrix (Fin 2) (Fin 2) ℝ} (hD : Dᵀ * D = 1) {w : ℝ} (hw : 0 < w) (y : Fin 2 → ℝ) :
    w ^ 2 * (y ⬝ᵥ y) ≤ ((dblToDiag (1 + w) - D) *ᵥ y) ⬝ᵥ ((dblToDiag (1 + w) - D) *ᵥ y) := by
  have e : (dblToDiag (1 + w) - D) *ᵥ y = (1 + w) • y - D *ᵥ y := by
    rw [sub_mulVec]; congr 1
    ext i; simp [dblToDiag, mulVec_diagonal]
  have h1 := rot_dot hD y
  have h2 := dot_self_nonneg (y - D *ᵥ y)
  simp only [dotProduct_sub, sub_dotProduct] at h2
  rw [e]
  simp only [dotProduct_sub, sub_dotProduct, dotProduct_smul, smul_dotProduct, smul_eq_mul]
  rw [h1] at h2 ⊢
  have h3 := dotProduct_comm y (D *ᵥ y)
  rw [← h3] at h2 ⊢
  nlinarith

theorem sub_rot_det {D : Matrix (Fin 2) (Fin 2) ℝ} (hD : Dᵀ * D = 1) {w : ℝ} (hw : 0 < w) : IsUnit (dblToDiag (1 + w) - D).det := by
  rw [isUnit_iff_ne_zero]
  intro h
  obtain ⟨y, hy, h1⟩ := Matrix.exists_mulVec_eq_zero_iff.2 h
  have h2 := sub_rot_expand hD hw y
  rw [h1, dotProduct_zero] at h2
  have h3 : 0 < y ⬝ᵥ y := by
    have := qf_pos (Matrix.PosDef.one (n := Fin 2) (R := ℝ)) hy
    rwa [qf_one] at this
  have : 0 < w ^ 2 * (y ⬝ᵥ y) := by positivity
  linarith

theorem sub_rot_inv {D : Matrix (Fin 2) (Fin 2) ℝ} (hD : Dᵀ * D = 1) {w : ℝ} (hw : 0 < w) : Bd w⁻¹ (dblToDiag (1 + w) - D)⁻¹ := by
  intro i j
  set M := dblToDiag (1 + w) - D with hM
  have hu := sub_rot_det hD hw
  have h1 := sub_rot_expand hD hw (M⁻¹ *ᵥ Pi.single j 1)
  rw [← hM, mulVec_mulVec, Matrix.mul_nonsing_inv _ hu, one_mulVec] at h1
  have h2 : (Pi.single j 1 : Fin 2 → ℝ) ⬝ᵥ Pi.single j 1 = 1 := by simp
  rw [h2] at h1
  have h3 : (M⁻¹ i j) ^ 2 ≤ (M⁻¹ *ᵥ Pi.single j 1) ⬝ᵥ (M⁻¹ *ᵥ Pi.single j 1) := by
    have e : ∀ k, (M⁻¹ *ᵥ Pi.single j 1) k = M⁻¹ k j := fun k => by simp
    rw [dotProduct, show (M⁻¹ i j) ^ 2 = (M⁻¹ *ᵥ Pi.single j 1) i * (M⁻¹ *ᵥ Pi.single j 1) i by rw [e, pow_two]]
    exact Finset.single_le_sum (f := fun k => (M⁻¹ *ᵥ Pi.single j 1) k * (M⁻¹ *ᵥ Pi.single j 1) k) (fun k _ => mul_self_nonneg _) (Finset.mem_univ i)
  have h4 : (w * M⁻¹ i j) ^ 2 ≤ 1 ^ 2 := by
    rw [mul_pow]; nlinarith [sq_nonneg w]
  have h5 := abs_le_of_sq_le_sq h4 zero_le_one
  rw [abs_mul, abs_of_pos hw] at h5
  have h6 : |M⁻¹ i j| ≤ 1 / w := by rw [le_div_iff₀ hw, mul_comm]; exact h5
  rwa [one_div] at h6

theorem rot_bd {D : Matrix (Fin 2) (Fin 2) ℝ} (hD : Dᵀ * D = 1) : Bd 1 D := by
  intro i j
  have h := congrFun (congrFun hD j) j
  simp only [Matrix.mul_apply, Matrix.transpose_apply, Matrix.one_apply_eq] at h
  have h1 : D i j * D i j ≤ ∑ k, D k j * D k j :=
    Finset.single_le_sum (f := fun k => D k j * D k j) (fun k _ => mul_self_nonneg _) (Finset.mem_univ i)
  rw [h, ← pow_two] at h1
  exact abs_le_of_sq_le_sq (by simpa using h1) zero_le_one

/-- The gains. -/
noncomputable def deadbeat (w : ℝ) (D : Matrix (Fin 2) (Fin 2) ℝ) : Matrix (Fin (2 + 2)) (Fin 2) ℝ :=
  colBlk (dblToDiag (1 + w) * (dblToDiag (1 + w) - D)⁻¹) (-(D * (dblToDiag (1 + w) - D)⁻¹))

theorem blk_mul {d : ℕ} (A B C D A' B' C' D' : Matrix (Fin d) (Fin d) ℝ) :
    blk A B C D * blk A' B' C' D' = blk (A * A' + B * C') (A * B' + B * D') (C * A' + D * C') (C * B' + D * D') := by
  ext i j
  refine Fin.addCases (fun i => ?_) (fun i => ?_) i <;> refine Fin.addCases (fun j => ?_) (fun j => ?_) j <;>
    simp [-Fin.natAdd_eq_addNat, blk, Matrix.mul_apply, Fin.sum_univ_add]

theorem colBlk_mul_rowBlk {d : ℕ} (A B C D : Matrix (Fin d) (Fin d) ℝ) : colBlk A B * rowBlk C D = blk (A * C) (A * D) (B * C) (B * D) := by
  ext i j
  refine Fin.addCases (fun i => ?_) (fun i => ?_) i <;> refine Fin.addCases (fun j => ?_) (fun j => ?_) j <;>
    simp [-Fin.natAdd_eq_addNat, blk, colBlk, rowBlk, Matrix.mul_apply]

theorem blk_sub {d : ℕ} (A B C D A' B' C' D' : Matrix (Fin d) (Fin d) ℝ) :
    blk A B C D - blk A' B' C' D' = blk (A - A') (B - B') (C - C') (D - D') := by
  ext i j
  refine Fin.addCases (fun i => ?_) (fun i => ?_) i <;> refine Fin.addCases (fun j => ?_) (fun j => ?_) j <;>
    simp [-Fin.natAdd_eq_addNat, blk]

theorem blk_zero {d : ℕ} : blk (0 : Matrix (Fin d) (Fin d) ℝ) 0 0 0 = 0 := by
  ext i j
  refine Fin.addCases (fun i => ?_) (fun i => ?_) i <;> refine Fin.addCases (fun j => ?_) (fun j => ?_) j <;>
    simp [-Fin.natAdd_eq_addNat, blk]

theorem blk_smul_one {d : ℕ} (a : ℝ) : a • (1 : Matrix (Fin (d + d)) (Fin (d + d)) ℝ) = blk (a • 1) 0 0 (a • 1) := by
  ext i j
  refine Fin.addCases (fun i => ?_) (fun i => ?_) i <;> refine Fin.addCases (fun j => ?_) (fun j => ?_) j <;>
    simp [-Fin.natAdd_eq_addNat, blk, Matrix.one_apply, Fin.ext_iff] <;> intro h <;> omega

/-- With these gains the error after one step is opposite in DCM and bias. -/
theorem deadbeat_one {w : ℝ} (hw : 0 < w) {D : Matrix (Fin 2) (Fin 2) ℝ} (hD : Dᵀ * D = 1) :
    ∃ X Y : Matrix (Fin 2) (Fin 2) ℝ,
      (1 - deadbeat w D * rowBlk 1 1) * blk (dblToDiag (1 + w)) 0 0 D = blk X Y (-X) (-Y) := by
  set a := dblToDiag (1 + w) with ha
  set I := (a - D)⁻¹ with hI
  have h1 : a * I - D * I = 1 := by rw [← Matrix.sub_mul]; exact Matrix.mul_nonsing_inv _ (sub_rot_det hD hw)
  have h2 : a * I = 1 + D * I := by rw [← h1]; abel
  refine ⟨-(D * I * a), -(a * I * D), ?_⟩
  rw [deadbeat, ← ha, ← hI, colBlk_mul_rowBlk, one_blk, blk_sub, blk_mul]
  congr 1 <;> simp only [Matrix.mul_one, Matrix.mul_zero, Matrix.zero_mul, add_zero, zero_add, h2] <;> noncomm_ring

/-- Two steps. -/
theorem deadbeat_two {w : ℝ} (hw : 0 < w) {D D' : Matrix (Fin 2) (Fin 2) ℝ} (hD : Dᵀ * D = 1) (hD' : D'ᵀ * D' = 1) :
    ((1 - deadbeat w D' * rowBlk 1 1) * blk (dblToDiag (1 + w)) 0 0 D') * ((1 - deadbeat w D * rowBlk 1 1) * blk (dblToDiag (1 + w)) 0 0 D) = 0 := by
  obtain ⟨X, Y, h⟩ := deadbeat_one hw hD
  rw [h]
  set a := dblToDiag (1 + w) with ha
  set I := (a - D')⁻¹ with hI
  have h1 : I * a - I * D' = 1 := by rw [← Matrix.mul_sub]; exact Matrix.nonsing_inv_mul _ (sub_rot_det hD' hw)
  have h2 : I * a = 1 + I * D' := by rw [← h1]; abel
  rw [deadbeat, ← ha, ← hI, colBlk_mul_rowBlk, one_blk, blk_sub, blk_mul, blk_mul, ← blk_zero]
  have e1 : a * I * a = a + a * I * D' := by rw [Matrix.mul_assoc, h2, Matrix.mul_add, Matrix.mul_one, Matrix.mul_assoc]
  have e2 : D' * I * a = D' + D' * I * D' := by rw [Matrix.mul_assoc, h2, Matrix.mul_add, Matrix.mul_one, Matrix.mul_assoc]
  congr 1 <;> simp only [Matrix.mul_one, Matrix.mul_zero, Matrix.zero_mul, add_zero, zero_add, Matrix.sub_mul, Matrix.one_mul, Matrix.neg_mul,
    Matrix.mul_neg, sub_neg_eq_add, Matrix.add_mul, zero_sub, e1, e2, neg_neg, sub_zero] <;> abel

theorem bd_blk {b : ℝ} {A B C D : Matrix (Fin 2) (Fin 2) ℝ} (h1 : Bd b A) (h2 : Bd b B) (h3 : Bd b C) (h4 : Bd b D) : Bd b (Blocks.blk A B C D) := by
  intro i j
  refine Fin.addCases (fun i => ?_) (fun i => ?_) i <;> refine Fin.addCases (fun j => ?_) (fun j => ?_) j <;>
    simp only [Blocks.blk, Fin.addCases_left, Fin.addCases_right]
  exacts [h1 i j, h2 i j, h3 i j, h4 i j]

theorem bd_colBlk {b : ℝ} {A B : Matrix (Fin 2) (Fin 2) ℝ} (h1 : Bd b A) (h2 : Bd b B) : Bd b (Blocks.colBlk A B) := by
  intro i j
  refine Fin.addCases (fun i => ?_) (fun i => ?_) i <;>
    simp only [Blocks.colBlk, Fin.addCases_left, Fin.addCases_right]
  exacts [h1 i j, h2 i j]

theorem bd_zero {b : ℝ} (hb : 0 ≤ b) {r c : ℕ} : Bd b (0 : Matrix (Fin r) (Fin c) ℝ) := fun i j => by simpa using hb
theorem bd_neg {b : ℝ} {r c : ℕ} {M : Matrix (Fin r) (Fin c) ℝ} (h : Bd b M) : Bd b (-M) := fun i j => by rw [Matrix.neg_apply, abs_neg]; exact h i j

theorem bd_diag {b : ℝ} (hb : 0 ≤ b) : Bd b (dblToDiag b) := fun i j => by
  rw [dblToDiag, diagonal_apply]; split_ifs
  · rw [abs_of_nonneg hb]
  · simpa using hb

theorem turning_ok (w : ℝ) {q1 q2 r : ℝ} (hr : r ≠ 0) (B : Matrix (Fin (2 + 2)) (Fin 2) ℝ) (D : Matrix (Fin 2) (Fin 2) ℝ) :
    (turning w q1 q2 r B D).Ok := ⟨blk_diag_psd (View.dblToSqDiag_psd _) (View.dblToSqDiag_psd _), diag_sq_pd r hr⟩

theorem turning_Q {q1 q2 : ℝ} (h1 : q1 ≠ 0) (h2 : q2 ≠ 0) : ∃ q : ℝ, 0 < q ∧ Loewner (q • 1) (blk (dblToSqDiag q1) 0 0 (dblToSqDiag q2)) := by
  refine ⟨min (q1 * q1) (q2 * q2), lt_min (mul_self_pos.2 h1) (mul_self_pos.2 h2), ?_⟩
  rw [Loewner, blk_smul_one, blk_sub, _root_.sub_zero]
  have key : ∀ q c : ℝ, c ≤ q * q → (dblToSqDiag q - c • 1).PosSemidef := by
    intro q c h
    have e : dblToSqDiag q - c • 1 = (q * q - c) • (1 : Matrix (Fin 2) (Fin 2) ℝ) := by
      ext i j
      by_cases hij : i = j <;> simp [dblToSqDiag, dblToDiag, Matrix.one_apply, diagonal_apply, hij]
    rw [e]
    exact Matrix.PosSemidef.smul Matrix.PosSemidef.one (by linarith)
  exact blk_diag_psd (key _ _ (min_le_left _ _)) (key _ _ (min_le_right _ _))

/-- The error of the filter decreases, at a rate that does not depend on the rotations. -/
theorem turning_rate {w q1 q2 r : ℝ} (hw : 0 < w) (h1 : q1 ≠ 0) (h2 : q2 ≠ 0) (hr : r ≠ 0) {P : Matrix (Fin (2 + 2)) (Fin (2 + 2)) ℝ}
    (hP : P.PosSemidef) :
    ∃ K ρ : ℝ, 0 ≤ K ∧ 0 ≤ ρ ∧ ρ < 1 ∧ ∀ (B : Matrix (Fin (2 + 2)) (Fin 2) ℝ) (D : ℕ → Matrix (Fin 2) (Fin 2) ℝ), (∀ k, (D k)ᵀ * D k = 1) →
      ∀ (e : Fin (2 + 2) → ℝ) (N : ℕ), errRun (fun k => turning w q1 q2 r B (D k)) P e N ⬝ᵥ errRun (fun k => turning w q1 q2 r B (D k)) P e N ≤
        K * ρ ^ N * (e ⬝ᵥ e) := by
  obtain ⟨q, hq, hQ⟩ := turning_Q h1 h2
  have hw0 := hw.le
  have hiw : 0 ≤ w⁻¹ := inv_nonneg.2 hw0
  -- bounds on the matrices of the observer
  have bA : ∀ {D : Matrix (Fin 2) (Fin 2) ℝ}, Dᵀ * D = 1 → Bd (1 + w) (blk (dblToDiag (1 + w)) 0 0 D) := fun hD =>
    bd_blk (bd_diag (by linarith)) (bd_zero (by linarith)) (bd_zero (by linarith)) ((rot_bd hD).le (by linarith))
  have bL : ∃ l : ℝ, 0 ≤ l ∧ ∀ {D : Matrix (Fin 2) (Fin 2) ℝ}, Dᵀ * D = 1 → Bd l (deadbeat w D) := by
    refine ⟨(2 : ℕ) * ((1 + w) * w⁻¹), by positivity, fun hD => bd_colBlk (Bd.mul (by linarith) (bd_diag (by linarith)) (sub_rot_inv hD hw)) ?_⟩
    exact bd_neg (Bd.mul (by linarith) ((rot_bd hD).le (by linarith)) (sub_rot_inv hD hw))
  obtain ⟨l, hl, bL⟩ := bL
  obtain ⟨cC, hcC, bC⟩ := exists_entries (rowBlk (1 : Matrix (Fin 2) (Fin 2) ℝ) 1)
  obtain ⟨cQ, hcQ, bQ⟩ := exists_entries (blk (dblToSqDiag q1) 0 0 (dblToSqDiag q2))
  obtain ⟨cR, hcR, bR⟩ := exists_entries (dblToSqDiag r)
  set g := 1 + (2 : ℕ) * (l * cC) with hg
  have hg0 : 0 ≤ g := by positivity
  have bG : ∀ {D : Matrix (Fin 2) (Fin 2) ℝ}, Dᵀ * D = 1 → Bd g (1 - deadbeat w D * rowBlk 1 1) := fun hD =>
    Bd.one.sub (Bd.mul hl (bL hD) bC)
  set c := ((2 + 2 : ℕ) : ℝ) * (g * (1 + w)) + (((2 + 2 : ℕ) : ℝ) * ((((2 + 2 : ℕ) : ℝ) * (g * cQ)) * g) + (2 : ℕ) * (((2 : ℕ) * (l * cR)) * l)) with hc
  have hc0 : 0 ≤ c := by positivity
  obtain ⟨b, hb, hB⟩ := cov_bounded_two (n := 2 + 2) (m := 2) (p := 2) hc0 hP
  obtain ⟨α, hα, hα1⟩ : ∃ α : ℝ, 0 < α ∧ ∀ {M : Matrix (Fin (2 + 2)) (Fin (2 + 2)) ℝ}, Mᵀ = M →
      Bd (((2 + 2 : ℕ) : ℝ) * ((1 + w) * (1 + w))) M → Loewner M (α • 1) :=
    ⟨((2 + 2 : ℕ) : ℝ) * (((2 + 2 : ℕ) : ℝ) * ((1 + w) * (1 + w))), by positivity, fun h h' => Bd.loewner (by positivity) h h'⟩
  obtain ⟨K, ρ, hK, hρ, hρ1, H⟩ := exists_rate_varying (n := 2 + 2) (m := 2) (p := 2) hq hα hb
  refine ⟨K, ρ, hK, hρ, hρ1, fun B D hD e N => ?_⟩
  have hok : ∀ k, (turning w q1 q2 r B (D k)).Ok := fun k => turning_ok w hr B (D k)
  refine H (fun k => turning w q1 q2 r B (D k)) hok P hP (fun _ => hQ) (fun k => hα1 ?_ ?_) (fun k => hα1 ?_ ?_) (fun N => ?_) e N
  · rw [Matrix.transpose_mul, Matrix.transpose_transpose]
  · exact Bd.mul (by linarith) (bA (hD k)) (bA (hD k)).transpose
  · rw [Matrix.transpose_mul, Matrix.transpose_transpose]
  · exact Bd.mul (by linarith) (bA (hD k)).transpose (bA (hD k))
  · refine hB (fun k => turning w q1 q2 r B (D k)) hok (fun k => deadbeat w (D k)) (fun k => deadbeat_two hw (hD k) (hD (k + 1))) (fun k => ?_)
      (fun k => ?_) _ _ N
    · refine (Bd.mul hg0 (bG (hD k)) (bA (hD k))).le ?_
      have : 0 ≤ ((2 + 2 : ℕ) : ℝ) * ((((2 + 2 : ℕ) : ℝ) * (g * cQ)) * g) + (2 : ℕ) * (((2 : ℕ) * (l * cR)) * l) := by positivity
      rw [hc]; linarith
    · have hj : Bd (((2 + 2 : ℕ) : ℝ) * ((((2 + 2 : ℕ) : ℝ) * (g * cQ)) * g) + (2 : ℕ) * (((2 : ℕ) * (l * cR)) * l))
          (joseph (deadbeat w (D k)) (rowBlk 1 1) (dblToSqDiag r) (blk (dblToSqDiag q1) 0 0 (dblToSqDiag q2))) := by
        unfold joseph
        exact ((Bd.mul hg0 (bG (hD k)) bQ).mul (by positivity) (bG (hD k)).transpose).add
          ((Bd.mul hl (bL (hD k)) bR).mul (by positivity) (bL (hD k)).transpose)
      refine Bd.le hj ?_
      have : 0 ≤ ((2 + 2 : ℕ) : ℝ) * (g * (1 + w)) := by positivity
      rw [hc]; linarith

end StateObs.Lipm
