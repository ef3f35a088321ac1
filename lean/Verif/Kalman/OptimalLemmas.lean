import Verif.Kalman.OptimalSpec
import Verif.Kalman.LinProps
import Mathlib.Probability.Distributions.Gaussian.IsGaussianProcess.Independence
/-!
# Lemmas for property C116
-/

namespace StateObs.KFSpec
open Matrix MeasureTheory ProbabilityTheory
variable {n m p : ℕ} {Ω : Type} [MeasurableSpace Ω] {μ : Measure Ω} {a b c : ℕ}

/-! ## Moments -/

theorem SquareIntegrable.mulVec {f : Ω → Fin a → ℝ} (hf : SquareIntegrable μ f) (A : Matrix (Fin b) (Fin a) ℝ) :
    SquareIntegrable μ (fun ω => A *ᵥ f ω) := by
  intro i
  simp only [Matrix.mulVec, dotProduct]
  exact memLp_finsetSum _ fun k _ => (hf k).const_mul _

theorem SquareIntegrable.add {f g : Ω → Fin a → ℝ} (hf : SquareIntegrable μ f) (hg : SquareIntegrable μ g) :
    SquareIntegrable μ (fun ω => f ω + g ω) := fun i => (hf i).add (hg i)

theorem SquareIntegrable.sub {f g : Ω → Fin a → ℝ} (hf : SquareIntegrable μ f) (hg : SquareIntegrable μ g) :
    SquareIntegrable μ (fun ω => f ω - g ω) := fun i => (hf i).sub (hg i)

theorem SquareIntegrable.const [IsFiniteMeasure μ] (q : Fin a → ℝ) : SquareIntegrable μ (fun _ => q) := fun _ => memLp_const _

theorem SquareIntegrable.int {f : Ω → Fin a → ℝ} {g : Ω → Fin b → ℝ} (hf : SquareIntegrable μ f) (hg : SquareIntegrable μ g) (i j) :
    Integrable (fun ω => f ω i * g ω j) μ := (hf i).integrable_mul (hg j)

theorem moment_transpose (f : Ω → Fin a → ℝ) (g : Ω → Fin b → ℝ) : (secondMoment μ f g)ᵀ = secondMoment μ g f := by
  ext i j
  simp only [secondMoment, Matrix.transpose_apply, Matrix.of_apply]
  exact integral_congr_ae (.of_forall fun ω => mul_comm _ _)

theorem moment_mulVec {f : Ω → Fin a → ℝ} {g : Ω → Fin b → ℝ} (hf : SquareIntegrable μ f) (hg : SquareIntegrable μ g)
    (A : Matrix (Fin c) (Fin a) ℝ) : secondMoment μ (fun ω => A *ᵥ f ω) g = A * secondMoment μ f g := by
  ext i j
  simp only [secondMoment, Matrix.of_apply, Matrix.mul_apply, Matrix.mulVec, dotProduct, Finset.sum_mul]
  rw [integral_finsetSum _ fun k _ => by simpa only [mul_assoc] using (hf.int hg k j).const_mul (A i k)]
  exact Finset.sum_congr rfl fun k _ => by simp only [mul_assoc, integral_const_mul]

theorem moment_mulVec_right {f : Ω → Fin a → ℝ} {g : Ω → Fin b → ℝ} (hf : SquareIntegrable μ f) (hg : SquareIntegrable μ g)
    (A : Matrix (Fin c) (Fin b) ℝ) : secondMoment μ f (fun ω => A *ᵥ g ω) = secondMoment μ f g * Aᵀ := by
  rw [← moment_transpose, moment_mulVec hg hf, Matrix.transpose_mul, moment_transpose]

theorem moment_add {f f' : Ω → Fin a → ℝ} {g : Ω → Fin b → ℝ} (hf : SquareIntegrable μ f) (hf' : SquareIntegrable μ f')
    (hg : SquareIntegrable μ g) : secondMoment μ (fun ω => f ω + f' ω) g = secondMoment μ f g + secondMoment μ f' g := by
  ext i j
  simp only [secondMoment, Matrix.of_apply, Matrix.add_apply, Pi.add_apply, add_mul]
  exact integral_add (hf.int hg i j) (hf'.int hg i j)

theorem moment_sub {f f' : Ω → Fin a → ℝ} {g : Ω → Fin b → ℝ} (hf : SquareIntegrable μ f) (hf' : SquareIntegrable μ f')
    (hg : SquareIntegrable μ g) : secondMoment μ (fun ω => f ω - f' ω) g = secondMoment μ f g - secondMoment μ f' g := by
  ext i j
  simp only [secondMoment, Matrix.of_apply, Matrix.sub_apply, Pi.sub_apply, sub_mul]
  exact integral_sub (hf.int hg i j) (hf'.int hg i j)

theorem moment_add_right {f : Ω → Fin a → ℝ} {g g' : Ω → Fin b → ℝ} (hf : SquareIntegrable μ f) (hg : SquareIntegrable μ g)
    (hg' : SquareIntegrable μ g') : secondMoment μ f (fun ω => g ω + g' ω) = secondMoment μ f g + secondMoment μ f g' := by
  rw [← moment_transpose, moment_add hg hg' hf, Matrix.transpose_add, moment_transpose, moment_transpose]

theorem moment_sub_right {f : Ω → Fin a → ℝ} {g g' : Ω → Fin b → ℝ} (hf : SquareIntegrable μ f) (hg : SquareIntegrable μ g)
    (hg' : SquareIntegrable μ g') : secondMoment μ f (fun ω => g ω - g' ω) = secondMoment μ f g - secondMoment μ f g' := by
  rw [← moment_transpose, moment_sub hg hg' hf, Matrix.transpose_sub, moment_transpose, moment_transpose]

theorem moment_const_right (f : Ω → Fin a → ℝ) (q : Fin b → ℝ) (h : mean μ f = 0) : secondMoment μ f (fun _ => q) = 0 := by
  ext i j
  simp only [secondMoment, Matrix.of_apply, integral_mul_const, Matrix.zero_apply]
  have := congrFun h i
  simp only [mean, Pi.zero_apply] at this
  rw [this, zero_mul]

theorem moment_const_left (f : Ω → Fin a → ℝ) (q : Fin b → ℝ) (h : mean μ f = 0) : secondMoment μ (fun _ => q) f = 0 := by
  rw [← moment_transpose, moment_const_right f q h, Matrix.transpose_zero]

theorem integral_dot {f : Ω → Fin a → ℝ} {g : Ω → Fin b → ℝ} (hf : SquareIntegrable μ f) (hg : SquareIntegrable μ g)
    (r : Fin a → ℝ) (s : Fin b → ℝ) : ∫ ω, (r ⬝ᵥ f ω) * (s ⬝ᵥ g ω) ∂μ = r ⬝ᵥ secondMoment μ f g *ᵥ s := by
  simp only [dotProduct, Matrix.mulVec, secondMoment, Matrix.of_apply, Finset.sum_mul_sum]
  simp only [Finset.mul_sum]
  have hi : ∀ i j, Integrable (fun ω => r i * f ω i * (s j * g ω j)) μ := fun i j => by
    have := (hf.int hg i j).const_mul (r i * s j)
    refine this.congr (.of_forall fun ω => ?_)
    simp only; ring
  rw [integral_finsetSum _ fun i _ => integrable_finsetSum _ fun j _ => hi i j]
  refine Finset.sum_congr rfl fun i _ => ?_
  rw [integral_finsetSum _ fun j _ => hi i j]
  refine Finset.sum_congr rfl fun j _ => ?_
  rw [show (fun ω => r i * f ω i * (s j * g ω j)) = fun ω => r i * s j * (f ω i * g ω j) by funext ω; ring, integral_const_mul]
  ring

theorem mean_mulVec [IsFiniteMeasure μ] {f : Ω → Fin a → ℝ} (hf : SquareIntegrable μ f) (A : Matrix (Fin c) (Fin a) ℝ) :
    mean μ (fun ω => A *ᵥ f ω) = A *ᵥ mean μ f := by
  ext i
  simp only [mean, Matrix.mulVec, dotProduct]
  rw [integral_finsetSum _ fun k _ => ((hf k).integrable one_le_two).const_mul _]
  exact Finset.sum_congr rfl fun k _ => by simp only [integral_const_mul]

theorem mean_add [IsFiniteMeasure μ] {f g : Ω → Fin a → ℝ} (hf : SquareIntegrable μ f) (hg : SquareIntegrable μ g) :
    mean μ (fun ω => f ω + g ω) = mean μ f + mean μ g := by
  ext i
  exact integral_add ((hf i).integrable one_le_two) ((hg i).integrable one_le_two)

theorem mean_sub [IsFiniteMeasure μ] {f g : Ω → Fin a → ℝ} (hf : SquareIntegrable μ f) (hg : SquareIntegrable μ g) :
    mean μ (fun ω => f ω - g ω) = mean μ f - mean μ g := by
  ext i
  exact integral_sub ((hf i).integrable one_le_two) ((hg i).integrable one_le_two)

theorem mean_const [IsProbabilityMeasure μ] (q : Fin a → ℝ) : mean μ (fun _ : Ω => q) = q := by
  ext i
  simp [mean]

/-! ## The past of the system -/

section system
variable (μ) (w : ℕ → Ω → Fin n → ℝ) (v : ℕ → Ω → Fin m → ℝ)

/-- Random vectors uncorrelated with the noises from `N` on. -/
structure Past (N : ℕ) (f : Ω → Fin a → ℝ) : Prop where
  sq : SquareIntegrable μ f
  hw : ∀ k, N ≤ k → secondMoment μ f (w k) = 0
  hv : ∀ k, N ≤ k → secondMoment μ f (v k) = 0

variable {μ w v}

theorem Past.mono {N N' : ℕ} (h : N ≤ N') {f : Ω → Fin a → ℝ} (hf : Past μ w v N f) : Past μ w v N' f :=
  ⟨hf.sq, fun k hk => hf.hw k (h.trans hk), fun k hk => hf.hv k (h.trans hk)⟩

variable (hw : ∀ k, SquareIntegrable μ (w k)) (hv : ∀ k, SquareIntegrable μ (v k))
include hw hv

theorem Past.add {N : ℕ} {f g : Ω → Fin a → ℝ} (hf : Past μ w v N f) (hg : Past μ w v N g) : Past μ w v N (fun ω => f ω + g ω) :=
  ⟨hf.sq.add hg.sq, fun k hk => by rw [moment_add hf.sq hg.sq (hw k), hf.hw k hk, hg.hw k hk, add_zero],
    fun k hk => by rw [moment_add hf.sq hg.sq (hv k), hf.hv k hk, hg.hv k hk, add_zero]⟩

theorem Past.sub {N : ℕ} {f g : Ω → Fin a → ℝ} (hf : Past μ w v N f) (hg : Past μ w v N g) : Past μ w v N (fun ω => f ω - g ω) :=
  ⟨hf.sq.sub hg.sq, fun k hk => by rw [moment_sub hf.sq hg.sq (hw k), hf.hw k hk, hg.hw k hk, _root_.sub_zero],
    fun k hk => by rw [moment_sub hf.sq hg.sq (hv k), hf.hv k hk, hg.hv k hk, _root_.sub_zero]⟩

theorem Past.mulVec {N : ℕ} {f : Ω → Fin a → ℝ} (hf : Past μ w v N f) (A : Matrix (Fin b) (Fin a) ℝ) :
    Past μ w v N (fun ω => A *ᵥ f ω) :=
  ⟨hf.sq.mulVec A, fun k hk => by rw [moment_mulVec hf.sq (hw k), hf.hw k hk, Matrix.mul_zero],
    fun k hk => by rw [moment_mulVec hf.sq (hv k), hf.hv k hk, Matrix.mul_zero]⟩

omit hw hv
theorem Past.const [IsFiniteMeasure μ] (hw0 : ∀ k, mean μ (w k) = 0) (hv0 : ∀ k, mean μ (v k) = 0) (N : ℕ) (q : Fin a → ℝ) :
    Past μ w v N (fun _ : Ω => q) :=
  ⟨.const q, fun k _ => moment_const_left _ _ (hw0 k), fun k _ => moment_const_left _ _ (hv0 k)⟩

end system

/-! ## The filter on random data -/

variable (x : Fin n → ℝ) (P : Matrix (Fin n) (Fin n) ℝ) (d : ℕ → LinModel n m p) (u : ℕ → Fin p → ℝ)
  (X : Ω → Fin n → ℝ) (w : ℕ → Ω → Fin n → ℝ) (v : ℕ → Ω → Fin m → ℝ)

/-- Estimate of the textbook filter. -/
noncomputable def estAt (N : ℕ) (ω : Ω) : Fin n → ℝ :=
  (linRun d (sensorData d u (fun j => w j ω) (fun j => v j ω) (X ω)) (x, P) N).1

/-- Covariance of the textbook filter. -/
noncomputable def covAt (N : ℕ) : Matrix (Fin n) (Fin n) ℝ := (linRun d (fun _ => ⟨0, 0, 0⟩) (0, P) N).2

theorem covAt_eq (i : ℕ → StepIn m p) (N : ℕ) : (linRun d i (x, P) N).2 = covAt P d N := by
  induction N with
  | zero => rfl
  | succ N ih => simp only [covAt, linRun, linStep] at ih ⊢; rw [ih]

theorem covAt_psd (hP : P.PosSemidef) (hd : ∀ N, (d N).Ok) (N : ℕ) : (covAt P d N).PosSemidef :=
  LKF.linRun_psd d hd _ _ hP N

/-- Predicted covariance. -/
noncomputable def preAt (N : ℕ) : Matrix (Fin n) (Fin n) ℝ := predCov (d N).A (d N).Q (covAt P d N)

/-- Gain. -/
noncomputable def gainAt (N : ℕ) : Matrix (Fin n) (Fin m) ℝ := gain (d N).C (d N).R (preAt P d N)

omit [MeasurableSpace Ω] in
theorem stateAt_succ (N : ℕ) (ω : Ω) :
    stateAt d u X w (N + 1) ω = (d N).A *ᵥ stateAt d u X w N ω + (d N).B *ᵥ u N + w N ω := rfl

omit [MeasurableSpace Ω] in
theorem measurementAt_eq (N : ℕ) (ω : Ω) :
    measurementAt d u X w v N ω = (d N).C *ᵥ stateAt d u X w (N + 1) ω + (d N).D *ᵥ u (N + 1) + v N ω := rfl

omit [MeasurableSpace Ω] in
theorem estAt_succ (N : ℕ) (ω : Ω) :
    estAt x P d u X w v (N + 1) ω = (d N).A *ᵥ estAt x P d u X w v N ω + (d N).B *ᵥ u N +
      gainAt P d N *ᵥ (measurementAt d u X w v N ω -
        ((d N).C *ᵥ ((d N).A *ᵥ estAt x P d u X w v N ω + (d N).B *ᵥ u N) + (d N).D *ᵥ u (N + 1))) := by
  simp only [estAt, linRun, linStep, covAt_eq x P d]
  rfl

/-- Error of the estimate. -/
noncomputable def errAt (N : ℕ) (ω : Ω) : Fin n → ℝ := stateAt d u X w N ω - estAt x P d u X w v N ω

/-- Error of the prediction. -/
noncomputable def perrAt (N : ℕ) (ω : Ω) : Fin n → ℝ := (d N).A *ᵥ errAt x P d u X w v N ω + w N ω

omit [MeasurableSpace Ω] in
theorem errAt_succ (N : ℕ) (ω : Ω) :
    errAt x P d u X w v (N + 1) ω =
      (1 - gainAt P d N * (d N).C) *ᵥ perrAt x P d u X w v N ω - gainAt P d N *ᵥ v N ω := by
  simp only [errAt, perrAt, estAt_succ, measurementAt_eq, stateAt_succ]
  simp only [Matrix.sub_mulVec, Matrix.one_mulVec, Matrix.mulVec_add, Matrix.mulVec_sub, ← Matrix.mulVec_mulVec]
  abel

omit [MeasurableSpace Ω] in
theorem measurementAt_pred (N : ℕ) (ω : Ω) :
    measurementAt d u X w v N ω = (d N).C *ᵥ perrAt x P d u X w v N ω + v N ω +
      ((d N).C *ᵥ ((d N).A *ᵥ estAt x P d u X w v N ω) + ((d N).C *ᵥ ((d N).B *ᵥ u N) + (d N).D *ᵥ u (N + 1))) := by
  simp only [errAt, perrAt, measurementAt_eq, stateAt_succ]
  simp only [Matrix.mulVec_add, Matrix.mulVec_sub]
  abel

section
variable {x P d u X w v} [IsProbabilityMeasure μ] (h : Assumptions μ x P d X w v)
include h

theorem past_const (N : ℕ) (q : Fin a → ℝ) : Past μ w v N (fun _ : Ω => q) := Past.const h.w_mean h.v_mean N q

theorem past_w (N k : ℕ) (hk : k < N) : Past μ w v N (w k) :=
  ⟨h.w_sq k, fun l hl => h.w_w k l (by omega), fun l _ => h.w_v k l⟩

theorem past_v (N k : ℕ) (hk : k < N) : Past μ w v N (v k) :=
  ⟨h.v_sq k, fun l _ => by rw [← moment_transpose, h.w_v l k, Matrix.transpose_zero], fun l hl => h.v_v k l (by omega)⟩

theorem past_X (N : ℕ) : Past μ w v N X := ⟨h.X_sq, fun k _ => h.X_w k, fun k _ => h.X_v k⟩

theorem past_state (N : ℕ) : Past μ w v N (stateAt d u X w N) := by
  induction N with
  | zero => exact past_X h 0
  | succ N ih =>
    have h1 := ((ih.mono N.le_succ).mulVec h.w_sq h.v_sq (d N).A).add h.w_sq h.v_sq (past_const h (N + 1) ((d N).B *ᵥ u N))
    exact h1.add h.w_sq h.v_sq (past_w h (N + 1) N (by omega))

theorem past_meas (N j : ℕ) (hj : j < N) : Past μ w v N (measurementAt d u X w v j) := by
  have h1 := ((past_state (u := u) h (j + 1)).mulVec h.w_sq h.v_sq (d j).C).add h.w_sq h.v_sq
    (past_const h (j + 1) ((d j).D *ᵥ u (j + 1)))
  exact (h1.add h.w_sq h.v_sq (past_v h (j + 1) j (by omega))).mono hj

theorem past_est (N : ℕ) : Past μ w v N (estAt x P d u X w v N) := by
  induction N with
  | zero => exact past_const h 0 x
  | succ N ih =>
    have h1 := ((ih.mono N.le_succ).mulVec h.w_sq h.v_sq (d N).A).add h.w_sq h.v_sq (past_const h (N + 1) ((d N).B *ᵥ u N))
    have h2 := (h1.mulVec h.w_sq h.v_sq (d N).C).add h.w_sq h.v_sq (past_const h (N + 1) ((d N).D *ᵥ u (N + 1)))
    have h3 := ((past_meas (u := u) h (N + 1) N (by omega)).sub h.w_sq h.v_sq h2).mulVec h.w_sq h.v_sq (gainAt P d N)
    have h4 := h1.add h.w_sq h.v_sq h3
    have e : estAt x P d u X w v (N + 1) = _ := funext fun ω => estAt_succ x P d u X w v N ω
    rw [e]
    exact h4

theorem past_err (N : ℕ) : Past μ w v N (errAt x P d u X w v N) :=
  (past_state h N).sub h.w_sq h.v_sq (past_est h N)

theorem sq_perr (N : ℕ) : SquareIntegrable μ (perrAt x P d u X w v N) :=
  ((past_err h N).sq.mulVec (d N).A).add (h.w_sq N)

/-- What is uncorrelated with the measurements and has mean zero is uncorrelated with the estimate. -/
theorem perp_est (N : ℕ) {f : Ω → Fin a → ℝ} (hf : SquareIntegrable μ f) (hf0 : mean μ f = 0)
    (hy : ∀ j < N, secondMoment μ f (measurementAt d u X w v j) = 0) : secondMoment μ f (estAt x P d u X w v N) = 0 := by
  induction N with
  | zero => exact moment_const_right f x hf0
  | succ N ih =>
    have hN := ih fun j hj => hy j (by omega)
    have hest := (past_est (u := u) h N).sq
    have hmeas := (past_meas (u := u) h (N + 1) N (by omega)).sq
    have s1 := (hest.mulVec (d N).A).add (.const ((d N).B *ᵥ u N))
    have s2 := (s1.mulVec (d N).C).add (.const ((d N).D *ᵥ u (N + 1)))
    have e : estAt x P d u X w v (N + 1) = _ := funext fun ω => estAt_succ x P d u X w v N ω
    have z1 : secondMoment μ f (fun ω => (d N).A *ᵥ estAt x P d u X w v N ω + (d N).B *ᵥ u N) = 0 := by
      rw [moment_add_right hf (hest.mulVec _) (.const _), moment_mulVec_right hf hest, hN, moment_const_right f _ hf0,
        Matrix.zero_mul, add_zero]
    have z2 : secondMoment μ f (fun ω => (d N).C *ᵥ ((d N).A *ᵥ estAt x P d u X w v N ω + (d N).B *ᵥ u N) + (d N).D *ᵥ u (N + 1)) = 0 := by
      rw [moment_add_right hf (s1.mulVec _) (.const _), moment_mulVec_right hf s1, z1, moment_const_right f _ hf0,
        Matrix.zero_mul, add_zero]
    rw [e, moment_add_right hf s1 ((hmeas.sub s2).mulVec _), moment_mulVec_right hf (hmeas.sub s2), moment_sub_right hf hmeas s2,
      z1, z2, hy N (by omega), _root_.sub_zero, Matrix.zero_mul, add_zero]

theorem gain_orth (hP : P.PosSemidef) (hd : ∀ N, (d N).Ok) (N : ℕ) :
    (1 - gainAt P d N * (d N).C) * preAt P d N * (d N).Cᵀ - gainAt P d N * (d N).R = 0 := by
  have hM : (preAt P d N).PosSemidef := predCov_psd (hd N).1 (covAt_psd P d hP hd N)
  have hS : (innovCov (d N).C (d N).R (preAt P d N)).PosDef := by
    have h1 := hM.mul_mul_conjTranspose_same (d N).C
    rw [Matrix.conjTranspose_eq_transpose_of_trivial] at h1
    exact Matrix.PosDef.posSemidef_add h1 (hd N).2
  have hu : gainAt P d N * innovCov (d N).C (d N).R (preAt P d N) = preAt P d N * (d N).Cᵀ := by
    rw [gainAt, gain, Matrix.mul_assoc, Matrix.nonsing_inv_mul _ ((Matrix.isUnit_iff_isUnit_det _).1 hS.isUnit), Matrix.mul_one]
  rw [innovCov, Matrix.mul_add] at hu
  rw [Matrix.sub_mul, Matrix.sub_mul, Matrix.one_mul, ← hu]
  simp only [Matrix.mul_assoc]
  abel

/-- The error has mean zero, the covariance of the filter, and is uncorrelated with all the measurements used. -/
theorem err_main (hP : P.PosSemidef) (hd : ∀ N, (d N).Ok) (N : ℕ) :
    mean μ (errAt x P d u X w v N) = 0 ∧
    secondMoment μ (errAt x P d u X w v N) (errAt x P d u X w v N) = covAt P d N ∧
    ∀ j < N, secondMoment μ (errAt x P d u X w v N) (measurementAt d u X w v j) = 0 := by
  induction N with
  | zero =>
    have e : errAt x P d u X w v 0 = fun ω => X ω - x := rfl
    refine ⟨?_, ?_, fun j hj => absurd hj (by omega)⟩
    · rw [e, mean_sub h.X_sq (.const x), h.X_mean, mean_const, sub_self]
    · rw [e, h.X_cov]; rfl
  | succ N ih =>
    obtain ⟨h0, hc, hy⟩ := ih
    have pe := past_err (u := u) h N
    have se := pe.sq
    have sp := sq_perr (u := u) h N
    have sest := (past_est (u := u) h N).sq
    have wN := h.w_sq N
    have vN := h.v_sq N
    have ewt : secondMoment μ (w N) (errAt x P d u X w v N) = 0 := by rw [← moment_transpose, pe.hw N le_rfl, Matrix.transpose_zero]
    have evt : secondMoment μ (v N) (errAt x P d u X w v N) = 0 := by rw [← moment_transpose, pe.hv N le_rfl, Matrix.transpose_zero]
    have vwt : secondMoment μ (v N) (w N) = 0 := by rw [← moment_transpose, h.w_v, Matrix.transpose_zero]
    have hp0 : mean μ (perrAt x P d u X w v N) = 0 := by
      rw [show perrAt x P d u X w v N = fun ω => (d N).A *ᵥ errAt x P d u X w v N ω + w N ω from rfl,
        mean_add (se.mulVec _) wN, mean_mulVec se, h0, h.w_mean, Matrix.mulVec_zero, add_zero]
    have hpp : secondMoment μ (perrAt x P d u X w v N) (perrAt x P d u X w v N) = preAt P d N := by
      rw [show perrAt x P d u X w v N = fun ω => (d N).A *ᵥ errAt x P d u X w v N ω + w N ω from rfl,
        moment_add (se.mulVec _) wN ((se.mulVec _).add wN), moment_mulVec se ((se.mulVec _).add wN),
        moment_add_right se (se.mulVec _) wN, moment_add_right wN (se.mulVec _) wN, moment_mulVec_right se se,
        moment_mulVec_right wN se, hc, ewt, pe.hw N le_rfl, h.w_cov, preAt, predCov, Matrix.zero_mul, add_zero, zero_add,
        Matrix.mul_assoc]
    have hpv : secondMoment μ (perrAt x P d u X w v N) (v N) = 0 := by
      rw [show perrAt x P d u X w v N = fun ω => (d N).A *ᵥ errAt x P d u X w v N ω + w N ω from rfl,
        moment_add (se.mulVec _) wN vN, moment_mulVec se vN, pe.hv N le_rfl, h.w_v, Matrix.mul_zero, add_zero]
    have hvp : secondMoment μ (v N) (perrAt x P d u X w v N) = 0 := by rw [← moment_transpose, hpv, Matrix.transpose_zero]
    set K := gainAt P d N with hK
    set F := 1 - K * (d N).C with hF
    have e : errAt x P d u X w v (N + 1) = fun ω => F *ᵥ perrAt x P d u X w v N ω - K *ᵥ v N ω :=
      funext fun ω => errAt_succ x P d u X w v N ω
    have se' : SquareIntegrable μ (fun ω => F *ᵥ perrAt x P d u X w v N ω - K *ᵥ v N ω) := (sp.mulVec F).sub (vN.mulVec K)
    have hM : (preAt P d N).PosSemidef := predCov_psd (hd N).1 (covAt_psd P d hP hd N)
    -- the new error is uncorrelated with whatever the prediction error and the noise are uncorrelated with
    have key : ∀ {b : ℕ} {g : Ω → Fin b → ℝ}, SquareIntegrable μ g → secondMoment μ (fun ω => F *ᵥ perrAt x P d u X w v N ω - K *ᵥ v N ω) g =
        F * secondMoment μ (perrAt x P d u X w v N) g - K * secondMoment μ (v N) g := fun {b g} hg => by
      rw [moment_sub (sp.mulVec F) (vN.mulVec K) hg, moment_mulVec sp hg, moment_mulVec vN hg]
    have h0' : mean μ (fun ω => F *ᵥ perrAt x P d u X w v N ω - K *ᵥ v N ω) = 0 := by
      rw [mean_sub (sp.mulVec F) (vN.mulVec K), mean_mulVec sp, mean_mulVec vN, hp0, h.v_mean, Matrix.mulVec_zero, Matrix.mulVec_zero,
        sub_self]
    have hold : ∀ j < N, secondMoment μ (fun ω => F *ᵥ perrAt x P d u X w v N ω - K *ᵥ v N ω) (measurementAt d u X w v j) = 0 := by
      intro j hj
      have pj := past_meas (u := u) h N j hj
      have wy : secondMoment μ (w N) (measurementAt d u X w v j) = 0 := by
        rw [← moment_transpose, pj.hw N le_rfl, Matrix.transpose_zero]
      have vy : secondMoment μ (v N) (measurementAt d u X w v j) = 0 := by
        rw [← moment_transpose, pj.hv N le_rfl, Matrix.transpose_zero]
      rw [key pj.sq, vy, show perrAt x P d u X w v N = fun ω => (d N).A *ᵥ errAt x P d u X w v N ω + w N ω from rfl,
        moment_add (se.mulVec _) wN pj.sq, moment_mulVec se pj.sq, hy j hj, wy]
      simp
    refine ⟨by rw [e]; exact h0', ?_, ?_⟩
    · rw [e, key se', moment_sub_right sp (sp.mulVec F) (vN.mulVec K), moment_sub_right vN (sp.mulVec F) (vN.mulVec K),
        moment_mulVec_right sp sp, moment_mulVec_right sp vN, moment_mulVec_right vN sp, moment_mulVec_right vN vN,
        hpp, hpv, hvp, h.v_cov]
      have e2 : covAt P d (N + 1) = joseph K (d N).C (d N).R (preAt P d N) := by
        rw [hK, gainAt, joseph_gain (hd N).2 hM]
        rfl
      rw [e2, joseph, ← hF]
      simp only [Matrix.zero_mul, _root_.sub_zero, zero_sub, Matrix.mul_neg, sub_neg_eq_add, Matrix.mul_assoc]
    · intro j hj
      rw [e]
      rcases Nat.lt_succ_iff_lt_or_eq.1 hj with hj' | rfl
      · exact hold j hj'
      · have hest := perp_est (u := u) h j se' h0' hold
        have s1 := (sp.mulVec (d j).C).add vN
        have s2 := (sest.mulVec (d j).A).mulVec (d j).C
        have sc : SquareIntegrable μ (fun _ : Ω => (d j).C *ᵥ ((d j).B *ᵥ u j) + (d j).D *ᵥ u (j + 1)) := .const _
        have em : measurementAt d u X w v j = _ := funext fun ω => measurementAt_pred x P d u X w v j ω
        rw [em, moment_add_right se' s1 (s2.add sc), moment_add_right se' s2 sc, moment_mulVec_right se' (sest.mulVec _),
          moment_mulVec_right se' sest, hest, moment_const_right _ _ h0', key s1,
          moment_add_right sp (sp.mulVec _) vN, moment_add_right vN (sp.mulVec _) vN, moment_mulVec_right sp sp,
          moment_mulVec_right vN sp, hpp, hpv, hvp, h.v_cov]
        simp only [Matrix.zero_mul, add_zero, zero_add]
        rw [hF, hK, ← Matrix.mul_assoc]
        exact gain_orth h hP hd j

end

end StateObs.KFSpec
