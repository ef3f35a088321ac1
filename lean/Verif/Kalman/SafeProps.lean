import Verif.Kalman.StableLemmas
import Verif.Kalman.OptimalProps
/-!
# Property C119: the covariance of the linear Kalman filter is safe

It bounds the real error if the noises are at most as large as the user said; it increases with the covariances the user gives, and with the
measurements the user withholds.
-/

namespace StateObs.KFSpec
open Matrix MeasureTheory
variable {n m p : ℕ} {Ω : Type} [MeasurableSpace Ω]

/-- The noises are at most as large as announced: the initial error `X - x` has a matrix of second moments at most `P` (its mean need not be
zero), the process noise of time `k` has mean zero and covariance at most `Q k`, the measurement noise at most `R k`; no correlation. -/
structure AtMost (μ : Measure Ω) (x : Fin n → ℝ) (P : Matrix (Fin n) (Fin n) ℝ) (d : ℕ → LinModel n m p)
    (X : Ω → Fin n → ℝ) (w : ℕ → Ω → Fin n → ℝ) (v : ℕ → Ω → Fin m → ℝ) : Prop where
  X_sq : SquareIntegrable μ X
  w_sq : ∀ k, SquareIntegrable μ (w k)
  v_sq : ∀ k, SquareIntegrable μ (v k)
  w_mean : ∀ k, mean μ (w k) = 0
  v_mean : ∀ k, mean μ (v k) = 0
  X_le : Loewner (secondMoment μ (fun ω => X ω - x) (fun ω => X ω - x)) P
  w_le : ∀ k, Loewner (secondMoment μ (w k) (w k)) (d k).Q
  v_le : ∀ k, Loewner (secondMoment μ (v k) (v k)) (d k).R
  X_w : ∀ k, secondMoment μ X (w k) = 0
  X_v : ∀ k, secondMoment μ X (v k) = 0
  w_w : ∀ k l, k ≠ l → secondMoment μ (w k) (w l) = 0
  v_v : ∀ k l, k ≠ l → secondMoment μ (v k) (v l) = 0
  w_v : ∀ k l, secondMoment μ (w k) (v l) = 0

variable {μ : Measure Ω} {x : Fin n → ℝ} {P : Matrix (Fin n) (Fin n) ℝ} {d : ℕ → LinModel n m p} {u : ℕ → Fin p → ℝ}
  {X : Ω → Fin n → ℝ} {w : ℕ → Ω → Fin n → ℝ} {v : ℕ → Ω → Fin m → ℝ}

theorem joseph_mono_all {C : Matrix (Fin m) (Fin n) ℝ} {R R' : Matrix (Fin m) (Fin m) ℝ} {M M' : Matrix (Fin n) (Fin n) ℝ}
    (G : Matrix (Fin n) (Fin m) ℝ) (hR : Loewner R R') (hM : Loewner M M') : Loewner (joseph G C R M) (joseph G C R' M') :=
  Loewner.add (hM.conj _) (hR.conj _)

theorem predCov_mono_all {A Q Q' M M' : Matrix (Fin n) (Fin n) ℝ} (hQ : Loewner Q Q') (hM : Loewner M M') :
    Loewner (predCov A Q M) (predCov A Q' M') := Loewner.add (hM.conj _) hQ

/-- Two sets of data for the same `A` and `C`. -/
theorem cov_mono {n m p p' : ℕ} (d : ℕ → LinModel n m p) (d' : ℕ → LinModel n m p') (hd : ∀ N, (d N).Ok) (hd' : ∀ N, (d' N).Ok)
    (hA : ∀ N, (d N).A = (d' N).A) (hC : ∀ N, (d N).C = (d' N).C) (hQ : ∀ N, Loewner (d N).Q (d' N).Q) (hR : ∀ N, Loewner (d N).R (d' N).R)
    {P P' : Matrix (Fin n) (Fin n) ℝ} (hP : P.PosSemidef) (hP' : P'.PosSemidef) (h : Loewner P P') (N : ℕ) :
    Loewner (covAt P d N) (covAt P' d' N) := by
  induction N with
  | zero => exact h
  | succ N ih =>
    have hM := predCov_psd (A := (d N).A) (hd N).1 (covAt_psd P d hP hd N)
    have hM' := predCov_psd (A := (d' N).A) (hd' N).1 (covAt_psd P' d' hP' hd' N)
    have h1 := posterior_le_joseph (C := (d N).C) (hd N).2 hM (gain (d' N).C (d' N).R (predCov (d' N).A (d' N).Q (covAt P' d' N)))
    refine h1.trans ?_
    have h2 : covAt P' d' (N + 1) = joseph (gain (d' N).C (d' N).R (predCov (d' N).A (d' N).Q (covAt P' d' N))) (d' N).C (d' N).R
        (predCov (d' N).A (d' N).Q (covAt P' d' N)) := (joseph_gain (hd' N).2 hM').symm
    rw [h2, hC N, hA N]
    exact joseph_mono_all _ (hR N) (predCov_mono_all (hQ N) ih)

/-- Fewer measurements, or combinations of them. -/
theorem cov_combine {n m m' p p' : ℕ} (d : ℕ → LinModel n m p) (d' : ℕ → LinModel n m' p') (S : ℕ → Matrix (Fin m) (Fin m') ℝ)
    (hd : ∀ N, (d N).Ok) (hd' : ∀ N, (d' N).Ok) (hA : ∀ N, (d N).A = (d' N).A) (hQ : ∀ N, (d N).Q = (d' N).Q)
    (hC : ∀ N, (d N).C = S N * (d' N).C) (hR : ∀ N, (d N).R = S N * (d' N).R * (S N)ᵀ)
    {P : Matrix (Fin n) (Fin n) ℝ} (hP : P.PosSemidef) (N : ℕ) : Loewner (covAt P d' N) (covAt P d N) := by
  induction N with
  | zero => exact .refl _
  | succ N ih =>
    have hM := predCov_psd (A := (d N).A) (hd N).1 (covAt_psd P d hP hd N)
    have hM' := predCov_psd (A := (d' N).A) (hd' N).1 (covAt_psd P d' hP hd' N)
    set K := gain (d N).C (d N).R (predCov (d N).A (d N).Q (covAt P d N)) with hK
    have h1 := posterior_le_joseph (C := (d' N).C) (hd' N).2 hM' (K * S N)
    refine h1.trans ?_
    have h2 : covAt P d (N + 1) = joseph K (d N).C (d N).R (predCov (d N).A (d N).Q (covAt P d N)) := (joseph_gain (hd N).2 hM).symm
    have h3 : joseph K (d N).C (d N).R (predCov (d N).A (d N).Q (covAt P d N)) =
        joseph (K * S N) (d' N).C (d' N).R (predCov (d' N).A (d' N).Q (covAt P d N)) := by
      simp only [joseph, hC N, hR N, hA N, hQ N, Matrix.transpose_mul, Matrix.mul_assoc]
    rw [h2, h3]
    exact joseph_mono_all _ (.refl _) (predCov_mono ih)

/-- The real error. -/
theorem err_atMost [IsFiniteMeasure μ] (h : AtMost μ x P d X w v) (hP : P.PosSemidef) (hd : ∀ N, (d N).Ok) (N : ℕ) :
    Past μ w v N (errAt x P d u X w v N) ∧
      Loewner (secondMoment μ (errAt x P d u X w v N) (errAt x P d u X w v N)) (covAt P d N) := by
  induction N with
  | zero =>
    have hX : Past μ w v 0 X := ⟨h.X_sq, fun k _ => h.X_w k, fun k _ => h.X_v k⟩
    exact ⟨hX.sub h.w_sq h.v_sq (Past.const h.w_mean h.v_mean 0 x), h.X_le⟩
  | succ N ih =>
    obtain ⟨pe, hc⟩ := ih
    have se := pe.sq
    have wN := h.w_sq N
    have vN := h.v_sq N
    have pw : Past μ w v (N + 1) (w N) := ⟨wN, fun l hl => h.w_w N l (by omega), fun l _ => h.w_v N l⟩
    have pv : Past μ w v (N + 1) (v N) :=
      ⟨vN, fun l _ => by rw [← moment_transpose, h.w_v l N, Matrix.transpose_zero], fun l hl => h.v_v N l (by omega)⟩
    have pp : Past μ w v (N + 1) (perrAt x P d u X w v N) := ((pe.mono N.le_succ).mulVec h.w_sq h.v_sq (d N).A).add h.w_sq h.v_sq pw
    have sp := pp.sq
    have ewt : secondMoment μ (w N) (errAt x P d u X w v N) = 0 := by rw [← moment_transpose, pe.hw N le_rfl, Matrix.transpose_zero]
    have hpp : secondMoment μ (perrAt x P d u X w v N) (perrAt x P d u X w v N) =
        predCov (d N).A (secondMoment μ (w N) (w N)) (secondMoment μ (errAt x P d u X w v N) (errAt x P d u X w v N)) := by
      rw [show perrAt x P d u X w v N = fun ω => (d N).A *ᵥ errAt x P d u X w v N ω + w N ω from rfl,
        moment_add (se.mulVec _) wN ((se.mulVec _).add wN), moment_mulVec se ((se.mulVec _).add wN),
        moment_add_right se (se.mulVec _) wN, moment_add_right wN (se.mulVec _) wN, moment_mulVec_right se se,
        moment_mulVec_right wN se, ewt, pe.hw N le_rfl, predCov, Matrix.zero_mul, add_zero, zero_add,
        Matrix.mul_assoc]
    have hpv : secondMoment μ (perrAt x P d u X w v N) (v N) = 0 := by
      rw [show perrAt x P d u X w v N = fun ω => (d N).A *ᵥ errAt x P d u X w v N ω + w N ω from rfl,
        moment_add (se.mulVec _) wN vN, moment_mulVec se vN, pe.hv N le_rfl, h.w_v, Matrix.mul_zero, add_zero]
    have hvp : secondMoment μ (v N) (perrAt x P d u X w v N) = 0 := by rw [← moment_transpose, hpv, Matrix.transpose_zero]
    set K := gainAt P d N with hK
    set F := 1 - K * (d N).C with hF
    have e : errAt x P d u X w v (N + 1) = fun ω => F *ᵥ perrAt x P d u X w v N ω - K *ᵥ v N ω :=
      funext fun ω => errAt_succ x P d u X w v N ω
    have pe' : Past μ w v (N + 1) (fun ω => F *ᵥ perrAt x P d u X w v N ω - K *ᵥ v N ω) :=
      (pp.mulVec h.w_sq h.v_sq F).sub h.w_sq h.v_sq (pv.mulVec h.w_sq h.v_sq K)
    rw [e]
    refine ⟨pe', ?_⟩
    have hm : secondMoment μ (fun ω => F *ᵥ perrAt x P d u X w v N ω - K *ᵥ v N ω) (fun ω => F *ᵥ perrAt x P d u X w v N ω - K *ᵥ v N ω) =
        joseph K (d N).C (secondMoment μ (v N) (v N)) (predCov (d N).A (secondMoment μ (w N) (w N))
          (secondMoment μ (errAt x P d u X w v N) (errAt x P d u X w v N))) := by
      rw [moment_sub (sp.mulVec F) (vN.mulVec K) pe'.sq, moment_mulVec sp pe'.sq, moment_mulVec vN pe'.sq,
        moment_sub_right sp (sp.mulVec F) (vN.mulVec K), moment_sub_right vN (sp.mulVec F) (vN.mulVec K), moment_mulVec_right sp sp,
        moment_mulVec_right sp vN, moment_mulVec_right vN sp, moment_mulVec_right vN vN, hpv, hvp, ← hpp, joseph]
      simp only [Matrix.zero_mul, sub_zero, zero_sub, Matrix.mul_neg, sub_neg_eq_add, Matrix.mul_assoc]
      rfl
    have hM := predCov_psd (A := (d N).A) (hd N).1 (covAt_psd P d hP hd N)
    have h2 : covAt P d (N + 1) = joseph K (d N).C (d N).R (predCov (d N).A (d N).Q (covAt P d N)) := (joseph_gain (hd N).2 hM).symm
    rw [hm, h2]
    exact joseph_mono_all _ (h.v_le N) (predCov_mono_all (h.w_le N) hc)

end StateObs.KFSpec

namespace StateObs.LKF
open StateObs Matrix KFSpec KF MeasureTheory
variable {n m p : ℕ} {Ω : Type} [MeasurableSpace Ω]

/-- **C119**, bound on the real error. If the initial error and the noises are at most as large as what the filter was told, then at all times
the second moments of the error of the estimate are at most the covariance stored by the filter; in particular the mean square error in any
direction `a` is at most `aᵀ P a`. -/
theorem C119_conservative (μ : Measure Ω) [IsProbabilityMeasure μ] (s : KFilter Ext) (x : Fin n → ℝ) (P : Matrix (Fin n) (Fin n) ℝ) (k : Int)
    (hs : InUse s n m p x P k) (hP : P.PosSemidef) (d : ℕ → LinModel n m p) (hd : ∀ N, (d N).Ok) (u : ℕ → Fin p → ℝ)
    (X : Ω → Fin n → ℝ) (w : ℕ → Ω → Fin n → ℝ) (v : ℕ → Ω → Fin m → ℝ) (h : AtMost μ x P d X w v) (N : ℕ) :
    ∃ (s' : Ω → KFilter Ext) (xN : Ω → Fin n → ℝ) (PN : Matrix (Fin n) (Fin n) ℝ),
      (∀ ω, cycles d (sensorData d u (fun j => w j ω) (fun j => v j ω) (X ω)) s N = .ok (s' ω) ∧
        (s' ω).x = some (⟨n, xN ω⟩, k + N) ∧ (s' ω).st.pr = ⟨n, n, PN⟩) ∧
      Loewner (secondMoment μ (fun ω => stateAt d u X w N ω - xN ω) (fun ω => stateAt d u X w N ω - xN ω)) PN ∧
      ∀ a : Fin n → ℝ, ∫ ω, (a ⬝ᵥ (stateAt d u X w N ω - xN ω)) ^ 2 ∂μ ≤ a ⬝ᵥ PN *ᵥ a := by
  obtain ⟨s', h1⟩ := runs s x P k hs hP d hd u X w v N
  obtain ⟨h2, h3⟩ := err_atMost (u := u) h hP hd N
  refine ⟨s', estAt x P d u X w v N, covAt P d N, h1, h3, fun a => ?_⟩
  have h4 := integral_dot h2.sq h2.sq a a
  simp only [← pow_two] at h4
  exact h4.le.trans (qf_le h3 a)

/-- **C119**, monotony. Two filters with the same `A` and `C`, the second given larger covariances (initial, process, measurement): the
covariance stored by the second is the larger at all times, whatever the data of the two. -/
theorem C119_monotone {p' : ℕ} (s s' : KFilter Ext) (x x' : Fin n → ℝ) (P P' : Matrix (Fin n) (Fin n) ℝ) (k k' : Int)
    (hs : InUse s n m p x P k) (hs' : InUse s' n m p' x' P' k') (hP : P.PosSemidef) (hPP : Loewner P P')
    (d : ℕ → LinModel n m p) (d' : ℕ → LinModel n m p') (hd : ∀ N, (d N).Ok)
    (hA : ∀ N, (d' N).A = (d N).A) (hC : ∀ N, (d' N).C = (d N).C) (hQ : ∀ N, Loewner (d N).Q (d' N).Q) (hR : ∀ N, Loewner (d N).R (d' N).R)
    (i : ℕ → StepIn m p) (i' : ℕ → StepIn m p') (N : ℕ) :
    ∃ t t' PN PN', cycles d i s N = .ok t ∧ cycles d' i' s' N = .ok t' ∧ t.st.pr = ⟨n, n, PN⟩ ∧ t'.st.pr = ⟨n, n, PN'⟩ ∧ Loewner PN PN' := by
  have hP' : P'.PosSemidef := by
    have := hP.add hPP
    rwa [add_sub_cancel] at this
  have hd' : ∀ N, (d' N).Ok := fun N => ⟨by
    have := (hd N).1.add (hQ N)
    rwa [add_sub_cancel] at this, by
    have := (hd N).2.add_posSemidef (hR N)
    rwa [add_sub_cancel] at this⟩
  obtain ⟨t, h1, h2⟩ := C20_run s x P k hs hP d hd i N
  obtain ⟨t', h3, h4⟩ := C20_run s' x' P' k' hs' hP' d' hd' i' N
  refine ⟨t, t', covAt P d N, covAt P' d' N, h1, h3, by rw [h2.pr, covAt_eq x P d], by rw [h4.pr, covAt_eq x' P' d'], ?_⟩
  exact cov_mono d d' hd hd' (fun N => (hA N).symm) (fun N => (hC N).symm) hQ hR hP hP' hPP N

/-- **C119**, measurements. A filter that is given, at each time, only linear combinations `S y` of the measurements given to another – a part
of the sensors, for instance – has the larger covariance at all times. -/
theorem C119_sensors {m' p' : ℕ} (s s' : KFilter Ext) (x x' : Fin n → ℝ) (P : Matrix (Fin n) (Fin n) ℝ) (k k' : Int)
    (hs : InUse s n m p x P k) (hs' : InUse s' n m' p' x' P k') (hP : P.PosSemidef)
    (d : ℕ → LinModel n m p) (d' : ℕ → LinModel n m' p') (S : ℕ → Matrix (Fin m') (Fin m) ℝ) (hd : ∀ N, (d N).Ok) (hd' : ∀ N, (d' N).Ok)
    (hA : ∀ N, (d' N).A = (d N).A) (hQ : ∀ N, (d' N).Q = (d N).Q) (hC : ∀ N, (d' N).C = S N * (d N).C)
    (hR : ∀ N, (d' N).R = S N * (d N).R * (S N)ᵀ) (i : ℕ → StepIn m p) (i' : ℕ → StepIn m' p') (N : ℕ) :
    ∃ t t' PN PN', cycles d i s N = .ok t ∧ cycles d' i' s' N = .ok t' ∧ t.st.pr = ⟨n, n, PN⟩ ∧ t'.st.pr = ⟨n, n, PN'⟩ ∧ Loewner PN PN' := by
  obtain ⟨t, h1, h2⟩ := C20_run s x P k hs hP d hd i N
  obtain ⟨t', h3, h4⟩ := C20_run s' x' P k' hs' hP d' hd' i' N
  refine ⟨t, t', covAt P d N, covAt P d' N, h1, h3, by rw [h2.pr, covAt_eq x P d], by rw [h4.pr, covAt_eq x' P d'], ?_⟩
  exact cov_combine d' d S hd' hd hA hQ hC hR hP N

/-- The hypotheses on the noises are met by noises that are smaller than announced, and an initial estimate `x` that is biased. -/
example (A : ℕ → Matrix (Fin n) (Fin n) ℝ) (B : ℕ → Matrix (Fin n) (Fin p) ℝ) (C : ℕ → Matrix (Fin m) (Fin n) ℝ)
    (D : ℕ → Matrix (Fin m) (Fin p) ℝ) (x : Fin n → ℝ) :
    AtMost (white n m) x (1 + vecMulVec x x) (fun N => ⟨A N, B N, C N, D N, 1 + 1, 1 + 1⟩) (fun ω i => ω (.inl i))
      (fun j ω i => ω (.inr (.inl (j, i)))) (fun j ω i => ω (.inr (.inr (j, i)))) := by
  have sX : SquareIntegrable (white n m) (fun ω i => ω (.inl i)) := fun i => white_memLp _
  have sx : SquareIntegrable (white n m) (fun _ => x) := fun i => memLp_const _
  have mX : mean (white n m) (fun ω i => ω (.inl i)) = 0 := funext fun i => white_mean _
  constructor
  · exact sX
  · exact fun k i => white_memLp _
  · exact fun k i => white_memLp _
  · exact fun k => funext fun i => white_mean _
  · exact fun k => funext fun i => white_mean _
  · have e : secondMoment (white n m) (fun ω i => ω (.inl i)) (fun ω i => ω (.inl i)) = 1 := by
      ext i j; simp [secondMoment, white_moment, Matrix.one_apply]
    have e1 : secondMoment (white n m) (fun _ => x) (fun _ => x) = vecMulVec x x := by
      ext i j; simp [secondMoment, vecMulVec_apply]
    have e2 : secondMoment (white n m) (fun ω i => ω (.inl i)) (fun _ => x) = 0 := moment_const_right _ x mX
    have e3 : secondMoment (white n m) (fun _ => x) (fun ω i => ω (.inl i)) = 0 := moment_const_left _ x mX
    rw [show (fun (ω : Fin n ⊕ (ℕ × Fin n) ⊕ (ℕ × Fin m) → ℝ) => (fun i => ω (.inl i)) - x) =
        fun ω => (fun ω i => ω (.inl i)) ω - (fun _ => x) ω from rfl,
      moment_sub sX sx (sX.sub sx), moment_sub_right sX sX sx, moment_sub_right sx sX sx, e, e1, e2, e3]
    simp only [_root_.sub_zero, zero_sub, sub_neg_eq_add]
    exact .refl _
  · intro k
    have e : secondMoment (white n m) (fun ω i => ω (.inr (.inl (k, i)))) (fun ω i => ω (.inr (.inl (k, i)))) = 1 := by
      ext i j; simp [secondMoment, white_moment, Matrix.one_apply]
    rw [e]
    simpa [Loewner] using (PosSemidef.one : (1 : Matrix (Fin n) (Fin n) ℝ).PosSemidef)
  · intro k
    have e : secondMoment (white n m) (fun ω i => ω (.inr (.inr (k, i)))) (fun ω i => ω (.inr (.inr (k, i)))) = 1 := by
      ext i j; simp [secondMoment, white_moment, Matrix.one_apply]
    rw [e]
    simpa [Loewner] using (PosSemidef.one : (1 : Matrix (Fin m) (Fin m) ℝ).PosSemidef)
  · intro k; ext i j; simp [secondMoment, white_moment]
  · intro k; ext i j; simp [secondMoment, white_moment]
  · intro k l hkl; ext i j; simp [secondMoment, white_moment, hkl]
  · intro k l hkl; ext i j; simp [secondMoment, white_moment, hkl]
  · intro k l; ext i j; simp [secondMoment, white_moment]

/-- The hypotheses on the sensors are met: two sensors, of which the first only is used. -/
example : ∃ (d : LinModel 1 2 0) (d' : LinModel 1 1 0) (S : Matrix (Fin 1) (Fin 2) ℝ), d.Ok ∧ d'.Ok ∧ d'.A = d.A ∧ d'.Q = d.Q ∧
    d'.C = S * d.C ∧ d'.R = S * d.R * Sᵀ := by
  refine ⟨⟨1, 0, !![1; 2], 0, 1, 1⟩, ⟨1, 0, !![1], 0, 1, 1⟩, !![1, 0], ⟨PosSemidef.one, PosDef.one⟩, ⟨PosSemidef.one, PosDef.one⟩, rfl, rfl, ?_, ?_⟩
  · ext i j; fin_cases i; fin_cases j; simp [Matrix.mul_apply, Fin.sum_univ_two]
  · ext i j; fin_cases i; fin_cases j; simp [Matrix.mul_apply, Fin.sum_univ_two]

end StateObs.LKF
