import Verif.Lipm.Reach
/-!
# C25, C26: the limit on the bias

The histories are: a new estimator, then any list of method calls; all orientations given are rotations.
-/

namespace StateObs.Lipm
open StateObs Matrix KF KFSpec Blocks

/-- The limits are either both positive or both absent. -/
def TwoSided (l : Fin 2 → ℝ) : Prop := (∀ i, 0 < l i) ∨ (∀ i, l i ≤ 0)

/-- The call does not configure a limit on a single axis. -/
def Op.TwoSided : Op → Prop
  | .setBiasLimit l => Lipm.TwoSided l
  | _ => True

theorem twoSided_after {c : Conf} (h : TwoSided c.limit) {o : Op} (ho : o.TwoSided) : TwoSided (c.after o).limit := by
  cases o <;> first | exact h | exact ho

theorem Rep.update_ok {s : Est} {v : View} (h : Rep s v) (hg : v.Good) (hl : TwoSided v.biasLimit) : ∃ s', Lipm.update s = .ok s' := by
  rcases hl with hl | hl
  · obtain ⟨s', h1, -⟩ := h.update_limited hg hl
    exact ⟨s', h1⟩
  · obtain ⟨s', h1, -⟩ := h.update_free hg hl
    exact ⟨s', h1⟩

theorem Rep.exec_ok {s : Est} {v : View} {c : Conf} (h : Rep s v) (hg : v.Good) (hs : Shape v c) (hl : TwoSided c.limit) (o : Op) :
    ∃ s' v', Lipm.exec s o = .ok s' ∧ v.exec o = .ok v' ∧ Rep s' v' := by
  rcases h.exec hg o with h' | ⟨h1, h2⟩
  · exact h'
  · exfalso
    have hu : ∃ v', v.update = .ok v' := by
      unfold View.update
      rw [hs.limit]
      rcases hl with hl | hl
      · exact ⟨_, by rw [if_pos (Or.inl (hl 0)), if_pos ⟨hl 0, hl 1⟩]⟩
      · refine ⟨_, by rw [if_neg]; rintro (h | h) <;> [have := hl 0; have := hl 1] <;> linarith⟩
    obtain ⟨v', hu⟩ := hu
    cases o
    case update => rw [View.exec, hu] at h2; cases h2
    case setInputs dcm zmp R =>
      rw [View.exec, hu] at h2
      split_ifs at h2 <;> cases h2
    all_goals cases h2

/-- No method fails as long as no limit on a single axis is configured. -/
theorem C25_defined (c : Conf) (hc : c.ori = 1) (hstd : c.dcmStd ≠ 0) (hl : TwoSided c.limit) (dcm bias dcmUnc biasUnc : Fin 2 → ℝ)
    (ops : List Op) (hops : ∀ o ∈ ops, o.TwoSided) : ∃ s, createRun c dcm bias dcmUnc biasUnc ops = .ok s := by
  obtain ⟨s0, h1, h2⟩ := rep_new c.dt c.omega0 c.driftStd c.dcmStd c.zmpStd c.limit c.zmp dcm bias dcmUnc biasUnc
  have key : ∀ (ops : List Op), (∀ o ∈ ops, o.TwoSided) → ∀ (s : Est) (v : View) (c : Conf), TwoSided c.limit → Rep s v → v.Good →
      Shape v c → ∃ s', ops.foldlM exec s = .ok s' := by
    intro ops
    induction ops with
    | nil => intro _ s _ _ _ _ _ _; exact ⟨s, rfl⟩
    | cons o os ih =>
      intro ho s v c hl hr hg hs
      obtain ⟨s', v', h3, h4, h5⟩ := hr.exec_ok hg hs hl o
      rw [List.foldlM_cons, h3]
      exact ih (fun o' h' => ho o' (by simp [h'])) s' v' _ (twoSided_after hl (ho o (by simp))) h5 (hg.exec o h4) (hs.exec o h4)
  simp only [createRun, create, h1, Res.ok_bind]
  exact key ops hops s0 _ c hl h2 (good_new _ _ _ _ _ _ _ _ _ _ _ hstd) (shape_new c hc dcm bias dcmUnc biasUnc)

/-- With a positive limit on both axes, the local bias is within the limit after an update, whatever happened before.
Missing from the full claim: a limit on one axis only, see `C25_false`. -/
theorem C25_partial (c : Conf) (hc : c.ori = 1) (hstd : c.dcmStd ≠ 0) (dcm bias dcmUnc biasUnc : Fin 2 → ℝ) (ops : List Op)
    (hrot : ∀ o ∈ ops, o.Rot) (s : Est) (h : createRun c dcm bias dcmUnc biasUnc ops = .ok s)
    (hl : ∀ i, 0 < (c.afterAll ops).limit i) :
    ∃ s' b, update s = .ok s' ∧ getLocalBias s' = .ok b ∧ ∀ i, |b i| ≤ (c.afterAll ops).limit i := by
  obtain ⟨v, hr, hg, hs, -⟩ := reach hc hstd h
  rw [← hs.limit] at hl
  obtain ⟨s', h1, h2⟩ := hr.update_limited hg hl
  refine ⟨s', _, h1, h2.getLocalBias, fun i => ?_⟩
  have ho : v.previousOrientationᵀ * v.previousOrientation = 1 := by
    rw [hs.ori]
    exact rot_afterAll (by rw [hc]; simp) hrot
  have e : v.estimate.clamp.previousOrientationᵀ *ᵥ tail v.estimate.clamp.x =
      fun i => clampScalar ((v.previousOrientationᵀ *ᵥ tail v.estimate.x) i) (v.biasLimit i) := by
    show v.previousOrientationᵀ *ᵥ tail (vcat _ (v.previousOrientation *ᵥ _)) = _
    rw [tail_vcat, mulVec_mulVec, ho, one_mulVec]
    rfl
  rw [e, ← hs.limit]
  exact clampScalar_abs _ (hl i)

/-- Without a limit, `update` is the update of the filter, nothing more. -/
theorem C25_unlimited (c : Conf) (hc : c.ori = 1) (hstd : c.dcmStd ≠ 0) (dcm bias dcmUnc biasUnc : Fin 2 → ℝ) (ops : List Op)
    (s : Est) (h : createRun c dcm bias dcmUnc biasUnc ops = .ok s) (hl : ∀ i, (c.afterAll ops).limit i ≤ 0) :
    ∃ f t, Obs.estimateState (cfg s.filter) (oneStep LKF.virt) s.filter = .ok (f, t) ∧ update s = .ok { s with filter := f } := by
  obtain ⟨v, hr, hg, hs, -⟩ := reach hc hstd h
  obtain ⟨f, t, h1, -⟩ := hr.estimate hg
  refine ⟨f, t, h1, ?_⟩
  rw [← hs.limit, ← hr.biasLimit] at hl
  have hn : ¬ (s.biasLimit 0 > 0 ∨ s.biasLimit 1 > 0) := by
    have h0 := hl 0
    have h1 := hl 1
    rintro (h | h) <;> linarith
  unfold update
  rw [h1]
  simp only [Res.ok_bind]
  rw [if_neg hn]

/-- The full claim is false: with a limit on one axis only, every update reads an uninitialised number. -/
theorem C25_false (c : Conf) (hc : c.ori = 1) (hstd : c.dcmStd ≠ 0) (dcm bias dcmUnc biasUnc : Fin 2 → ℝ) (ops : List Op)
    (s : Est) (h : createRun c dcm bias dcmUnc biasUnc ops = .ok s) (hl : ¬ TwoSided (c.afterAll ops).limit) : update s = .ub := by
  obtain ⟨v, hr, hg, hs, -⟩ := reach hc hstd h
  rw [← hs.limit] at hl
  rcases hr.update hg with ⟨s', v', h1, h2, h3⟩ | ⟨h1, -⟩
  · exfalso
    apply hl
    unfold View.update at h2
    split_ifs at h2 with h4 h5
    · exact Or.inl fun i => by fin_cases i; exacts [h5.1, h5.2]
    · refine Or.inr fun i => ?_
      rw [not_or] at h4
      fin_cases i
      · exact not_lt.1 h4.1
      · exact not_lt.1 h4.2
  · exact h1

/-- The estimates of an estimator. -/
noncomputable def estimates (s : Est) : Res ((Fin 2 → ℝ) × (Fin 2 → ℝ)) := do
  let dcm ← getUnbiasedDCM s
  let b ← getBias s
  .ok (dcm, b)

/-- An update without limits and the same update with limits, the last orientation being `R`: if `(ξ, b)` are the estimates without
limits then `b` is replaced by the rotated clamped local bias, and the sum of DCM and bias changes by `(1 - R)(l - c)`, where `l = Rᵀ b`
and `c` is `l` clamped. -/
theorem C26_exact (c : Conf) (hc : c.ori = 1) (hstd : c.dcmStd ≠ 0) (dcm bias dcmUnc biasUnc : Fin 2 → ℝ) (ops : List Op)
    (hrot : ∀ o ∈ ops, o.Rot) (s : Est) (h : createRun c dcm bias dcmUnc biasUnc ops = .ok s) (hl : ∀ i, 0 < (c.afterAll ops).limit i) :
    ∃ s0 s1 ξ0 b0 ξ1 b1, update { s with biasLimit := 0 } = .ok s0 ∧ estimates s0 = .ok (ξ0, b0) ∧
      update s = .ok s1 ∧ estimates s1 = .ok (ξ1, b1) ∧
      ∃ cl : Fin 2 → ℝ, (∀ i, cl i = max (-(c.afterAll ops).limit i) (min ((c.afterAll ops).limit i) (((c.afterAll ops).oriᵀ *ᵥ b0) i))) ∧
        b1 = (c.afterAll ops).ori *ᵥ cl ∧
        ξ1 + b1 = ξ0 + b0 + (1 - (c.afterAll ops).ori) *ᵥ ((c.afterAll ops).oriᵀ *ᵥ b0 - cl) := by
  obtain ⟨v, hr, hg, hs, -⟩ := reach hc hstd h
  have hl' := hl
  rw [← hs.limit] at hl'
  have hr0 : Rep { s with biasLimit := 0 } { v with biasLimit := 0 } :=
    ⟨hr.1, hr.2, hr.3, hr.4, hr.5, rfl, hr.7, hr.8, hr.9, hr.10, hr.11, hr.12, hr.13⟩
  obtain ⟨s0, h1, h2⟩ := hr0.update_free ⟨hg.P, hg.q, hg.R⟩ (fun i => le_refl _)
  obtain ⟨s1, h3, h4⟩ := hr.update_limited hg hl'
  have e1 : estimates s0 = .ok (head v.estimate.x, tail v.estimate.x) := by
    rw [estimates, h2.getUnbiasedDCM, h2.getBias]; rfl
  have e2 : estimates s1 = .ok (head v.estimate.clamp.x, tail v.estimate.clamp.x) := by
    rw [estimates, h4.getUnbiasedDCM, h4.getBias]; rfl
  refine ⟨s0, s1, _, _, _, _, h1, e1, h3, e2, fun i => clampScalar ((v.previousOrientationᵀ *ᵥ tail v.estimate.x) i) (v.biasLimit i),
    fun i => ?_, ?_, ?_⟩
  · rw [← hs.limit, ← hs.ori]
    have := hl' i
    show clampScalar ((v.previousOrientationᵀ *ᵥ tail v.estimate.x) i) (v.biasLimit i) = _
    unfold clampScalar clampScalar3
    set q := (v.previousOrientationᵀ *ᵥ tail v.estimate.x) i
    split_ifs with h5 h6
    · rw [min_eq_left (le_of_lt h5), max_eq_right (by linarith)]
    · rw [min_eq_right (by linarith), max_eq_left (le_of_lt h6)]
    · rw [min_eq_right (by linarith), max_eq_right (by linarith)]
  · show tail (vcat _ (v.previousOrientation *ᵥ _)) = _
    rw [tail_vcat, ← hs.ori]
    rfl
  · have ho : v.previousOrientation * v.previousOrientationᵀ = 1 := by
      rw [hs.ori]
      exact mul_eq_one_comm.1 (rot_afterAll (by rw [hc]; simp) hrot)
    show head (vcat _ _) + tail (vcat _ (v.previousOrientation *ᵥ _)) = _
    rw [head_vcat, tail_vcat, ← hs.ori, sub_mulVec, one_mulVec, mulVec_sub, mulVec_mulVec, ho, one_mulVec]
    show head v.estimate.x + v.previousOrientationᵀ *ᵥ tail v.estimate.x - _ + v.previousOrientation *ᵥ _ = _
    abel

/-- A rotation of the plane, by angle other than zero, moves every nonzero vector. -/
theorem rot2_fix {R : Matrix (Fin 2) (Fin 2) ℝ} (h : Rᵀ * R = 1) (hd : R.det = 1) (hR : R ≠ 1) {w : Fin 2 → ℝ}
    (hw : (1 - R) *ᵥ w = 0) : w = 0 := by
  have a1 := congrFun (congrFun h 0) 0
  have a2 := congrFun (congrFun h 0) 1
  have a3 := congrFun (congrFun h 1) 1
  have w0 := congrFun hw 0
  have w1 := congrFun hw 1
  simp [Matrix.mul_apply, Fin.sum_univ_two] at a1 a2 a3
  simp [mulVec, dotProduct, Fin.sum_univ_two] at w0 w1
  rw [det_fin_two] at hd
  have e0 : (R 0 0 - R 1 1) ^ 2 + (R 0 1 + R 1 0) ^ 2 = 0 := by linear_combination a1 + a3 - 2 * hd
  have e1 : R 0 0 = R 1 1 := by
    have : (R 0 0 - R 1 1) ^ 2 = 0 := by nlinarith [sq_nonneg (R 0 0 - R 1 1), sq_nonneg (R 0 1 + R 1 0)]
    linarith [pow_eq_zero_iff (two_ne_zero) |>.1 this]
  have e2 : R 0 1 = -R 1 0 := by
    have : (R 0 1 + R 1 0) ^ 2 = 0 := by nlinarith [sq_nonneg (R 0 0 - R 1 1), sq_nonneg (R 0 1 + R 1 0)]
    linarith [pow_eq_zero_iff (two_ne_zero) |>.1 this]
  have hne : R 0 0 ≠ 1 := by
    intro h1
    apply hR
    have hb : R 1 0 = 0 := by
      have : R 1 0 * R 1 0 = 0 := by rw [h1] at a1; linarith
      exact mul_self_eq_zero.1 this
    ext i j
    fin_cases i <;> fin_cases j <;> simp
    · exact h1
    · rw [e2, hb]; simp
    · exact hb
    · rw [← e1]; exact h1
  rw [e2] at w0
  rw [← e1] at w1
  have hdet : (1 - R 0 0) * (1 - R 0 0) + R 1 0 * R 1 0 ≠ 0 := by
    intro h0
    have : 1 - R 0 0 = 0 := by nlinarith [mul_self_nonneg (1 - R 0 0), mul_self_nonneg (R 1 0)]
    exact hne (by linarith)
  ext i
  fin_cases i
  · have : ((1 - R 0 0) * (1 - R 0 0) + R 1 0 * R 1 0) * w 0 = 0 := by linear_combination (1 - R 0 0) * w0 - R 1 0 * w1
    exact (mul_eq_zero.1 this).resolve_left hdet
  · have : ((1 - R 0 0) * (1 - R 0 0) + R 1 0 * R 1 0) * w 1 = 0 := by linear_combination (1 - R 0 0) * w1 + R 1 0 * w0
    exact (mul_eq_zero.1 this).resolve_left hdet

/-- Exactly when the sum of DCM and bias is preserved: when the last orientation is the identity, or when the local bias is within the
limits so that nothing is clamped. Missing from the full claim: the other cases, in which it is false. -/
theorem C26_partial (c : Conf) (hc : c.ori = 1) (hstd : c.dcmStd ≠ 0) (dcm bias dcmUnc biasUnc : Fin 2 → ℝ) (ops : List Op)
    (hrot : ∀ o ∈ ops, o.Rot) (hdet : (c.afterAll ops).ori.det = 1) (s : Est)
    (h : createRun c dcm bias dcmUnc biasUnc ops = .ok s) (hl : ∀ i, 0 < (c.afterAll ops).limit i) :
    ∃ s0 s1 ξ0 b0 ξ1 b1 l0, update { s with biasLimit := 0 } = .ok s0 ∧ estimates s0 = .ok (ξ0, b0) ∧ getLocalBias s0 = .ok l0 ∧
      update s = .ok s1 ∧ estimates s1 = .ok (ξ1, b1) ∧
      (ξ1 + b1 = ξ0 + b0 ↔ (c.afterAll ops).ori = 1 ∨ ∀ i, |l0 i| ≤ (c.afterAll ops).limit i) := by
  obtain ⟨v, hr, hg, hs, -⟩ := reach hc hstd h
  obtain ⟨s0, s1, ξ0, b0, ξ1, b1, h1, h2, h3, h4, cl, h5, h6, h7⟩ := C26_exact c hc hstd dcm bias dcmUnc biasUnc ops hrot s h hl
  have hr0 : Rep { s with biasLimit := 0 } { v with biasLimit := 0 } :=
    ⟨hr.1, hr.2, hr.3, hr.4, hr.5, rfl, hr.7, hr.8, hr.9, hr.10, hr.11, hr.12, hr.13⟩
  obtain ⟨s0', h1', h2'⟩ := hr0.update_free ⟨hg.P, hg.q, hg.R⟩ (fun i => le_refl _)
  rw [h1] at h1'
  cases h1'
  have hb : b0 = tail v.estimate.x := by
    rw [estimates, h2'.getUnbiasedDCM, h2'.getBias] at h2
    cases h2
    rfl
  have hl0 : getLocalBias s0 = .ok ((c.afterAll ops).oriᵀ *ᵥ b0) := by
    rw [h2'.getLocalBias, hb, ← hs.ori]
    rfl
  refine ⟨s0, s1, ξ0, b0, ξ1, b1, _, h1, h2, hl0, h3, h4, ?_⟩
  have hcl : (∀ i, |((c.afterAll ops).oriᵀ *ᵥ b0) i| ≤ (c.afterAll ops).limit i) ↔ (c.afterAll ops).oriᵀ *ᵥ b0 - cl = 0 := by
    constructor
    · intro ha
      ext i
      have := abs_le.1 (ha i)
      rw [Pi.sub_apply, h5 i, min_eq_right this.2, max_eq_right this.1]
      simp
    · intro ha i
      have := congrFun ha i
      rw [Pi.sub_apply, h5 i, Pi.zero_apply, sub_eq_zero] at this
      rw [this, abs_le]
      exact ⟨le_max_left _ _, max_le (by linarith [hl i]) (min_le_left _ _)⟩
  rw [hcl, h7]
  constructor
  · intro he
    have h0 : (1 - (c.afterAll ops).ori) *ᵥ ((c.afterAll ops).oriᵀ *ᵥ b0 - cl) = 0 := by simpa using he
    by_cases hR : (c.afterAll ops).ori = 1
    · exact Or.inl hR
    · exact Or.inr (rot2_fix (rot_afterAll (by rw [hc]; simp) hrot) hdet hR h0)
  · rintro (hR | hR)
    · rw [hR]; simp
    · rw [hR]; simp

/-- A quarter turn. -/
def quarter : Matrix (Fin 2) (Fin 2) ℝ := !![0, -1; 1, 0]

theorem quarter_rot : quarterᵀ * quarter = 1 := by
  ext i j
  fin_cases i <;> fin_cases j <;> simp [quarter, Matrix.mul_apply, Fin.sum_univ_two]

/-- Limits of one on both axes, everything else one. -/
def conf1 : Conf := ⟨1, 1, 1, 1, 1, fun _ => 1, 0, 1⟩

/-- The full claim is false: bias `(0, 2)`, limits 1, the robot turned by a quarter: the sum goes from `(0, 2)` to `(1, 1)`. -/
theorem C26_false : ∃ (ops : List Op) (s s0 s1 : Est), (∀ o ∈ ops, o.Rot) ∧ createRun conf1 0 0 0 0 ops = .ok s ∧
    update { s with biasLimit := 0 } = .ok s0 ∧ update s = .ok s1 ∧
    estimates s0 = .ok (0, ![0, 2]) ∧ estimates s1 = .ok (![1, 0], ![0, 1]) := by
  obtain ⟨s0, h1, h2⟩ := rep_new 1 1 1 1 1 (fun _ => 1) 0 0 0 0 0
  have hg0 := good_new 1 1 1 1 1 (fun _ => 1) 0 0 0 0 0 one_ne_zero
  obtain ⟨s, h3, h4⟩ := h2.reset 0 0 quarter false ![0, 2] 0
  have hg : (View.reset _ 0 0 quarter false ![0, 2] 0).Good := hg0.exec (.resetWithMeasurements 0 0 quarter false ![0, 2] 0) rfl
  refine ⟨[.resetWithMeasurements 0 0 quarter false ![0, 2] 0], s, ?_⟩
  obtain ⟨s1, h5, h6⟩ := h4.update_limited hg (fun i => one_pos)
  have hr0 : Rep { s with biasLimit := 0 } { (viewNew 1 1 1 1 1 (fun _ => 1) 0 0 0 0 0).reset 0 0 quarter false ![0, 2] 0 with biasLimit := 0 } :=
    ⟨h4.1, h4.2, h4.3, h4.4, h4.5, rfl, h4.7, h4.8, h4.9, h4.10, h4.11, h4.12, h4.13⟩
  obtain ⟨s2, h7, h8⟩ := hr0.update_free ⟨hg.P, hg.q, hg.R⟩ (fun i => le_refl _)
  refine ⟨s2, s1, by simp [Op.Rot, quarter_rot], ?_, h7, h5, ?_, ?_⟩
  · simp only [createRun, create, conf1, h1, Res.ok_bind, List.foldlM_cons, exec, h3]
    rfl
  · rw [estimates, h8.getUnbiasedDCM, h8.getBias]
    simp only [Res.ok_bind]
    show Res.ok (head (vcat 0 ![0, 2]), tail (vcat 0 ![0, 2])) = _
    rw [head_vcat, tail_vcat]
  · have hl : quarterᵀ *ᵥ (![0, 2] : Fin 2 → ℝ) = ![2, 0] := by
      ext i; fin_cases i <;> simp [quarter, mulVec, dotProduct, Fin.sum_univ_two]
    have hcl : (fun i => clampScalar ((![2, 0] : Fin 2 → ℝ) i) 1) = ![1, 0] := by
      ext i; fin_cases i <;> norm_num [clampScalar, clampScalar3]
    have hx : (View.estimate (View.reset (viewNew 1 1 1 1 1 (fun _ => 1) 0 0 0 0 0) 0 0 quarter false ![0, 2] 0)).clamp.x =
        vcat ![1, 0] ![0, 1] := by
      show vcat (head (vcat 0 ![0, 2]) + quarterᵀ *ᵥ tail (vcat 0 ![0, 2]) - fun i => clampScalar ((quarterᵀ *ᵥ tail (vcat 0 ![0, 2])) i) 1)
        (quarter *ᵥ fun i => clampScalar ((quarterᵀ *ᵥ tail (vcat 0 ![0, 2])) i) 1) = _
      rw [head_vcat, tail_vcat, hl, hcl]
      congr 1
      · ext i; fin_cases i <;> norm_num
      · ext i; fin_cases i <;> simp [quarter, mulVec, dotProduct, Fin.sum_univ_two]
    rw [estimates, h6.getUnbiasedDCM, h6.getBias, hx, head_vcat, tail_vcat]
    rfl

/-- Non-vacuity: histories with rotations, new measurements and an update meet the hypotheses of `C25_partial` and `C26_partial`. -/
example : ∃ s, createRun conf1 0 0 0 0 [.setInputs ![1, 2] ![3, 4] quarter, .update, .setInputs ![5, 6] ![7, 8] 1] = .ok s ∧
    (∀ i, 0 < (conf1.afterAll [.setInputs ![1, 2] ![3, 4] quarter, .update, .setInputs ![5, 6] ![7, 8] 1]).limit i) ∧
    ∀ o ∈ [Op.setInputs ![1, 2] ![3, 4] quarter, .update, .setInputs ![5, 6] ![7, 8] 1], o.Rot := by
  obtain ⟨s, h⟩ := C25_defined conf1 rfl one_ne_zero (Or.inl fun _ => one_pos) 0 0 0 0
    [.setInputs ![1, 2] ![3, 4] quarter, .update, .setInputs ![5, 6] ![7, 8] 1] (by simp [Op.TwoSided])
  refine ⟨s, h, fun _ => one_pos, ?_⟩
  simp [Op.Rot, quarter_rot]

/-- Non-vacuity of `C25_false`: a limit on the first axis only. -/
example : ∃ s, createRun conf1 0 0 0 0 [.setBiasLimit ![1, 0]] = .ok s ∧ ¬ TwoSided (conf1.afterAll [.setBiasLimit ![1, 0]]).limit := by
  obtain ⟨s0, h1, -⟩ := rep_new 1 1 1 1 1 (fun _ => 1) 0 0 0 0 0
  refine ⟨{ s0 with biasLimit := ![1, 0] }, ?_, ?_⟩
  · simp only [createRun, create, conf1, h1, Res.ok_bind]
    rfl
  · rintro (h | h)
    · exact lt_irrefl _ (h 1)
    · exact absurd (h 0) (not_le.2 one_pos)

end StateObs.Lipm
