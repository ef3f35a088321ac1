import Verif.Misc.Model
import Verif.Rot.Lemmas
import Mathlib.LinearAlgebra.Matrix.DotProduct
import Mathlib.Analysis.SpecificLimits.Basic
import Mathlib.Analysis.SpecialFunctions.Sqrt
import Mathlib.Analysis.SpecialFunctions.Pow.Real
/-!
# Properties C69, C70, C79 of the scalar helpers
-/

namespace StateObs.Misc
open StateObs Matrix Filter Topology

/-- **C69**, `clampScalar(x, max, min)`: the result lies in `[min, max]` and no number of that interval is closer to `x`. -/
theorem C69_clampScalar {x max min : ℝ} (h : min ≤ max) :
    min ≤ clampScalar x max min ∧ clampScalar x max min ≤ max ∧ ∀ y, min ≤ y → y ≤ max → |clampScalar x max min - x| ≤ |y - x| := by
  unfold clampScalar
  split_ifs with h1 h2
  · refine ⟨h, le_rfl, fun y _ h4 => ?_⟩
    rw [abs_of_neg (by linarith), abs_of_neg (by linarith)]; linarith
  · refine ⟨le_rfl, h, fun y h3 _ => ?_⟩
    rw [abs_of_pos (by linarith), abs_of_pos (by linarith)]; linarith
  · refine ⟨by linarith, by linarith, fun y _ _ => ?_⟩
    simp

/-- **C69**, `derivate`: the constant velocity that leads from the first value to the second in the time given. -/
theorem C69_derivate {n : ℕ} (o1 o2 : Fin n → ℝ) {dt : ℝ} (h : dt ≠ 0) : ∃ v, derivate o1 o2 dt = .ok v ∧ o1 + dt • v = o2 := by
  refine ⟨(1 / dt) • (o2 - o1), by simp [derivate, div, h], ?_⟩
  rw [smul_smul, mul_one_div_cancel h, one_smul, add_sub_cancel]

/-- **C69**, `clampScalar(x, limit)` with a non-negative limit. -/
theorem C69_clampLimit {x limit : ℝ} (h : 0 ≤ limit) :
    |clampLimit x limit| ≤ limit ∧ (|x| ≤ limit → clampLimit x limit = x) ∧ 0 ≤ clampLimit x limit * x := by
  unfold clampLimit clampScalar
  split_ifs with h1 h2
  · refine ⟨by rw [abs_of_nonneg h], fun hx => ?_, mul_nonneg h (by linarith)⟩
    have := le_abs_self x; linarith
  · refine ⟨by rw [abs_neg, abs_of_nonneg h], fun hx => ?_, mul_nonneg_of_nonpos_of_nonpos (by linarith) (by linarith)⟩
    have := neg_abs_le x; linarith
  · exact ⟨abs_le.2 ⟨by linarith, by linarith⟩, fun _ => rfl, mul_self_nonneg x⟩

/-- **C69**, `signum`. -/
theorem C69_signum (x : ℝ) : (signum x = 1 ↔ 0 < x) ∧ (signum x = 0 ↔ x = 0) ∧ (signum x = -1 ↔ x < 0) ∧ (signum x : ℝ) * |x| = x := by
  unfold signum
  rcases lt_trichotomy x 0 with h | h | h
  · have h1 : ¬ 0 < x := by linarith
    simp [h, h1, h.ne, abs_of_neg h]
  · simp [h]
  · have h1 : ¬ x < 0 := by linarith
    simp [h, h1, h.ne', abs_of_pos h]

/-- **C69**, `normalizedLazy`: for every non-zero vector it returns a vector with the same direction whose squared norm is one up to
`epsilon1`, and the vector itself when it is already normalised. -/
theorem C69_normalizedLazy {v : V3} (hv : v ≠ 0) :
    ∃ w c, normalizedLazy v = .ok w ∧ 0 < c ∧ w = (c : ℝ) • v ∧ |w ⬝ᵥ w - 1| ≤ Kine.epsilon1 ∧ (checkIfNormalized v → w = v) := by
  have hp : 0 < v ⬝ᵥ v := by
    have h0 : v ⬝ᵥ v ≠ 0 := fun h => hv (dotProduct_self_eq_zero.1 h)
    refine lt_of_le_of_ne ?_ h0.symm
    exact Finset.sum_nonneg fun i _ => mul_self_nonneg (v i)
  unfold normalizedLazy
  by_cases h : checkIfNormalized v
  · rw [if_pos h]
    exact ⟨v, 1, rfl, one_pos, (one_smul _ _).symm, not_lt.1 h, fun _ => rfl⟩
  · have hs : 0 < Real.sqrt (v ⬝ᵥ v) := Real.sqrt_pos.2 hp
    rw [if_neg h, if_neg hs.ne']
    refine ⟨_, (Real.sqrt (v ⬝ᵥ v))⁻¹, rfl, inv_pos.2 hs, ?_, ?_, fun hc => absurd hc h⟩
    · funext i; rw [Pi.smul_apply, smul_eq_mul, div_eq_inv_mul]
    · have : (fun i => v i / Real.sqrt (v ⬝ᵥ v)) = (Real.sqrt (v ⬝ᵥ v))⁻¹ • v := by
        funext i; rw [Pi.smul_apply, smul_eq_mul, div_eq_inv_mul]
      rw [this, smul_dotProduct, dotProduct_smul, smul_eq_mul, smul_eq_mul]
      have h2 : Real.sqrt (v ⬝ᵥ v) * Real.sqrt (v ⬝ᵥ v) = v ⬝ᵥ v := Real.mul_self_sqrt hp.le
      have h3 : (Real.sqrt (v ⬝ᵥ v))⁻¹ * ((Real.sqrt (v ⬝ᵥ v))⁻¹ * v ⬝ᵥ v) = 1 := by
        have := hs.ne'
        rw [← h2]
        field_simp
        rw [Real.sqrt_sq hs.le]
      rw [h3]
      simpa using Kine.epsilon1_pos.le

/-- **C69**: `checkIfNormalized` says yes exactly when the squared norm is one up to `epsilon1`; the zero vector cannot be normalised. -/
theorem C69_checkIfNormalized (v : V3) : (checkIfNormalized v ↔ |v ⬝ᵥ v - 1| ≤ Kine.epsilon1) ∧ normalizedLazy 0 = .ub := by
  refine ⟨not_lt, ?_⟩
  unfold normalizedLazy checkIfNormalized
  have := Kine.epsilon1_lt
  rw [if_neg, if_pos]
  · simp
  · simp
    linarith

/-- **C69**, the `constexpr` square root: whenever its recursion ends, the result is the square root of the argument. -/
theorem C69_sqrt_ends {x r : ℝ} (h : SqrtReturns x r) : r = Real.sqrt x := by
  obtain ⟨hx, h⟩ := h
  have key : ∀ c prev r, Ends x c prev r → (0 < prev ∧ c = newton x prev) ∨ (prev = 0 ∧ c = x) → 0 ≤ r ∧ r * r = x := by
    intro c prev r h
    induction h with
    | stop c =>
      rintro (⟨h1, h2⟩ | ⟨h1, h2⟩)
      · refine ⟨h1.le, ?_⟩
        unfold newton at h2
        field_simp at h2
        nlinarith
      · subst h1; subst h2; simp
    | step c prev r hne h0 hr ih =>
      intro hc
      refine ih (.inl ⟨?_, rfl⟩)
      rcases hc with ⟨h1, h2⟩ | ⟨h1, h2⟩
      · rw [h2]
        unfold newton
        positivity
      · subst h2
        exact lt_of_le_of_ne hx h0.symm
  obtain ⟨h1, h2⟩ := key x 0 r h (.inr ⟨rfl, rfl⟩)
  rw [← h2, Real.sqrt_mul_self h1]

/-- One step of the recursion from a positive number: not below the root, and at least twice closer when above it. -/
theorem newton_step {x c : ℝ} (hx : 0 ≤ x) (hc : 0 < c) :
    0 < newton x c ∧ Real.sqrt x ≤ newton x c ∧ (Real.sqrt x ≤ c → newton x c - Real.sqrt x ≤ (c - Real.sqrt x) / 2) := by
  have hr := Real.mul_self_sqrt hx
  have h0 := Real.sqrt_nonneg x
  set r := Real.sqrt x with hrdef
  have hn : newton x c = r + (c - r) ^ 2 / (2 * c) := by
    unfold newton
    rw [← hr]
    field_simp
    ring
  refine ⟨by unfold newton; positivity, by rw [hn]; have : 0 ≤ (c - r) ^ 2 / (2 * c) := by positivity
                                           linarith, fun h => ?_⟩
  rw [hn, add_sub_cancel_left, div_le_div_iff₀ (by positivity) (by positivity)]
  nlinarith

/-- **C69**, the `constexpr` square root of every positive number: its successive values converge to the square root, from above after the
first step, the distance being at least halved by every further step. -/
theorem C69_sqrt_converges {x : ℝ} (hx : 0 < x) :
    (∀ n, Real.sqrt x ≤ (newton x)^[n + 1] x ∧ (newton x)^[n + 1] x - Real.sqrt x ≤ (newton x x - Real.sqrt x) / 2 ^ n) ∧
    Tendsto (fun n => (newton x)^[n] x) atTop (𝓝 (Real.sqrt x)) := by
  have key : ∀ n, 0 < (newton x)^[n + 1] x ∧ Real.sqrt x ≤ (newton x)^[n + 1] x ∧
      (newton x)^[n + 1] x - Real.sqrt x ≤ (newton x x - Real.sqrt x) / 2 ^ n := by
    intro n
    induction n with
    | zero =>
      obtain ⟨h1, h2, -⟩ := newton_step hx.le hx
      exact ⟨h1, h2, by simp⟩
    | succ n ih =>
      obtain ⟨h1, h2, h3⟩ := ih
      obtain ⟨g1, g2, g3⟩ := newton_step hx.le h1
      rw [Function.iterate_succ_apply' (newton x) (n + 1)]
      refine ⟨g1, g2, (g3 h2).trans ?_⟩
      rw [pow_succ, ← div_div]
      linarith
  refine ⟨fun n => (key n).2, ?_⟩
  rw [← tendsto_add_atTop_iff_nat 1]
  have hb : Tendsto (fun n : ℕ => (newton x x - Real.sqrt x) / 2 ^ n) atTop (𝓝 0) := by
    have := (tendsto_pow_atTop_nhds_zero_of_lt_one (r := (1 / 2 : ℝ)) (by norm_num) (by norm_num)).const_mul (newton x x - Real.sqrt x)
    rw [mul_zero] at this
    refine this.congr fun n => ?_
    rw [one_div, inv_pow, div_eq_mul_inv]
  have := squeeze_zero (fun n => sub_nonneg.2 (key n).2.1) (fun n => (key n).2.2) hb
  simpa using this.add_const (Real.sqrt x)

/-- Non-vacuity: the recursion ends for the arguments zero and one. -/
example : SqrtReturns 0 0 ∧ SqrtReturns 1 1 :=
  ⟨⟨le_rfl, .stop 0⟩, ⟨zero_le_one, .step 1 0 1 one_ne_zero one_ne_zero (by
    have : newton 1 1 = 1 := by norm_num [newton]
    rw [this]; exact .stop 1)⟩⟩

/-! ### C70 -/

/-- **C70**, full statement for the scalar version: with negative gains the acceleration at rest points towards zero. -/
def C70_statement : Prop := ∀ x kp kv : ℝ, kp < 0 → kv < 0 → x ≠ 0 → ∃ a, finiteTimeAccControl x 0 kp kv = .ok a ∧ a * x < 0

theorem acc_eq {x : ℝ} (hx : x ≠ 0) (xd kp kv : ℝ) : finiteTimeAccControl x xd kp kv =
    .ok (-kv * signum (xd - kp * signum x * Real.sqrt |x|) * Real.sqrt (abs (xd - kp * signum x * Real.sqrt |x|)) - kp * xd / (2 * Real.sqrt |x|)) := by
  have : Real.sqrt |x| ≠ 0 := (Real.sqrt_pos.2 (abs_pos.2 hx)).ne'
  simp [finiteTimeAccControl, div, this]

theorem signum_mul_self (x : ℝ) (hx : x ≠ 0) : 0 < (signum x : ℝ) * x := by
  unfold signum
  rcases lt_or_gt_of_ne hx with h | h
  · have h1 : ¬ 0 < x := by linarith
    simp [h, h1]
  · have h1 : ¬ x < 0 := by linarith
    simp [h, h1]

theorem signum_signum_mul {c x : ℝ} (hc : 0 < c) : signum ((signum x : ℝ) * c) = signum x := by
  unfold signum
  rcases lt_trichotomy x 0 with h | h | h
  · have h1 : ¬ 0 < x := by linarith
    have h2 : ¬ c < 0 := by linarith
    simp [h, h1, hc, h2]
  · simp [h]
  · have h1 : ¬ x < 0 := by linarith
    have h2 : ¬ c < 0 := by linarith
    simp [h, h1, hc, h2]

theorem acc_rest {x kp : ℝ} (hx : x ≠ 0) (hp : kp < 0) (kv : ℝ) : ∃ c, 0 < c ∧ finiteTimeAccControl x 0 kp kv = .ok (-kv * c * signum x) := by
  have hs : 0 < Real.sqrt |x| := Real.sqrt_pos.2 (abs_pos.2 hx)
  have hk : 0 < -kp * Real.sqrt |x| := mul_pos (by linarith) hs
  have hy : 0 - kp * signum x * Real.sqrt |x| = (signum x : ℝ) * (-kp * Real.sqrt |x|) := by ring
  have hne : (signum x : ℝ) * (-kp * Real.sqrt |x|) ≠ 0 := by
    have := signum_mul_self x hx
    have h1 : (signum x : ℝ) ≠ 0 := fun h => by rw [h] at this; simp at this
    exact mul_ne_zero h1 hk.ne'
  refine ⟨Real.sqrt (abs ((signum x : ℝ) * (-kp * Real.sqrt |x|))), Real.sqrt_pos.2 (abs_pos.2 hne), ?_⟩
  rw [acc_eq hx, hy, signum_signum_mul hk]
  congr 1
  ring

/-- **C70** is false: for *all* negative gains and all non-zero positions the acceleration at rest points away from zero. -/
theorem C70_away {x kp kv : ℝ} (hx : x ≠ 0) (hp : kp < 0) (hv : kv < 0) : ∃ a, finiteTimeAccControl x 0 kp kv = .ok a ∧ 0 < a * x := by
  obtain ⟨c, hc, h⟩ := acc_rest hx hp kv
  refine ⟨_, h, ?_⟩
  have := mul_pos (mul_pos (neg_pos.2 hv) hc) (signum_mul_self x hx)
  rwa [← mul_assoc] at this

theorem C70_false : ¬ C70_statement := by
  intro h
  obtain ⟨a, h1, h2⟩ := h 1 (-1) (-1) (by norm_num) (by norm_num) one_ne_zero
  obtain ⟨b, h3, h4⟩ := C70_away (x := 1) (kp := -1) (kv := -1) one_ne_zero (by norm_num) (by norm_num)
  rw [h1] at h3
  cases h3
  linarith

/-- **C70** with a positive `kv` (against the documentation): the acceleration at rest points towards zero. -/
theorem C70_partial {x kp kv : ℝ} (hx : x ≠ 0) (hp : kp < 0) (hv : 0 < kv) : ∃ a, finiteTimeAccControl x 0 kp kv = .ok a ∧ a * x < 0 := by
  obtain ⟨c, hc, h⟩ := acc_rest hx hp kv
  refine ⟨_, h, ?_⟩
  have := mul_pos (mul_pos hv hc) (signum_mul_self x hx)
  rw [← mul_assoc] at this
  linarith

/-- At the target position the result is a division by zero, whatever the velocity and the gains. -/
theorem C70_at_zero (xd kp kv : ℝ) : finiteTimeAccControl 0 xd kp kv = .ub := by
  simp [finiteTimeAccControl, div]

/-- **C70**, why: let `r = kp·sign(x)·√|x|` be the reference velocity along a motion. The acceleration that makes the velocity error
`y = x' - r` obey the converging law `y' = kv·sign(y)·√|y|` is exactly the *opposite* of the value returned. -/
theorem C70_opposite {x : ℝ → ℝ} {t xd kp kv : ℝ} (hx : HasDerivAt x xd t) (h0 : x t ≠ 0) :
    ∃ a r', finiteTimeAccControl (x t) xd kp kv = .ok a ∧
      HasDerivAt (fun s => kp * signum (x s) * Real.sqrt |x s|) r' t ∧
      -a - r' = kv * signum (xd - kp * signum (x t) * Real.sqrt |x t|) * Real.sqrt (abs (xd - kp * signum (x t) * Real.sqrt |x t|)) := by
  have hs : 0 < Real.sqrt |x t| := Real.sqrt_pos.2 (abs_pos.2 h0)
  refine ⟨_, kp * xd / (2 * Real.sqrt |x t|), acc_eq h0 xd kp kv, ?_, by ring⟩
  rcases lt_or_gt_of_ne h0 with h | h
  · have hev : (fun s => kp * (signum (x s) : ℝ) * Real.sqrt |x s|) =ᶠ[𝓝 t] fun s => -kp * Real.sqrt (-x s) := by
      filter_upwards [hx.continuousAt.eventually (gt_mem_nhds h)] with s hs
      have h1 : ¬ 0 < x s := by linarith
      simp [signum, hs, h1, abs_of_neg hs]
    refine HasDerivAt.congr_of_eventuallyEq ?_ hev
    have := ((hx.neg).sqrt (by simpa using h0)).const_mul (-kp)
    convert! this using 1
    rw [abs_of_neg h, Pi.neg_apply]
    field_simp
  · have hev : (fun s => kp * (signum (x s) : ℝ) * Real.sqrt |x s|) =ᶠ[𝓝 t] fun s => kp * Real.sqrt (x s) := by
      filter_upwards [hx.continuousAt.eventually (lt_mem_nhds h)] with s hs
      have h1 : ¬ x s < 0 := by linarith
      simp [signum, hs, h1, abs_of_pos hs]
    refine HasDerivAt.congr_of_eventuallyEq ?_ hev
    have := (hx.sqrt h0).const_mul kp
    convert! this using 1
    rw [abs_of_pos h]
    field_simp

/-- **C70**, full statement for the vector version: every component is the scalar function of the components. -/
def C70_vector_statement : Prop := ∀ (x xd : List ℝ) (kp kv : ℝ) r, xd.length = x.length → finiteTimeAccControlVec x xd kp kv = .ok r →
  ∀ (i : ℕ) a b, x[i]? = some a → xd[i]? = some b → ∃ v, r[i]? = some (some v) ∧ finiteTimeAccControl a b kp kv = .ok v

theorem accLoop_spec (x xd : List ℝ) (kp kv : ℝ) (n : ℕ) : ∀ (r : List (Option ℝ)) (i : ℕ) r', r.length = x.length →
    accLoop x xd kp kv n r i = .ok r' → r'.length = x.length ∧ (∀ j, (j < i ∨ i + n ≤ j) → r'[j]? = r[j]?) ∧
    ∀ j, i ≤ j → j < i + n → ∃ a b v, x[j]? = some a ∧ xd[j]? = some b ∧ finiteTimeAccControl a b kp kv = .ok v ∧ r'[j]? = some (some v) := by
  induction n with
  | zero => intro r i r' hl h; cases h; exact ⟨hl, fun _ _ => rfl, fun j h1 h2 => by omega⟩
  | succ n ih =>
    intro r i r' hl h
    unfold accLoop at h
    split at h
    · next a b ha hb =>
      rw [Res.bind_eq_ok] at h
      obtain ⟨v, hv, h⟩ := h
      obtain ⟨e1, e2, e3⟩ := ih _ _ _ (by simpa using hl) h
      have hi : i < x.length := (List.getElem?_eq_some_iff.1 ha).1
      refine ⟨e1, fun j hj => ?_, fun j h1 h2 => ?_⟩
      · rw [e2 j (by omega), List.getElem?_set_ne (by omega)]
      · by_cases hj : j = i
        · subst hj
          refine ⟨a, b, v, ha, hb, hv, ?_⟩
          rw [e2 j (by omega), List.getElem?_set_self (by omega)]
        · exact e3 j (by omega) (by omega)
    · cases h

/-- **C70**, vector version, what holds: all the components but the first one. -/
theorem C70_vector_partial {x xd : List ℝ} {kp kv : ℝ} {r : List (Option ℝ)} (h : finiteTimeAccControlVec x xd kp kv = .ok r) :
    r.length = x.length ∧ ∀ i, 0 < i → i < x.length →
      ∃ a b v, x[i]? = some a ∧ xd[i]? = some b ∧ finiteTimeAccControl a b kp kv = .ok v ∧ r[i]? = some (some v) := by
  obtain ⟨e1, e2, e3⟩ := accLoop_spec x xd kp kv _ _ _ _ (by simp) h
  exact ⟨e1, fun i h0 hi => e3 i (by omega) (by omega)⟩

/-- **C70** is false for the vector version: the first component is never written. -/
theorem C70_vector_first {x xd : List ℝ} {kp kv : ℝ} {r : List (Option ℝ)} (hx : x ≠ []) (h : finiteTimeAccControlVec x xd kp kv = .ok r) :
    r[0]? = some none := by
  obtain ⟨e1, e2, e3⟩ := accLoop_spec x xd kp kv _ _ _ _ (by simp) h
  rw [e2 0 (by omega), List.getElem?_replicate, if_pos (List.length_pos_iff.2 hx)]

theorem C70_vector_false : ¬ C70_vector_statement := by
  intro h
  obtain ⟨v, h1, h2⟩ := h [1] [0] (-1) (-1) [none] rfl rfl 0 1 0 (by simp) (by simp)
  simp at h1

/-! ### C79 -/

/-- **C79**, full statement: equal numbers are approximately equal. -/
def C79_statement : Prop := ∀ a p : ℝ, 0 < p → isApprox a a p

/-- **C79** for numbers other than zero; the comparison is symmetric and does not depend on the scale or on the sign. -/
theorem C79_partial (a b p : ℝ) : (a ≠ 0 → 0 < p → isApprox a a p) ∧ (isApprox a b p ↔ isApprox b a p) ∧
    ∀ c, c ≠ 0 → (isApprox (c * a) (c * b) p ↔ isApprox a b p) := by
  refine ⟨fun ha hp => ?_, ?_, fun c hc => ?_⟩
  · unfold isApprox
    rw [sub_self, abs_zero]
    exact mul_pos (abs_pos.2 fun h => ha (by linarith)) hp
  · unfold isApprox
    rw [abs_sub_comm, add_comm]
  · unfold isApprox
    rw [← mul_sub, ← mul_add, abs_mul, abs_mul, mul_assoc, mul_lt_mul_iff_right₀ (abs_pos.2 hc)]

/-- **C79** is false: zero is not approximately equal to itself, whatever the precision. -/
theorem C79_zero (p : ℝ) : ¬ isApprox 0 0 p := by simp [isApprox]

theorem C79_false : ¬ C79_statement := fun h => C79_zero 1 (h 0 1 one_pos)

/-- **C79**: what the relative comparison means for numbers of the same sign, and the absolute one. -/
theorem C79_meaning {a b p : ℝ} (ha : 0 < a) (hb : 0 < b) (hp : 0 < p) :
    (isApprox a b p ↔ |a - b| / ((a + b) / 2) < 2 * p) ∧ (isApproxAbs a b p ↔ a - p < b ∧ b < a + p) ∧ isApproxAbs a a p := by
  refine ⟨?_, ?_, by simpa [isApproxAbs] using hp⟩
  · unfold isApprox
    rw [abs_of_pos (add_pos ha hb), div_lt_iff₀ (by positivity)]
    constructor <;> intro h <;> nlinarith
  · unfold isApproxAbs
    rw [abs_lt]
    constructor <;> rintro ⟨h1, h2⟩ <;> constructor <;> linarith

end StateObs.Misc
