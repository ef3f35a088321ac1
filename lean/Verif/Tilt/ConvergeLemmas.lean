import Mathlib.Analysis.SpecificLimits.Basic
import Mathlib.Analysis.SpecialFunctions.Pow.Real
import Mathlib.Topology.Algebra.InfiniteSum.Real
import Mathlib.Topology.Order.MonotoneConvergence
import Mathlib.Tactic.Linarith
import Mathlib.Tactic.Positivity
import Mathlib.Tactic.FieldSimp
/-!
# Lemmas for C120: linear recursions of order two, and a scalar recursion with perturbation
-/

namespace StateObs.Tilt
open Filter Topology

/-! ## Linear recursions of order two -/

/-- A quadratic form that decreases along `z (k + 2) = T z (k + 1) - D z k`. -/
def W (T D x y : ℝ) : ℝ := (1 + D) * (x ^ 2 + y ^ 2) - 2 * T * x * y

theorem W_step (T D x y : ℝ) : W T D y (T * y - D * x) = W T D x y - (1 - D) * (T * y - D * x - x) ^ 2 := by
  unfold W; ring

theorem W_ge {T D : ℝ} (hT : |T| < 1 + D) (x y : ℝ) : (1 + D - |T|) * (x ^ 2 + y ^ 2) ≤ W T D x y := by
  have h : 2 * T * x * y ≤ |T| * (x ^ 2 + y ^ 2) := by
    rcases abs_cases T with ⟨h1, h2⟩ | ⟨h1, h2⟩ <;> rw [h1]
    · nlinarith [mul_nonneg h2 (sq_nonneg (x - y))]
    · nlinarith [mul_nonneg (neg_nonneg.2 h2.le) (sq_nonneg (x + y))]
  unfold W
  linarith

theorem W_le {T D : ℝ} (hT : |T| < 1 + D) (x y : ℝ) : W T D x y ≤ 2 * (1 + D) * (x ^ 2 + y ^ 2) := by
  have h : -(2 * T * x * y) ≤ |T| * (x ^ 2 + y ^ 2) := by
    rcases abs_cases T with ⟨h1, h2⟩ | ⟨h1, h2⟩ <;> rw [h1]
    · nlinarith [mul_nonneg h2 (sq_nonneg (x + y))]
    · nlinarith [mul_nonneg (neg_nonneg.2 h2.le) (sq_nonneg (x - y))]
  unfold W
  nlinarith [sq_nonneg x, sq_nonneg y]

theorem W_two {T D : ℝ} (hT : |T| < 1 + D) (hD : D < 1) (x y : ℝ) :
    W T D (T * y - D * x) (T * (T * y - D * x) - D * y) ≤
      W T D x y - (1 - D) * (1 + D - |T|) ^ 2 / (2 + 2 * T ^ 2) * (x ^ 2 + y ^ 2) := by
  rw [W_step, W_step]
  set u := T * y - D * x - x with hu
  set w := T * (T * y - D * x) - D * y - y with hw
  have h1 : (1 + D - |T|) ^ 2 * (x ^ 2 + y ^ 2) ≤ u ^ 2 + (w - T * u) ^ 2 := by
    have e : u ^ 2 + (w - T * u) ^ 2 = (T ^ 2 + (1 + D) ^ 2) * (x ^ 2 + y ^ 2) - 4 * T * (1 + D) * x * y := by
      rw [hu, hw]; ring
    rw [e]
    have hp : 0 < 1 + D := lt_of_le_of_lt (abs_nonneg T) hT
    have h : 2 * T * x * y ≤ |T| * (x ^ 2 + y ^ 2) := by
      rcases abs_cases T with ⟨h1, h2⟩ | ⟨h1, h2⟩ <;> rw [h1]
      · nlinarith [mul_nonneg h2 (sq_nonneg (x - y))]
      · nlinarith [mul_nonneg (neg_nonneg.2 h2.le) (sq_nonneg (x + y))]
    have h' := mul_le_mul_of_nonneg_left h hp.le
    have h'' : |T| ^ 2 = T ^ 2 := sq_abs T
    nlinarith
  have h2 : u ^ 2 + (w - T * u) ^ 2 ≤ (2 + 2 * T ^ 2) * (u ^ 2 + w ^ 2) := by
    nlinarith [sq_nonneg (w + T * u), sq_nonneg u, sq_nonneg (T * w)]
  have hpos : 0 < 2 + 2 * T ^ 2 := by positivity
  have h3 : (1 + D - |T|) ^ 2 / (2 + 2 * T ^ 2) * (x ^ 2 + y ^ 2) ≤ u ^ 2 + w ^ 2 := by
    rw [div_mul_eq_mul_div, div_le_iff₀ hpos]
    linarith
  have h4 := mul_le_mul_of_nonneg_left h3 (sub_pos.2 hD).le
  have e : (1 - D) * (1 + D - |T|) ^ 2 / (2 + 2 * T ^ 2) * (x ^ 2 + y ^ 2) = (1 - D) * ((1 + D - |T|) ^ 2 / (2 + 2 * T ^ 2) * (x ^ 2 + y ^ 2)) := by
    ring
  rw [e]
  linarith

/-- The solutions of a recursion of order two with both roots inside the unit circle decrease geometrically. -/
theorem schur {T D : ℝ} (hT : |T| < 1 + D) (hD : D < 1) : ∃ ρ K : ℝ, 0 < ρ ∧ ρ < 1 ∧ 0 ≤ K ∧
    ∀ z : ℕ → ℝ, (∀ k, z (k + 2) = T * z (k + 1) - D * z k) → ∀ k, |z k| ≤ K * (|z 0| + |z 1|) * ρ ^ k := by
  have hp : 0 < 1 + D := lt_of_le_of_lt (abs_nonneg T) hT
  have hm : 0 < 1 + D - |T| := sub_pos.2 hT
  set δ := (1 - D) * (1 + D - |T|) ^ 2 / (2 + 2 * T ^ 2) / (2 * (1 + D)) with hδ
  have hδ0 : 0 < δ := by
    have := sub_pos.2 hD
    positivity
  set σ := max (1 - δ) (1 / 4) with hσ
  have hσ0 : 0 < σ := lt_of_lt_of_le (by norm_num) (le_max_right _ _)
  have hσ1 : σ < 1 := max_lt (by linarith) (by norm_num)
  set τ := √σ with hτ
  have hτ0 : 0 < τ := Real.sqrt_pos.2 hσ0
  have hτ1 : τ < 1 := by rw [hτ, Real.sqrt_lt' one_pos]; simpa using hσ1
  have hττ : τ ^ 2 = σ := Real.sq_sqrt hσ0.le
  have hτh : 1 / 2 ≤ τ := by
    rw [hτ, Real.le_sqrt (by norm_num) hσ0.le]
    calc ((1 : ℝ) / 2) ^ 2 = 1 / 4 := by norm_num
      _ ≤ σ := le_max_right _ _
  refine ⟨√τ, √(4 * (1 + D) / (1 + D - |T|)), Real.sqrt_pos.2 hτ0, ?_, Real.sqrt_nonneg _, fun z hz k => ?_⟩
  · rw [Real.sqrt_lt' one_pos]; simpa using hτ1
  set w : ℕ → ℝ := fun k => W T D (z k) (z (k + 1)) with hw
  have w0 : ∀ k, 0 ≤ w k := fun k => le_trans (by positivity) (W_ge hT _ _)
  have w1 : ∀ k, w (k + 1) ≤ w k := fun k => by
    have := W_step T D (z k) (z (k + 1))
    rw [← hz k] at this
    have h0 := mul_nonneg (sub_pos.2 hD).le (sq_nonneg (z (k + 2) - z k))
    simp only [hw]
    rw [show k + 1 + 1 = k + 2 from rfl, this]
    linarith
  have w2 : ∀ k, w (k + 2) ≤ σ * w k := fun k => by
    have h2 := W_two hT hD (z k) (z (k + 1))
    rw [← hz k, ← hz (k + 1)] at h2
    have h3 := W_le hT (z k) (z (k + 1))
    have h4 : δ * w k ≤ (1 - D) * (1 + D - |T|) ^ 2 / (2 + 2 * T ^ 2) * (z k ^ 2 + z (k + 1) ^ 2) := by
      have := mul_le_mul_of_nonneg_left h3 hδ0.le
      refine this.trans (le_of_eq ?_)
      rw [hδ]; field_simp
    have h5 : (1 - δ) * w k ≤ σ * w k := mul_le_mul_of_nonneg_right (le_max_left _ _) (w0 k)
    have : w (k + 2) = W T D (z (k + 2)) (z (k + 1 + 2)) := rfl
    rw [this]
    have e : w k = W T D (z k) (z (k + 1)) := rfl
    linarith
  have w3 : ∀ j, w (2 * j) ≤ σ ^ j * w 0 := fun j => by
    induction j with
    | zero => simp
    | succ j ih =>
      calc w (2 * (j + 1)) ≤ σ * w (2 * j) := w2 (2 * j)
        _ ≤ σ * (σ ^ j * w 0) := mul_le_mul_of_nonneg_left ih hσ0.le
        _ = _ := by ring
  have w4 : w k ≤ 2 * τ ^ k * w 0 := by
    obtain ⟨j, hj | hj⟩ := Nat.even_or_odd' k
    · have := w3 j
      rw [← hττ, ← pow_mul, ← hj] at this
      nlinarith [mul_nonneg (pow_pos hτ0 k).le (w0 0)]
    · have h1 := (w1 (2 * j)).trans (w3 j)
      rw [← hττ, ← pow_mul, ← hj] at h1
      have h2 : τ ^ (2 * j) ≤ 2 * τ ^ k := by
        rw [hj, pow_succ]
        nlinarith [pow_pos hτ0 (2 * j)]
      exact h1.trans (mul_le_mul_of_nonneg_right h2 (w0 0))
  have h5 : (1 + D - |T|) * z k ^ 2 ≤ w k := le_trans (mul_le_mul_of_nonneg_left (by nlinarith [sq_nonneg (z (k + 1))]) hm.le) (W_ge hT _ _)
  have h6 : w 0 ≤ 2 * (1 + D) * (|z 0| + |z 1|) ^ 2 := by
    refine (W_le hT _ _).trans (mul_le_mul_of_nonneg_left ?_ (by positivity))
    rw [zero_add]
    nlinarith [sq_abs (z 0), sq_abs (z 1), mul_nonneg (abs_nonneg (z 0)) (abs_nonneg (z 1))]
  have h7 : z k ^ 2 ≤ 4 * (1 + D) / (1 + D - |T|) * (|z 0| + |z 1|) ^ 2 * τ ^ k := by
    have h8 : (1 + D - |T|) * z k ^ 2 ≤ 4 * (1 + D) * (|z 0| + |z 1|) ^ 2 * τ ^ k := by
      have := mul_le_mul_of_nonneg_left h6 (mul_nonneg zero_le_two (pow_pos hτ0 k).le)
      linarith
    rw [div_mul_eq_mul_div, div_mul_eq_mul_div, le_div_iff₀ hm]
    linarith
  have h8 := Real.abs_le_sqrt h7
  refine h8.trans (le_of_eq ?_)
  rw [Real.sqrt_mul (by positivity), Real.sqrt_mul (by positivity), Real.sqrt_sq (by positivity)]
  congr 1
  rw [Real.sqrt_eq_rpow, Real.sqrt_eq_rpow, ← Real.rpow_natCast, ← Real.rpow_natCast, ← Real.rpow_mul hτ0.le, ← Real.rpow_mul hτ0.le, mul_comm]

/-! ## The recursion of the cosine -/

theorem cosine_gain {h : ℝ} (h0 : 0 < h) (h2 : h < 2) : ∃ κ : ℝ, 0 < κ ∧ ∀ c : ℝ, -1 ≤ c → c ≤ 1 →
    c + κ * (1 - c ^ 2) ≤ (c + h * (1 - c ^ 2)) / √(1 + h ^ 2 * (1 - c ^ 2)) := by
  set m := min h (2 - h) with hm
  have hm0 : 0 < m := lt_min h0 (by linarith)
  have hm1 : m ≤ 1 := by
    rcases le_total h 1 with h' | h'
    · exact (min_le_left _ _).trans h'
    · exact (min_le_right _ _).trans (by linarith)
  refine ⟨h * m / (2 * (1 + h) ^ 2), by positivity, fun c hc0 hc1 => ?_⟩
  set s := 1 - c ^ 2 with hs
  have hs0 : 0 ≤ s := by nlinarith
  have hs1 : s ≤ 1 := by nlinarith [sq_nonneg c]
  set S := √(1 + h ^ 2 * s) with hS
  have hSS : S ^ 2 = 1 + h ^ 2 * s := Real.sq_sqrt (by positivity)
  have hS1 : 1 ≤ S := by rw [hS, Real.one_le_sqrt]; nlinarith [mul_nonneg (sq_nonneg h) hs0]
  have hS2 : S ≤ 1 + h := by
    rw [hS, Real.sqrt_le_left (by linarith)]
    nlinarith [mul_le_mul_of_nonneg_left hs1 (sq_nonneg h)]
  have hSpos : 0 < S := by linarith
  rw [le_div_iff₀ hSpos]
  have key : h * m / (2 * (1 + h)) * s ≤ c + h * s - c * S := by
    rcases le_total c 0 with hc | hc
    · have h3 : h * m / (2 * (1 + h)) ≤ h := by
        rw [div_le_iff₀ (by positivity)]
        nlinarith
      nlinarith [mul_le_mul_of_nonneg_right h3 hs0]
    · have hN : 0 < c + h * s + c * S := by
        rcases eq_or_lt_of_le hc with h' | h'
        · have : s = 1 := by rw [hs, ← h']; ring
          rw [this, ← h']; linarith
        · have := mul_nonneg h0.le hs0
          have := mul_pos h' hSpos
          linarith
      have hN2 : c + h * s + c * S ≤ 2 * (1 + h) := by
        have := mul_le_mul hc1 hS2 hSpos.le zero_le_one
        nlinarith
      have hmc : m ≤ 2 * c + h * (1 - 2 * c ^ 2) := by
        have h3 := min_le_left h (2 - h)
        have h4 := min_le_right h (2 - h)
        have h5 : m * (1 - c) ≤ h * (1 - c) := mul_le_mul_of_nonneg_right h3 (by linarith)
        have h6 : m * c ≤ (2 - h) * c := mul_le_mul_of_nonneg_right h4 hc
        nlinarith [mul_nonneg (mul_nonneg h0.le hc) (sub_nonneg.2 hc1)]
      have e : (c + h * s - c * S) * (c + h * s + c * S) = h * s * (2 * c + h * (1 - 2 * c ^ 2)) := by
        have : (c + h * s - c * S) * (c + h * s + c * S) = (c + h * s) ^ 2 - c ^ 2 * S ^ 2 := by ring
        rw [this, hSS, hs]; ring
      have h7 : h * s * m ≤ (c + h * s - c * S) * (c + h * s + c * S) := by
        rw [e]; exact mul_le_mul_of_nonneg_left hmc (mul_nonneg h0.le hs0)
      have h8 : 0 ≤ c + h * s - c * S := by
        by_contra hneg
        push Not at hneg
        have := mul_neg_of_neg_of_pos hneg hN
        have := mul_nonneg (mul_nonneg h0.le hs0) hm0.le
        linarith
      have h9 := mul_le_mul_of_nonneg_left hN2 h8
      rw [div_mul_eq_mul_div, div_le_iff₀ (by positivity)]
      linarith
  have h10 : h * m / (2 * (1 + h) ^ 2) * s * S ≤ h * m / (2 * (1 + h)) * s := by
    have e : h * m / (2 * (1 + h)) * s = h * m / (2 * (1 + h) ^ 2) * s * (1 + h) := by field_simp
    rw [e]
    exact mul_le_mul_of_nonneg_left hS2 (by positivity)
  nlinarith

/-- A sequence in `[-1, 1]` that increases up to a summable perturbation converges to one of the bounds, to `1` if it starts high enough. -/
theorem cosine_limit {κ : ℝ} (hκ : 0 < κ) (c δ : ℕ → ℝ) (hc0 : ∀ k, -1 ≤ c k) (hc1 : ∀ k, c k ≤ 1) (hδ : ∀ k, 0 ≤ δ k) (hs : Summable δ)
    (hstep : ∀ k, c k + κ * (1 - c k ^ 2) - δ k ≤ c (k + 1)) :
    (Tendsto c atTop (𝓝 1) ∨ Tendsto c atTop (𝓝 (-1))) ∧ (-1 < c 0 - ∑' k, δ k → Tendsto c atTop (𝓝 1)) := by
  have hκ' : ∀ k, 0 ≤ κ * (1 - c k ^ 2) := fun k => mul_nonneg hκ.le (by nlinarith [hc0 k, hc1 k])
  have hmono : Monotone fun k => c k + ∑ j ∈ Finset.range k, δ j := monotone_nat_of_le_succ fun k => by
    rw [Finset.sum_range_succ]
    linarith [hstep k, hκ' k]
  have hbdd : BddAbove (Set.range fun k => c k + ∑ j ∈ Finset.range k, δ j) :=
    ⟨1 + ∑' k, δ k, by rintro _ ⟨k, rfl⟩; exact add_le_add (hc1 k) (hs.sum_le_tsum _ fun j _ => hδ j)⟩
  have h1 := tendsto_atTop_ciSup hmono hbdd
  have h2 := h1.sub hs.hasSum.tendsto_sum_nat
  simp only [add_sub_cancel_right] at h2
  set l := (⨆ k, c k + ∑ j ∈ Finset.range k, δ j) - ∑' k, δ k with hl
  have hl1 : l ≤ 1 := le_of_tendsto' h2 hc1
  have hl0 : -1 ≤ l := ge_of_tendsto' h2 hc0
  have h3 : l + κ * (1 - l ^ 2) - 0 ≤ l :=
    le_of_tendsto_of_tendsto' ((h2.add (((tendsto_const_nhds).sub (h2.pow 2)).const_mul κ)).sub hs.tendsto_atTop_zero)
      (h2.comp (tendsto_add_atTop_nat 1)) hstep
  have h4 : 1 - l ^ 2 ≤ 0 := by
    by_contra h
    push Not at h
    have := mul_pos hκ h
    linarith
  have h5 : l = 1 ∨ l = -1 := by
    have : (l - 1) * (l + 1) = 0 := by nlinarith
    rcases mul_eq_zero.1 this with h | h
    · left; linarith
    · right; linarith
  refine ⟨?_, fun h => ?_⟩
  · rcases h5 with h | h
    · left; rw [← h]; exact h2
    · right; rw [← h]; exact h2
  · have h6 : c 0 - ∑' k, δ k ≤ l := by
      have := le_ciSup hbdd 0
      simp only [Finset.range_zero, Finset.sum_empty, add_zero] at this
      linarith
    rcases h5 with h' | h'
    · rw [← h']; exact h2
    · exfalso; linarith

end StateObs.Tilt
