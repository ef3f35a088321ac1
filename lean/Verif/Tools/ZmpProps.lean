import Verif.Tools.ZmpSpec
import Mathlib.Algebra.Order.BigOperators.Group.Finset
import Mathlib.Algebra.BigOperators.Ring.Finset
import Mathlib.Algebra.BigOperators.Field
import Mathlib.Analysis.Convex.Combination
import Mathlib.Analysis.SpecialFunctions.Trigonometric.Basic
/-!
# C137: the zero-moment point
-/

namespace StateObs.Tools
open StateObs Matrix Rot

variable {forces : DVec} {P : ℕ → M4} {n : ℕ}

theorem force_eq (M : M4) (w : Fin 6 → ℝ) (i : Fin 3) : force M w i = M i.castSucc 0 * w 0 + M i.castSucc 1 * w 1 + M i.castSucc 2 * w 2 := by
  simp only [force, mulVec, dotProduct, Fin.sum_univ_three, rot]
  rfl

theorem moment_0 (q : V3) (M : M4) (w : Fin 6 → ℝ) : moment q M w 0 =
    M 0 0 * w 3 + M 0 1 * w 4 + M 0 2 * w 5 + (M 1 3 - q 1) * force M w 2 - (M 2 3 - q 2) * force M w 1 := by
  simp only [moment, Pi.add_apply, cross_apply, mulVec, dotProduct, Fin.sum_univ_three, rot]
  have h0 : pos M 0 = M 0 3 := rfl
  have h1 : pos M 1 = M 1 3 := rfl
  have h2 : pos M 2 = M 2 3 := rfl
  simp [h0, h1, h2]
  ring

theorem moment_1 (q : V3) (M : M4) (w : Fin 6 → ℝ) : moment q M w 1 =
    M 1 0 * w 3 + M 1 1 * w 4 + M 1 2 * w 5 + (M 2 3 - q 2) * force M w 0 - (M 0 3 - q 0) * force M w 2 := by
  simp only [moment, Pi.add_apply, cross_apply, mulVec, dotProduct, Fin.sum_univ_three, rot]
  have h0 : pos M 0 = M 0 3 := rfl
  have h1 : pos M 1 = M 1 3 := rfl
  have h2 : pos M 2 = M 2 3 := rfl
  simp [h0, h1, h2]
  ring

theorem seg_wrench {i : ℕ} (h : 6 * i + 6 ≤ forces.size) : forces.seg 6 (i * 6) = .ok (wrench forces i) := by
  rw [DVec.seg, dif_pos (by omega)]
  congr 1
  funext j
  rw [wrench, dif_pos (by have := j.2; omega)]
  congr 1
  ext
  simp only
  omega

theorem zmpStep_eq (M : M4) (w : Fin 6 → ℝ) (s : Sums) : zmpStep M w s =
    if 0 < force M w 2 then ⟨s.fnormal + force M w 2, s.x - moment 0 M w 1, s.y + moment 0 M w 0, s.z + force M w 2 * M 2 3⟩ else s := by
  have h0 : M 0 0 * w 0 + M 0 1 * w 1 + M 0 2 * w 2 = force M w 0 := (force_eq M w 0).symm
  have h1 : M 1 0 * w 0 + M 1 1 * w 1 + M 1 2 * w 2 = force M w 1 := (force_eq M w 1).symm
  have h2 : M 2 0 * w 0 + M 2 1 * w 1 + M 2 2 * w 2 = force M w 2 := (force_eq M w 2).symm
  simp only [zmpStep, h0, h1, h2, gt_iff_lt, moment_0, moment_1, Pi.zero_apply, sub_zero]

/-- The contacts from `i` on. -/
theorem zmpLoop_eq : ∀ (n i : ℕ) (s : Sums), 6 * (i + n) ≤ forces.size → zmpLoop forces P n i s = .ok
    (let A := (Finset.Ico i (i + n)).filter fun i => 0 < force (P i) (wrench forces i) 2
     ⟨s.fnormal + ∑ i ∈ A, force (P i) (wrench forces i) 2, s.x - ∑ i ∈ A, moment 0 (P i) (wrench forces i) 1, s.y + ∑ i ∈ A, moment 0 (P i) (wrench forces i) 0,
      s.z + ∑ i ∈ A, force (P i) (wrench forces i) 2 * P i 2 3⟩)
  | 0, i, s, _ => by simp [zmpLoop]
  | n + 1, i, s, h => by
    rw [zmpLoop, seg_wrench (by omega), Res.ok_bind, zmpLoop_eq n (i + 1) _ (by omega), zmpStep_eq]
    have e : Finset.Ico i (i + (n + 1)) = insert i (Finset.Ico (i + 1) (i + 1 + n)) := by
      ext k
      simp only [Finset.mem_Ico, Finset.mem_insert]
      omega
    have hn : i ∉ (Finset.Ico (i + 1) (i + 1 + n)).filter fun i => 0 < force (P i) (wrench forces i) 2 := by simp
    simp only [e, Finset.filter_insert]
    split_ifs with hp
    · simp only [Finset.sum_insert hn]
      congr 2 <;> ring
    · rfl

theorem pushing_eq : pushing forces P n = (Finset.Ico 0 n).filter fun i => 0 < force (P i) (wrench forces i) 2 := by
  rw [pushing, Finset.range_eq_Ico]

theorem zmpLoop_congr {Q : ℕ → M4} : ∀ (n i : ℕ) (s : Sums), (∀ k, i ≤ k → k < i + n → P k = Q k) → zmpLoop forces P n i s = zmpLoop forces Q n i s
  | 0, _, _, _ => rfl
  | n + 1, i, s, h => by
    rw [zmpLoop, zmpLoop, h i (le_refl _) (by omega)]
    congr 1
    funext f
    exact zmpLoop_congr n (i + 1) _ fun k h1 h2 => h k (by omega) (by omega)

/-- What the function computes. -/
theorem computeZmp_eq {M1 M2 : M4} {mem : ℕ → M4} (hn : n ≤ 2) (h : 6 * n ≤ forces.size) : computeZmp forces M1 M2 mem n = .ok
    (let A := pushing forces (two M1 M2) n
     let F := ∑ i ∈ A, force (two M1 M2 i) (wrench forces i) 2
     if F ≠ 0 then ![(-∑ i ∈ A, moment 0 (two M1 M2 i) (wrench forces i) 1) / F, (∑ i ∈ A, moment 0 (two M1 M2 i) (wrench forces i) 0) / F,
       (∑ i ∈ A, force (two M1 M2 i) (wrench forces i) 2 * two M1 M2 i 2 3) / F] else 0) := by
  rw [computeZmp, zmpLoop_congr (Q := two M1 M2) n 0 _ fun k _ hk => ?_, zmpLoop_eq n 0 _ (by omega), Res.ok_bind]
  · simp only [pushing_eq, zero_add, zero_sub]
    split_ifs <;> rfl
  · obtain rfl | rfl : k = 0 ∨ k = 1 := by omega
    · rfl
    · rfl

theorem normal_pos (h : (pushing forces P n).Nonempty) : 0 < ∑ i ∈ pushing forces P n, force (P i) (wrench forces i) 2 :=
  Finset.sum_pos (fun i hi => (Finset.mem_filter.1 hi).2) h

/-- The moments about another point. -/
theorem totalMoment_0 (q : V3) : totalMoment forces P n q 0 = ∑ i ∈ pushing forces P n, moment 0 (P i) (wrench forces i) 0 -
    q 1 * ∑ i ∈ pushing forces P n, force (P i) (wrench forces i) 2 + q 2 * ∑ i ∈ pushing forces P n, force (P i) (wrench forces i) 1 := by
  rw [totalMoment, Finset.sum_apply, Finset.mul_sum, Finset.mul_sum, ← Finset.sum_sub_distrib, ← Finset.sum_add_distrib]
  refine Finset.sum_congr rfl fun i _ => ?_
  rw [moment_0, moment_0]
  simp only [Pi.zero_apply]
  ring

theorem totalMoment_1 (q : V3) : totalMoment forces P n q 1 = ∑ i ∈ pushing forces P n, moment 0 (P i) (wrench forces i) 1 +
    q 0 * ∑ i ∈ pushing forces P n, force (P i) (wrench forces i) 2 - q 2 * ∑ i ∈ pushing forces P n, force (P i) (wrench forces i) 0 := by
  rw [totalMoment, Finset.sum_apply, Finset.mul_sum, Finset.mul_sum, ← Finset.sum_add_distrib, ← Finset.sum_sub_distrib]
  refine Finset.sum_congr rfl fun i _ => ?_
  rw [moment_1, moment_1]
  simp only [Pi.zero_apply]
  ring

/-- **C137**, what holds: when a contact pushes, the moment of the contacts about the point of the ground (height zero) that is under the result has no horizontal
component, and the height of the result is the mean of the heights of the contacts, weighted by the vertical forces. -/
theorem C137_partial (forces : DVec) (M1 M2 : M4) (mem : ℕ → M4) {n : ℕ} (hn : n ≤ 2) (h : 6 * n ≤ forces.size) (hp : (pushing forces (two M1 M2) n).Nonempty) :
    ∃ z, computeZmp forces M1 M2 mem n = .ok z ∧ totalMoment forces (two M1 M2) n ![z 0, z 1, 0] 0 = 0 ∧ totalMoment forces (two M1 M2) n ![z 0, z 1, 0] 1 = 0 ∧
      z 2 * ∑ i ∈ pushing forces (two M1 M2) n, force (two M1 M2 i) (wrench forces i) 2 =
        ∑ i ∈ pushing forces (two M1 M2) n, force (two M1 M2 i) (wrench forces i) 2 * pos (two M1 M2 i) 2 := by
  have hF := (normal_pos hp).ne'
  refine ⟨_, computeZmp_eq hn h, ?_, ?_, ?_⟩
  · rw [totalMoment_0]
    simp only [if_pos hF]
    simp
    field_simp
    ring
  · rw [totalMoment_1]
    simp only [if_pos hF]
    simp
    field_simp
    ring
  · simp only [if_pos hF]
    simp
    rw [div_mul_cancel₀ _ hF]
    rfl

/-- **C137** on a flat ground at height zero: the result is the zero-moment point. -/
theorem C137_ground_partial (forces : DVec) (M1 M2 : M4) (mem : ℕ → M4) {n : ℕ} (hn : n ≤ 2) (h : 6 * n ≤ forces.size) (hp : (pushing forces (two M1 M2) n).Nonempty)
    (h0 : ∀ i ∈ pushing forces (two M1 M2) n, pos (two M1 M2 i) 2 = 0) :
    ∃ z, computeZmp forces M1 M2 mem n = .ok z ∧ totalMoment forces (two M1 M2) n z 0 = 0 ∧ totalMoment forces (two M1 M2) n z 1 = 0 ∧ z 2 = 0 := by
  obtain ⟨z, e, a, b, c⟩ := C137_partial forces M1 M2 mem hn h hp
  have hz : z 2 = 0 := by
    rw [Finset.sum_eq_zero (s := pushing forces (two M1 M2) n) (f := fun i => force (two M1 M2 i) (wrench forces i) 2 * pos (two M1 M2 i) 2)
      fun i hi => by rw [h0 i hi, mul_zero]] at c
    exact (mul_eq_zero.1 c).resolve_right (normal_pos hp).ne'
  have : ![z 0, z 1, 0] = z := ext3 rfl rfl hz.symm
  rw [this] at a b
  exact ⟨z, e, a, b, hz⟩

/-- **C137** When the centres of pressure of the contacts that push are in a convex region (the support), so is the result. -/
theorem C137_support (forces : DVec) (M1 M2 : M4) (mem : ℕ → M4) {n : ℕ} (hn : n ≤ 2) (h : 6 * n ≤ forces.size) (hp : (pushing forces (two M1 M2) n).Nonempty)
    {S : Set (ℝ × ℝ)} (hS : Convex ℝ S) (hc : ∀ i ∈ pushing forces (two M1 M2) n, centre (two M1 M2 i) (wrench forces i) ∈ S) :
    ∃ z, computeZmp forces M1 M2 mem n = .ok z ∧ (z 0, z 1) ∈ S := by
  have hF := normal_pos hp
  refine ⟨_, computeZmp_eq hn h, ?_⟩
  simp only [if_pos hF.ne']
  have key := hS.sum_mem (t := pushing forces (two M1 M2) n) (w := fun i => force (two M1 M2 i) (wrench forces i) 2 /
    ∑ i ∈ pushing forces (two M1 M2) n, force (two M1 M2 i) (wrench forces i) 2) (fun i hi => div_nonneg (Finset.mem_filter.1 hi).2.le hF.le)
    (by rw [← Finset.sum_div, div_self hF.ne']) hc
  convert key using 1
  ext
  · rw [Prod.fst_sum]
    show (-∑ i ∈ pushing forces (two M1 M2) n, moment 0 (two M1 M2 i) (wrench forces i) 1) / _ = _
    rw [← Finset.sum_neg_distrib, Finset.sum_div]
    refine Finset.sum_congr rfl fun i hi => ?_
    have := (Finset.mem_filter.1 hi).2.ne'
    simp only [centre, Prod.smul_fst, smul_eq_mul]
    rw [div_mul_div_comm, mul_comm (∑ i ∈ _, _), mul_div_mul_left _ _ this]
  · rw [Prod.snd_sum]
    show (∑ i ∈ pushing forces (two M1 M2) n, moment 0 (two M1 M2 i) (wrench forces i) 0) / _ = _
    rw [Finset.sum_div]
    refine Finset.sum_congr rfl fun i hi => ?_
    have := (Finset.mem_filter.1 hi).2.ne'
    simp only [centre, Prod.smul_snd, smul_eq_mul]
    rw [div_mul_div_comm, mul_comm (∑ i ∈ _, _), mul_div_mul_left _ _ this]

/-- **C137** When no contact pushes, the result is the origin. -/
theorem C137_none (forces : DVec) (M1 M2 : M4) (mem : ℕ → M4) {n : ℕ} (hn : n ≤ 2) (h : 6 * n ≤ forces.size) (hp : ∀ i < n, force (two M1 M2 i) (wrench forces i) 2 ≤ 0) :
    computeZmp forces M1 M2 mem n = .ok 0 := by
  rw [computeZmp_eq hn h]
  have : pushing forces (two M1 M2) n = ∅ := Finset.filter_eq_empty_iff.2 fun i hi => not_lt.2 (hp i (Finset.mem_range.1 hi))
  simp [this]

/-- **C137** A vector of forces that is too short is an error. -/
theorem C137_short (forces : DVec) (M1 M2 : M4) (mem : ℕ → M4) {n : ℕ} (h : forces.size < 6 * n) : computeZmp forces M1 M2 mem n = .assertFail := by
  have key : ∀ (n i : ℕ) (s : Sums), 0 < n → forces.size < 6 * (i + n) → zmpLoop forces (pose M1 M2 mem) n i s = .assertFail := by
    intro n
    induction n with
    | zero => intro i s h; omega
    | succ n ih =>
      intro i s _ h
      rw [zmpLoop]
      by_cases hi : 6 * i + 6 ≤ forces.size
      · rw [seg_wrench hi, Res.ok_bind]
        exact ih _ _ (by omega) (by omega)
      · rw [DVec.seg, dif_neg (by omega), Res.assertFail_bind]
  rw [computeZmp, key n 0 _ (by omega) (by omega), Res.assertFail_bind]

/-- The pose seen in a world that is turned by `θ` about the vertical and moved by `a`, `b` horizontally. -/
noncomputable def seen (θ a b : ℝ) : M4 := !![Real.cos θ, -Real.sin θ, 0, a; Real.sin θ, Real.cos θ, 0, b; 0, 0, 1, 0; 0, 0, 0, 1]

theorem seen_row (θ a b : ℝ) (M : M4) (h : M 3 = ![0, 0, 0, 1]) :
    (∀ j : Fin 3, (seen θ a b * M) 0 j.castSucc = Real.cos θ * M 0 j.castSucc - Real.sin θ * M 1 j.castSucc) ∧ (seen θ a b * M) 0 3 = Real.cos θ * M 0 3 - Real.sin θ * M 1 3 + a ∧
    (∀ j : Fin 3, (seen θ a b * M) 1 j.castSucc = Real.sin θ * M 0 j.castSucc + Real.cos θ * M 1 j.castSucc) ∧ (seen θ a b * M) 1 3 = Real.sin θ * M 0 3 + Real.cos θ * M 1 3 + b ∧
    (∀ j : Fin 4, (seen θ a b * M) 2 j = M 2 j) := by
  have h3 : ∀ j, M 3 j = ![0, 0, 0, 1] j := fun j => by rw [h]
  refine ⟨fun j => ?_, ?_, fun j => ?_, ?_, fun j => ?_⟩
  · have : M 3 j.castSucc = 0 := by rw [h3]; fin_cases j <;> rfl
    simp [Matrix.mul_apply, Fin.sum_univ_four, seen, this]
    ring
  · have : M 3 3 = 1 := by rw [h3]; rfl
    simp [Matrix.mul_apply, Fin.sum_univ_four, seen, this]
    ring
  · have : M 3 j.castSucc = 0 := by rw [h3]; fin_cases j <;> rfl
    simp [Matrix.mul_apply, Fin.sum_univ_four, seen, this]
  · have : M 3 3 = 1 := by rw [h3]; rfl
    simp [Matrix.mul_apply, Fin.sum_univ_four, seen, this]
  · simp [Matrix.mul_apply, Fin.sum_univ_four, seen]

theorem seen_force (θ a b : ℝ) {M : M4} (h : M 3 = ![0, 0, 0, 1]) (w : Fin 6 → ℝ) : force (seen θ a b * M) w 2 = force M w 2 ∧
    moment 0 (seen θ a b * M) w 0 = -(Real.sin θ * moment 0 M w 1) + Real.cos θ * moment 0 M w 0 + b * force M w 2 ∧
    moment 0 (seen θ a b * M) w 1 = Real.cos θ * moment 0 M w 1 + Real.sin θ * moment 0 M w 0 - a * force M w 2 := by
  obtain ⟨r0, t0, r1, t1, r2⟩ := seen_row θ a b M h
  have a0 : (seen θ a b * M) 0 0 = Real.cos θ * M 0 0 - Real.sin θ * M 1 0 := r0 0
  have a1 : (seen θ a b * M) 0 1 = Real.cos θ * M 0 1 - Real.sin θ * M 1 1 := r0 1
  have a2 : (seen θ a b * M) 0 2 = Real.cos θ * M 0 2 - Real.sin θ * M 1 2 := r0 2
  have b0 : (seen θ a b * M) 1 0 = Real.sin θ * M 0 0 + Real.cos θ * M 1 0 := r1 0
  have b1 : (seen θ a b * M) 1 1 = Real.sin θ * M 0 1 + Real.cos θ * M 1 1 := r1 1
  have b2 : (seen θ a b * M) 1 2 = Real.sin θ * M 0 2 + Real.cos θ * M 1 2 := r1 2
  have f2 : force (seen θ a b * M) w 2 = force M w 2 := by
    rw [force_eq, force_eq]
    exact congrArg₂ _ (congrArg₂ _ (congrArg (· * _) (r2 0)) (congrArg (· * _) (r2 1))) (congrArg (· * _) (r2 2))
  have f0 : force (seen θ a b * M) w 0 = Real.cos θ * force M w 0 - Real.sin θ * force M w 1 := by
    rw [force_eq, force_eq, force_eq]
    show (seen θ a b * M) 0 0 * _ + (seen θ a b * M) 0 1 * _ + (seen θ a b * M) 0 2 * _ = Real.cos θ * (M 0 0 * _ + M 0 1 * _ + M 0 2 * _) - Real.sin θ * (M 1 0 * _ + M 1 1 * _ + M 1 2 * _)
    rw [a0, a1, a2]
    ring
  have f1 : force (seen θ a b * M) w 1 = Real.sin θ * force M w 0 + Real.cos θ * force M w 1 := by
    rw [force_eq, force_eq, force_eq]
    show (seen θ a b * M) 1 0 * _ + (seen θ a b * M) 1 1 * _ + (seen θ a b * M) 1 2 * _ = Real.sin θ * (M 0 0 * _ + M 0 1 * _ + M 0 2 * _) + Real.cos θ * (M 1 0 * _ + M 1 1 * _ + M 1 2 * _)
    rw [b0, b1, b2]
    ring
  refine ⟨f2, ?_, ?_⟩
  · rw [moment_0, moment_0, moment_1, f2, f1, a0, a1, a2, t1, r2 3]
    simp only [Pi.zero_apply]
    ring
  · rw [moment_1, moment_0, moment_1, f2, f0, b0, b1, b2, t0, r2 3]
    simp only [Pi.zero_apply]
    ring

/-- **C137** The origin and the heading of the frame of the poses do not matter: seen from another frame with the same vertical and the same ground, the result is the same
point. -/
theorem C137_frame (forces : DVec) (M1 M2 : M4) (mem mem' : ℕ → M4) {n : ℕ} (hn : n ≤ 2) (h : 6 * n ≤ forces.size) (hp : (pushing forces (two M1 M2) n).Nonempty)
    (h1 : M1 3 = ![0, 0, 0, 1]) (h2 : M2 3 = ![0, 0, 0, 1]) (θ a b : ℝ) : ∃ z z', computeZmp forces M1 M2 mem n = .ok z ∧
      computeZmp forces (seen θ a b * M1) (seen θ a b * M2) mem' n = .ok z' ∧
      z' = ![Real.cos θ * z 0 - Real.sin θ * z 1 + a, Real.sin θ * z 0 + Real.cos θ * z 1 + b, z 2] := by
  have ht : ∀ i, two (seen θ a b * M1) (seen θ a b * M2) i = seen θ a b * two M1 M2 i := fun i => by unfold two; split_ifs <;> rfl
  have h3 : ∀ i, two M1 M2 i 3 = ![0, 0, 0, 1] := fun i => by unfold two; split_ifs <;> assumption
  have hf := fun i w => (seen_force θ a b (h3 i) w).1
  have hA : pushing forces (two (seen θ a b * M1) (seen θ a b * M2)) n = pushing forces (two M1 M2) n := by
    unfold pushing
    simp only [ht, hf]
  have hF := (normal_pos hp).ne'
  refine ⟨_, _, computeZmp_eq hn h, computeZmp_eq hn h, ?_⟩
  simp only [hA, ht, hf, fun i w => (seen_force θ a b (h3 i) w).2.1, fun i w => (seen_force θ a b (h3 i) w).2.2, if_pos hF,
    fun i => (seen_row θ a b _ (h3 i)).2.2.2.2, Finset.sum_add_distrib, Finset.sum_sub_distrib, Finset.sum_neg_distrib, ← Finset.mul_sum]
  apply ext3
  · simp
    field_simp
    ring
  · simp
    field_simp
  · simp

/-- A contact at the height `h`, with the axes of the world. -/
def raised (h : ℝ) : M4 := !![1, 0, 0, 2; 0, 1, 0, 3; 0, 0, 1, h; 0, 0, 0, 1]
/-- A force upwards and forwards. -/
def pushed : DVec := ⟨6, ![1, 0, 1, 0, 0, 0]⟩

/-- **C137** is false: for a contact at a height that also holds the robot horizontally, the moment about the result is not vertical. -/
theorem C137_false : ¬ C137_statement := by
  intro h
  have hM : ∀ i, two (raised 1) (raised 1) i = raised 1 := fun i => by unfold two; split_ifs <;> rfl
  have hf : wrench pushed 0 = ![1, 0, 1, 0, 0, 0] := by
    funext j
    fin_cases j <;> simp [wrench, pushed]
  have hF : force (raised 1) (wrench pushed 0) = ![1, 0, 1] := by
    apply ext3 <;> simp [force_eq, hf, raised]
  have hA : pushing pushed (two (raised 1) (raised 1)) 1 = {0} := by
    simp [pushing, hM, hF, Finset.filter_singleton]
  have hp : (pushing pushed (two (raised 1) (raised 1)) 1).Nonempty := by rw [hA]; exact Finset.singleton_nonempty _
  have e := computeZmp_eq (forces := pushed) (M1 := raised 1) (M2 := raised 1) (mem := fun _ => 0) (n := 1) (by omega) (by simp [pushed])
  have := (h _ _ _ _ _ _ (by omega) e hp).2
  rw [totalMoment_1] at this
  simp only [hA, hM, Finset.sum_singleton, moment_1, moment_0, hF] at this
  simp [raised, hf] at this

/-- The hypotheses of the theorems above: the same force at a contact on the ground, whose result is the position of the contact. -/
theorem C137_example : (pushing pushed (two (raised 0) (raised 0)) 1).Nonempty ∧ (∀ i ∈ pushing pushed (two (raised 0) (raised 0)) 1, pos (two (raised 0) (raised 0) i) 2 = 0) ∧
    raised 0 3 = ![0, 0, 0, 1] ∧ computeZmp pushed (raised 0) (raised 0) (fun _ => 0) 1 = .ok ![2, 3, 0] := by
  have hM : ∀ i, two (raised 0) (raised 0) i = raised 0 := fun i => by unfold two; split_ifs <;> rfl
  have hf : wrench pushed 0 = ![1, 0, 1, 0, 0, 0] := by
    funext j
    fin_cases j <;> simp [wrench, pushed]
  have hF : force (raised 0) (wrench pushed 0) = ![1, 0, 1] := by
    apply ext3 <;> simp [force_eq, hf, raised]
  have hA : pushing pushed (two (raised 0) (raised 0)) 1 = {0} := by
    simp [pushing, hM, hF, Finset.filter_singleton]
  refine ⟨by rw [hA]; exact Finset.singleton_nonempty _, fun i _ => by rw [hM]; simp [pos, raised], by funext j; fin_cases j <;> simp [raised], ?_⟩
  rw [computeZmp_eq (by omega) (by simp [pushed])]
  simp only [hA, hM, Finset.sum_singleton, moment_1, moment_0, hF]
  simp [raised, hf]

end StateObs.Tools
