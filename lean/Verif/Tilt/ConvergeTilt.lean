import Verif.Tilt.Props
import Verif.Tilt.ConvergeLemmas
import Mathlib.Topology.Instances.Real.Lemmas
/-!
# Lemmas for C120: the estimates of the tilt estimator for a robot in uniform translation
-/

namespace StateObs.Tilt
open StateObs Matrix Rot Filter Topology

/-- The estimates when the measurements are always `y`. -/
noncomputable def traj (c : Params) (y : Meas) (x : State) (N : ℕ) : State := (List.replicate N y).foldl (next c) x

theorem traj_zero (c : Params) (y : Meas) (x : State) : traj c y x 0 = x := rfl

theorem traj_succ (c : Params) (y : Meas) (x : State) (N : ℕ) : traj c y x (N + 1) = next c (traj c y x N) y := by
  rw [traj, List.replicate_succ', List.foldl_append]
  rfl

theorem traj_runs (s : Est) (x : State) (k : Int) (hs : s.x = some (x, k)) (h : x.x2 ≠ 0) (hy : s.y.v = []) (y : Meas) (N : ℕ) :
    ∃ s', (alternate k (List.replicate N y)).foldlM exec s = .ok s' ∧ s'.x = some (traj s.st y x N, k + N) := by
  obtain ⟨s', h1, h2, -⟩ := C32_one_at_a_time (List.replicate N y) s x k hs h hy
  exact ⟨s', h1, by simpa [traj] using h2⟩

/-- The local velocity of the IMU of a robot in uniform translation. -/
noncomputable def velocity (c : Params) : V3 := c.Rᵀ *ᵥ (c.vC + c.v)

/-- The gains for which the linear part is stable. -/
structure Gains (c : Params) : Prop where
  dt_pos : 0 < c.dt
  beta_pos : 0 < c.beta
  alpha_gt : g * c.beta * c.dt < c.alpha
  alpha_lt : 2 * c.alpha * c.dt < 4 + g * c.beta * c.dt ^ 2

theorem x1meas_rest {c : Params} (hw : c.w = 0) : x1meas c 0 = velocity c := by simp [x1meas, velocity, hw]

section linear
variable {c : Params} (hw : c.w = 0) (t : V3)
include hw

theorem next_x1 (x : State) (i : Fin 3) : (next c x ⟨g • t, 0⟩).x1 i - velocity c i =
    (1 - c.alpha * c.dt) * (x.x1 i - velocity c i) - g * c.dt * (x.x2p i - t i) := by
  simp only [next, euler, drift, x1meas_rest hw, Pi.add_apply, Pi.smul_apply, Pi.sub_apply, smul_eq_mul, LinearMap.map_zero, Pi.zero_apply]
  ring

theorem next_x2p (x : State) (i : Fin 3) : (next c x ⟨g • t, 0⟩).x2p i - t i =
    (x.x2p i - t i) + c.beta * c.dt * (x.x1 i - velocity c i) := by
  simp only [next, euler, drift, x1meas_rest hw, Pi.add_apply, Pi.smul_apply, Pi.sub_apply, smul_eq_mul, LinearMap.map_zero, Pi.zero_apply]
  ring

end linear

theorem abs_le_nrm (v : V3) (i : Fin 3) : |v i| ≤ nrm v := by
  refine Real.abs_le_sqrt ?_
  simp only [dotProduct, ← pow_two]
  exact Finset.single_le_sum (f := fun j => v j ^ 2) (fun j _ => sq_nonneg (v j)) (Finset.mem_univ i)

theorem nrm_le_sum (v : V3) : nrm v ≤ ∑ i, |v i| := by
  rw [nrm, Real.sqrt_le_left (Finset.sum_nonneg fun i _ => abs_nonneg _)]
  simp only [dotProduct, Fin.sum_univ_three]
  nlinarith [abs_nonneg (v 0), abs_nonneg (v 1), abs_nonneg (v 2), abs_mul_abs_self (v 0), abs_mul_abs_self (v 1), abs_mul_abs_self (v 2),
    mul_nonneg (abs_nonneg (v 0)) (abs_nonneg (v 1)), mul_nonneg (abs_nonneg (v 0)) (abs_nonneg (v 2)),
    mul_nonneg (abs_nonneg (v 1)) (abs_nonneg (v 2))]

/-- Error of the velocity and of the first estimate of the tilt. -/
noncomputable def linErr (c : Params) (t : V3) (x : State) : ℝ := nrm (x.x1 - velocity c) + nrm (x.x2p - t)

theorem linErr_nonneg (c : Params) (t : V3) (x : State) : 0 ≤ linErr c t x := add_nonneg (nrm_nonneg _) (nrm_nonneg _)

theorem linear_rate (c : Params) (hc : Gains c) (hw : c.w = 0) : ∃ ρ K : ℝ, 0 < ρ ∧ ρ < 1 ∧ 0 ≤ K ∧ ∀ (t : V3) (x : State) (N : ℕ),
    linErr c t (traj c ⟨g • t, 0⟩ x N) ≤ K * linErr c t x * ρ ^ N := by
  have hg : (0 : ℝ) < g := by norm_num [g]
  obtain ⟨hdt, hb, h1, h2⟩ := hc
  have hbd : 0 < c.beta * c.dt := mul_pos hb hdt
  have hq : 0 < g * c.beta * c.dt ^ 2 := by positivity
  have hT : |2 - c.alpha * c.dt| < 1 + (1 - c.alpha * c.dt + g * c.beta * c.dt ^ 2) := by
    rw [abs_lt]; constructor <;> nlinarith
  have hD : 1 - c.alpha * c.dt + g * c.beta * c.dt ^ 2 < 1 := by nlinarith [mul_lt_mul_of_pos_right h1 hdt]
  obtain ⟨ρ, K, hρ0, hρ1, hK, hz⟩ := schur hT hD
  refine ⟨ρ, 3 * (K * (2 + c.beta * c.dt)) * (1 + 2 / (c.beta * c.dt)), hρ0, hρ1, by positivity, fun t x N => ?_⟩
  set X := traj c ⟨g • t, 0⟩ x with hX
  set b := K * (2 + c.beta * c.dt) * linErr c t x with hbdef
  have hv : ∀ i k, |(X k).x2p i - t i| ≤ b * ρ ^ k := fun i k => by
    have hs : ∀ k, (X (k + 1)).x2p i - t i = ((X k).x2p i - t i) + c.beta * c.dt * ((X k).x1 i - velocity c i) := fun k => by
      rw [hX, traj_succ, next_x2p hw]
    have hs1 : ∀ k, (X (k + 1)).x1 i - velocity c i =
        (1 - c.alpha * c.dt) * ((X k).x1 i - velocity c i) - g * c.dt * ((X k).x2p i - t i) := fun k => by rw [hX, traj_succ, next_x1 hw]
    have h3 := hz (fun k => (X k).x2p i - t i) (fun k => by
      rw [hs (k + 1), hs1 k]
      have := hs k
      linear_combination (c.alpha * c.dt - 1) * this) k
    refine h3.trans ?_
    have h4 : |(X 0).x2p i - t i| ≤ nrm (x.x2p - t) := abs_le_nrm (x.x2p - t) i
    have h5 : |(X 0).x1 i - velocity c i| ≤ nrm (x.x1 - velocity c) := abs_le_nrm (x.x1 - velocity c) i
    have h6 : |(X 1).x2p i - t i| ≤ |(X 0).x2p i - t i| + c.beta * c.dt * |(X 0).x1 i - velocity c i| := by
      rw [hs 0]
      refine (abs_add_le _ _).trans (le_of_eq ?_)
      rw [abs_mul, abs_of_pos hbd]
    refine mul_le_mul_of_nonneg_right ?_ (pow_pos hρ0 k).le
    rw [hbdef, mul_assoc]
    refine mul_le_mul_of_nonneg_left ?_ hK
    have h7 := nrm_nonneg (x.x2p - t)
    have h8 := nrm_nonneg (x.x1 - velocity c)
    have h9 := mul_le_mul_of_nonneg_left h5 hbd.le
    simp only [linErr]
    nlinarith [mul_nonneg hbd.le h7]
  have hu : ∀ i, |(X N).x1 i - velocity c i| ≤ b * (2 / (c.beta * c.dt)) * ρ ^ N := fun i => by
    have hs : (X (N + 1)).x2p i - t i = ((X N).x2p i - t i) + c.beta * c.dt * ((X N).x1 i - velocity c i) := by
      rw [hX, traj_succ, next_x2p hw]
    have e : (X N).x1 i - velocity c i = (((X (N + 1)).x2p i - t i) - ((X N).x2p i - t i)) / (c.beta * c.dt) := by
      rw [hs]; field_simp; ring
    rw [e, abs_div, abs_of_pos hbd, div_le_iff₀ hbd]
    have h3 := hv i (N + 1)
    have h4 := hv i N
    have hb0 : 0 ≤ b := mul_nonneg (by positivity) (linErr_nonneg c t x)
    have h5 : b * ρ ^ (N + 1) ≤ b * ρ ^ N := by
      rw [pow_succ]
      nlinarith [mul_nonneg hb0 (pow_pos hρ0 N).le]
    refine (abs_sub _ _).trans ?_
    have e2 : b * (2 / (c.beta * c.dt)) * ρ ^ N * (c.beta * c.dt) = 2 * (b * ρ ^ N) := by field_simp
    rw [e2]; linarith
  have h3 : nrm ((X N).x2p - t) ≤ 3 * (b * ρ ^ N) := by
    refine (nrm_le_sum _).trans ?_
    simp only [Fin.sum_univ_three, Pi.sub_apply]
    linarith [hv 0 N, hv 1 N, hv 2 N]
  have h4 : nrm ((X N).x1 - velocity c) ≤ 3 * (b * (2 / (c.beta * c.dt)) * ρ ^ N) := by
    refine (nrm_le_sum _).trans ?_
    simp only [Fin.sum_univ_three, Pi.sub_apply]
    linarith [hu 0, hu 1, hu 2]
  have e : 3 * (K * (2 + c.beta * c.dt)) * (1 + 2 / (c.beta * c.dt)) * linErr c t x * ρ ^ N =
      3 * (b * (2 / (c.beta * c.dt)) * ρ ^ N) + 3 * (b * ρ ^ N) := by rw [hbdef]; ring
  rw [e]
  exact add_le_add h4 h3

/-! ## The tilt -/

theorem abs_dot_le (a b : V3) : |a ⬝ᵥ b| ≤ nrm a * nrm b := by
  refine Real.abs_le_sqrt ?_ |>.trans (le_of_eq (Real.sqrt_mul (dot_self_nonneg a) (b ⬝ᵥ b)))
  simp only [dotProduct, Fin.sum_univ_three]
  nlinarith [sq_nonneg (a 0 * b 1 - a 1 * b 0), sq_nonneg (a 0 * b 2 - a 2 * b 0), sq_nonneg (a 1 * b 2 - a 2 * b 1)]

/-- The unnormalised tilt after a step. -/
theorem tilt_vec (h : ℝ) (x p : V3) (hx : x ⬝ᵥ x = 1) (dt γ : ℝ) (hh : γ * dt = h) :
    x + dt • (x ⨯₃ (0 - γ • (x ⨯₃ p))) = x + h • (p - (x ⬝ᵥ p) • x) := by
  have e : x ⨯₃ (x ⨯₃ p) = (x ⬝ᵥ p) • x - p := by
    have : x ⨯₃ (x ⨯₃ p) = (x ⬝ᵥ p) • x - (x ⬝ᵥ x) • p := by
      ext i; fin_cases i <;> simp [cross_apply, dotProduct, Fin.sum_univ_three] <;> ring
    rw [this, hx, one_smul]
  rw [zero_sub, ← neg_smul, LinearMap.map_smul, e, smul_smul, ← hh]
  congr 1
  rw [← neg_sub p, smul_neg, ← neg_smul]
  congr 1; ring

theorem scalar_inv {h c a b η M : ℝ} (hc0 : -1 ≤ c) (hc1 : c ≤ 1) (hη0 : 0 ≤ η) (ha' : |a| ≤ η)
    (hb' : |b| ≤ η) (hM1 : 1 ≤ M) (hMM : M ^ 2 = 1 + h ^ 2 * (1 - c ^ 2) + h ^ 2 * (2 * a + η ^ 2 - 2 * c * b - b ^ 2)) :
    |M⁻¹ - (√(1 + h ^ 2 * (1 - c ^ 2)))⁻¹| ≤ h ^ 2 * (2 * η + η ^ 2) := by
  have hc' : |c| ≤ 1 := abs_le.2 ⟨hc0, hc1⟩
  have hs0 : 0 ≤ 1 - c ^ 2 := by nlinarith
  set S := √(1 + h ^ 2 * (1 - c ^ 2)) with hS
  have hSS : S ^ 2 = 1 + h ^ 2 * (1 - c ^ 2) := Real.sq_sqrt (by positivity)
  have hS1 : 1 ≤ S := by rw [hS, Real.one_le_sqrt]; linarith [mul_nonneg (sq_nonneg h) hs0]
  have hM0 : 0 < M := by linarith
  have hS0 : 0 < S := by linarith
  have hb2 : b ^ 2 ≤ η ^ 2 := by rw [← sq_abs b]; exact pow_le_pow_left₀ (abs_nonneg b) hb' 2
  have hbc : |b * c| ≤ η := by
    rw [abs_mul]
    calc |b| * |c| ≤ η * 1 := mul_le_mul hb' hc' (abs_nonneg _) hη0
      _ = η := mul_one _
  have hdiff : |M ^ 2 - S ^ 2| ≤ h ^ 2 * (4 * η + η ^ 2) := by
    rw [hMM, hSS, add_sub_cancel_left, abs_mul, abs_of_nonneg (sq_nonneg h)]
    refine mul_le_mul_of_nonneg_left ?_ (sq_nonneg h)
    have h3 := abs_le.1 ha'
    have h4 := abs_le.1 hbc
    rw [abs_le]
    constructor <;> linarith [sq_nonneg b, sq_nonneg η, h3.1, h3.2, h4.1, h4.2, mul_comm b c]
  have e : M⁻¹ - S⁻¹ = -(M ^ 2 - S ^ 2) / (M * S * (M + S)) := by field_simp; ring
  rw [e, abs_div, abs_neg, abs_of_pos (by positivity : 0 < M * S * (M + S)), div_le_iff₀ (by positivity)]
  have h3 : 2 ≤ M * S * (M + S) := by
    have h5 : 1 ≤ M * S := one_le_mul_of_one_le_of_one_le hM1 hS1
    nlinarith
  refine hdiff.trans ?_
  have h6 : 0 ≤ h ^ 2 * (2 * η + η ^ 2) := by positivity
  linarith [mul_le_mul_of_nonneg_left h3 h6, mul_nonneg (sq_nonneg h) (sq_nonneg η)]

theorem scalar_step {h c a b η M κ : ℝ} (h0 : 0 < h) (hc0 : -1 ≤ c) (hc1 : c ≤ 1) (hη0 : 0 ≤ η) (ha' : |a| ≤ η) (hb' : |b| ≤ η)
    (hk : c + κ * (1 - c ^ 2) ≤ (c + h * (1 - c ^ 2)) / √(1 + h ^ 2 * (1 - c ^ 2))) (hM1 : 1 ≤ M)
    (hMM : M ^ 2 = 1 + h ^ 2 * (1 - c ^ 2) + h ^ 2 * (2 * a + η ^ 2 - 2 * c * b - b ^ 2)) :
    c + κ * (1 - c ^ 2) - (2 * h + 2 * (1 + h) * h ^ 2) * (1 + η) * η ≤ M⁻¹ * (c + h * (1 - c ^ 2) + h * (a - b * c)) := by
  have hinv := scalar_inv hc0 hc1 hη0 ha' hb' hM1 hMM
  set S := √(1 + h ^ 2 * (1 - c ^ 2)) with hS
  have hs0 : 0 ≤ 1 - c ^ 2 := by nlinarith
  have hs1 : 1 - c ^ 2 ≤ 1 := by nlinarith [sq_nonneg c]
  have hM0 : 0 < M := by linarith
  have hc' : |c| ≤ 1 := abs_le.2 ⟨hc0, hc1⟩
  have hbc : |b * c| ≤ η := by
    rw [abs_mul]
    calc |b| * |c| ≤ η * 1 := mul_le_mul hb' hc' (abs_nonneg _) hη0
      _ = η := mul_one _
  have hN : |c + h * (1 - c ^ 2)| ≤ 1 + h := by
    rw [abs_le]
    constructor <;> linarith [mul_nonneg h0.le hs0, mul_le_mul_of_nonneg_left hs1 h0.le]
  have h7 : M⁻¹ * (c + h * (1 - c ^ 2) + h * (a - b * c)) =
      (c + h * (1 - c ^ 2)) / S + (c + h * (1 - c ^ 2)) * (M⁻¹ - S⁻¹) + M⁻¹ * (h * (a - b * c)) := by
    rw [div_eq_mul_inv]; ring
  rw [h7]
  have h8 : |(c + h * (1 - c ^ 2)) * (M⁻¹ - S⁻¹)| ≤ (1 + h) * (h ^ 2 * (2 * η + η ^ 2)) := by
    rw [abs_mul]
    exact mul_le_mul hN hinv (abs_nonneg _) (by positivity)
  have h9 : |M⁻¹ * (h * (a - b * c))| ≤ 2 * h * η := by
    rw [abs_mul, abs_mul, abs_of_pos (inv_pos.2 hM0), abs_of_pos h0]
    have h10 : M⁻¹ ≤ 1 := inv_le_one_of_one_le₀ hM1
    have h11 : |a - b * c| ≤ 2 * η := (abs_sub _ _).trans (by linarith)
    calc M⁻¹ * (h * |a - b * c|) ≤ 1 * (h * (2 * η)) :=
          mul_le_mul h10 (mul_le_mul_of_nonneg_left h11 h0.le) (by positivity) zero_le_one
      _ = _ := by ring
  have h12 := (abs_le.1 h8).1
  have h13 := (abs_le.1 h9).1
  have h14 : (1 + h) * (h ^ 2 * (2 * η + η ^ 2)) + 2 * h * η ≤ (2 * h + 2 * (1 + h) * h ^ 2) * (1 + η) * η := by
    have h15 : 0 ≤ (1 + h) * h ^ 2 * η ^ 2 := by positivity
    have h16 : 0 ≤ h * η ^ 2 := by positivity
    have e : (2 * h + 2 * (1 + h) * h ^ 2) * (1 + η) * η = (1 + h) * (h ^ 2 * (2 * η + η ^ 2)) + 2 * h * η + ((1 + h) * h ^ 2 * η ^ 2 + 2 * (h * η ^ 2)) := by
      ring
    linarith
  linarith

theorem tilt_step {h κ : ℝ} (h0 : 0 < h) (hκ : ∀ c : ℝ, -1 ≤ c → c ≤ 1 →
      c + κ * (1 - c ^ 2) ≤ (c + h * (1 - c ^ 2)) / √(1 + h ^ 2 * (1 - c ^ 2)))
    (x t p : V3) (hx : x ⬝ᵥ x = 1) (ht : t ⬝ᵥ t = 1) :
    x ⬝ᵥ t + κ * (1 - (x ⬝ᵥ t) ^ 2) - (2 * h + 2 * (1 + h) * h ^ 2) * (1 + nrm (p - t)) * nrm (p - t) ≤
      ((nrm (x + h • (p - (x ⬝ᵥ p) • x)))⁻¹ • (x + h • (p - (x ⬝ᵥ p) • x))) ⬝ᵥ t := by
  set ε := p - t with hε
  have hp : p = t + ε := by rw [hε]; abel
  set η := nrm ε with hη
  have hη0 : 0 ≤ η := nrm_nonneg _
  have n1 : nrm x = 1 := nrm_eq_one.2 hx
  have n2 : nrm t = 1 := nrm_eq_one.2 ht
  set c := x ⬝ᵥ t with hc
  have hc' : |c| ≤ 1 := by have := abs_dot_le x t; rwa [n1, n2, one_mul] at this
  obtain ⟨hc0, hc1⟩ := abs_le.1 hc'
  set a := t ⬝ᵥ ε with ha
  have ha' : |a| ≤ η := by have := abs_dot_le t ε; rwa [n2, one_mul] at this
  set b := x ⬝ᵥ ε with hb
  have hb' : |b| ≤ η := by have := abs_dot_le x ε; rwa [n1, one_mul] at this
  have hεε : ε ⬝ᵥ ε = η ^ 2 := (nrm_sq ε).symm
  have hxp : x ⬝ᵥ p = c + b := by rw [hp, dotProduct_add]
  have htx : t ⬝ᵥ x = c := dotProduct_comm _ _
  have hεx : ε ⬝ᵥ x = b := dotProduct_comm _ _
  have hεt : ε ⬝ᵥ t = a := dotProduct_comm _ _
  set y := x + h • (p - (x ⬝ᵥ p) • x) with hy
  have hyt : y ⬝ᵥ t = c + h * (1 - c ^ 2) + h * (a - b * c) := by
    rw [hy, hxp, hp]
    simp only [add_dotProduct, smul_dotProduct, sub_dotProduct, smul_eq_mul, ht, hεt, ← hc]
    ring
  have hyy : y ⬝ᵥ y = 1 + h ^ 2 * (1 - c ^ 2) + h ^ 2 * (2 * a + η ^ 2 - 2 * c * b - b ^ 2) := by
    rw [hy, hxp, hp]
    simp only [add_dotProduct, dotProduct_add, smul_dotProduct, dotProduct_smul, sub_dotProduct, dotProduct_sub, smul_eq_mul, ht, hx, htx, hεx,
      hεt, hεε, ← hc, ← hb, ← ha]
    ring
  set M := nrm y with hM
  have hMM : M ^ 2 = y ⬝ᵥ y := nrm_sq y
  have hb2 : b ^ 2 ≤ η ^ 2 := by rw [← sq_abs b]; exact pow_le_pow_left₀ (abs_nonneg b) hb' 2
  have hpp : 0 ≤ 1 - c ^ 2 + (2 * a + η ^ 2 - 2 * c * b - b ^ 2) := by
    have h3 := abs_dot_le x p
    rw [n1, one_mul] at h3
    have h4 : (x ⬝ᵥ p) ^ 2 ≤ p ⬝ᵥ p := by rw [← nrm_sq, ← sq_abs (x ⬝ᵥ p)]; exact pow_le_pow_left₀ (abs_nonneg _) h3 2
    rw [hxp] at h4
    have h5 : p ⬝ᵥ p = 1 + 2 * a + η ^ 2 := by
      rw [hp]
      simp only [add_dotProduct, dotProduct_add, ht, hεt, hεε, ← ha]
      ring
    rw [h5] at h4
    linarith
  have hM1 : 1 ≤ M := by
    have h3 : 1 ≤ M ^ 2 := by rw [hMM, hyy]; linarith [mul_nonneg (sq_nonneg h) hpp]
    exact (one_le_sq_iff₀ (nrm_nonneg y)).1 h3
  rw [smul_dotProduct, smul_eq_mul, hyt]
  exact scalar_step h0 hc0 hc1 hη0 ha' hb' (hκ c hc0 hc1) hM1 (hMM.trans hyy)

theorem nrm_sub_sq {a b : V3} (ha : nrm a = 1) (hb : nrm b = 1) : nrm (a - b) = √(2 * (1 - a ⬝ᵥ b)) := by
  rw [nrm]
  congr 1
  rw [nrm_eq_one] at ha hb
  have : b ⬝ᵥ a = a ⬝ᵥ b := dotProduct_comm _ _
  simp only [sub_dotProduct, dotProduct_sub, ha, hb, this]
  ring

theorem traj_unit (c : Params) (y : Meas) (x : State) (hx : nrm x.x2 = 1) (N : ℕ) : nrm (traj c y x N).x2 = 1 := by
  have hne : ∀ v : V3, nrm v = 1 → v ≠ 0 := by rintro v h rfl; rw [nrm_zero] at h; exact zero_ne_one h
  induction N with
  | zero => exact hx
  | succ N ih =>
    rw [traj_succ]
    obtain ⟨x', h1, h2⟩ := normalise_ok c y (traj c y x N) (hne _ ih)
    rw [next_ok c y _ (hne _ ih)] at h1
    cases h1
    exact h2

/-- The estimate of the tilt converges to the tilt or to its opposite, to the tilt if the initial errors are small with respect to the distance
to the opposite. -/
theorem tilt_converges (c : Params) (hc : Gains c) (hγ : 0 < c.gamma) (hγ2 : c.gamma * c.dt < 2) (hw : c.w = 0) :
    ∃ r : ℝ, 0 ≤ r ∧ ∀ (t : V3) (x : State), nrm t = 1 → nrm x.x2 = 1 →
      (Tendsto (fun N => (traj c ⟨g • t, 0⟩ x N).x2 ⬝ᵥ t) atTop (𝓝 1) ∨ Tendsto (fun N => (traj c ⟨g • t, 0⟩ x N).x2 ⬝ᵥ t) atTop (𝓝 (-1))) ∧
      (r * linErr c t x < 1 + x.x2 ⬝ᵥ t → Tendsto (fun N => (traj c ⟨g • t, 0⟩ x N).x2 ⬝ᵥ t) atTop (𝓝 1)) := by
  obtain ⟨ρ, K, hρ0, hρ1, hK, hlin⟩ := linear_rate c hc hw
  set h := c.gamma * c.dt with hh
  have h0 : 0 < h := mul_pos hγ hc.dt_pos
  obtain ⟨κ, hκ0, hκ⟩ := cosine_gain h0 hγ2
  set L := 2 * h + 2 * (1 + h) * h ^ 2 with hL
  have hL0 : 0 ≤ L := by positivity
  have hρ' : 0 < 1 - ρ := by linarith
  refine ⟨2 * K + 2 * L * K / (1 - ρ), by positivity, fun t x ht hx => ?_⟩
  set e := linErr c t x with he
  have he0 : 0 ≤ e := linErr_nonneg c t x
  set X := traj c ⟨g • t, 0⟩ x with hX
  have hu : ∀ k, nrm (X k).x2 = 1 := traj_unit c _ x hx
  set δ : ℕ → ℝ := fun k => L * (1 + K * e) * (K * e) * ρ ^ k with hδ
  have hcos : ∀ k, |(X k).x2 ⬝ᵥ t| ≤ 1 := fun k => by have := abs_dot_le (X k).x2 t; rwa [hu, ht, one_mul] at this
  have hgeo : HasSum δ (L * (1 + K * e) * (K * e) * (1 - ρ)⁻¹) := (hasSum_geometric_of_lt_one hρ0.le hρ1).mul_left _
  have hstep : ∀ k, (X k).x2 ⬝ᵥ t + κ * (1 - ((X k).x2 ⬝ᵥ t) ^ 2) - δ k ≤ (X (k + 1)).x2 ⬝ᵥ t := fun k => by
    have h1 := tilt_step h0 hκ (X k).x2 t (X k).x2p (nrm_eq_one.1 (hu k)) (nrm_eq_one.1 ht)
    have h2 : (X (k + 1)).x2 = (nrm ((X k).x2 + h • ((X k).x2p - ((X k).x2 ⬝ᵥ (X k).x2p) • (X k).x2)))⁻¹ •
        ((X k).x2 + h • ((X k).x2p - ((X k).x2 ⬝ᵥ (X k).x2p) • (X k).x2)) := by
      rw [← tilt_vec h _ _ (nrm_eq_one.1 (hu k)) c.dt c.gamma rfl, hX, traj_succ]
      rfl
    rw [← h2] at h1
    refine le_trans ?_ h1
    have h3 : nrm ((X k).x2p - t) ≤ K * e * ρ ^ k := le_trans (le_add_of_nonneg_left (nrm_nonneg _)) (hlin t x k)
    have hρk : ρ ^ k ≤ 1 := pow_le_one₀ hρ0.le hρ1.le
    have h4 : K * e * ρ ^ k ≤ K * e := mul_le_of_le_one_right (by positivity) hρk
    have h5 : L * (1 + nrm ((X k).x2p - t)) * nrm ((X k).x2p - t) ≤ δ k := by
      calc L * (1 + nrm ((X k).x2p - t)) * nrm ((X k).x2p - t) ≤ L * (1 + K * e) * (K * e * ρ ^ k) :=
            mul_le_mul (mul_le_mul_of_nonneg_left (by linarith) hL0) h3 (nrm_nonneg _) (by positivity)
        _ = δ k := by rw [hδ]; ring
    linarith
  obtain ⟨h1, h2⟩ := cosine_limit hκ0 (fun k => (X k).x2 ⬝ᵥ t) δ (fun k => (abs_le.1 (hcos k)).1) (fun k => (abs_le.1 (hcos k)).2)
    (fun k => by positivity) hgeo.summable hstep
  refine ⟨h1, fun hr => h2 ?_⟩
  rw [hgeo.tsum_eq]
  have hx0 : (X 0).x2 = x.x2 := rfl
  rw [hx0]
  have h3 : x.x2 ⬝ᵥ t ≤ 1 := (abs_le.1 (hcos 0)).2
  have h4 : 0 ≤ 2 * L * K / (1 - ρ) * e := by positivity
  have h5 : K * e ≤ 1 := by nlinarith
  have h6 : L * (1 + K * e) * (K * e) * (1 - ρ)⁻¹ ≤ 2 * L * K / (1 - ρ) * e := by
    have e1 : 2 * L * K / (1 - ρ) * e = L * 2 * (K * e) * (1 - ρ)⁻¹ := by rw [div_eq_mul_inv]; ring
    rw [e1]
    have h7 : L * (1 + K * e) ≤ L * 2 := mul_le_mul_of_nonneg_left (by linarith) hL0
    exact mul_le_mul_of_nonneg_right (mul_le_mul_of_nonneg_right h7 (by positivity)) (inv_pos.2 hρ').le
  have h8 : 0 ≤ 2 * K * e := by positivity
  nlinarith

end StateObs.Tilt
