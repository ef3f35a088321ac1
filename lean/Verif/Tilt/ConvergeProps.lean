import Verif.Tilt.ConvergeTilt
/-!
# Property C120: the tilt estimator finds the tilt

The robot is in uniform translation (at rest in particular) and the sensor does not rotate: the accelerometer gives `g tilt`, the gyrometer zero.
`velocity c` is the local velocity of the IMU, `c.Rᵀ (c.vC + c.v)`, from the kinematic data given to the estimator.
-/

namespace StateObs.Tilt
open StateObs Matrix Rot Filter Topology

/-- `X N` is the estimate after `N` measurements, each followed by an estimation. -/
def Estimates (s : Est) (k : Int) (tilt : V3) (X : ℕ → State) : Prop :=
  ∀ N, ∃ s', (alternate k (List.replicate N ⟨g • tilt, 0⟩)).foldlM exec s = .ok s' ∧ s'.x = some (X N, k + N)

theorem Estimates.eq {s : Est} {k : Int} {tilt : V3} {X : ℕ → State} (h : Estimates s k tilt X) {x : State} (hs : s.x = some (x, k))
    (hx : nrm x.x2 = 1) (hy : s.y.v = []) : X = traj s.st ⟨g • tilt, 0⟩ x := by
  have hne : x.x2 ≠ 0 := by rintro h; rw [h, nrm_zero] at hx; exact zero_ne_one hx
  funext N
  obtain ⟨s', h1, h2⟩ := h N
  obtain ⟨s'', h3, h4⟩ := traj_runs s x k hs hne hy ⟨g • tilt, 0⟩ N
  rw [h1] at h3
  cases h3
  rw [h2] at h4
  exact (Prod.mk.inj (Option.some.inj h4)).1

/-- **C120**, existence: the estimates are defined for any number of measurements. -/
theorem C120_defined (s : Est) (k : Int) (x : State) (hs : s.x = some (x, k)) (hx : nrm x.x2 = 1) (hy : s.y.v = []) (tilt : V3) :
    ∃ X, Estimates s k tilt X := by
  have hne : x.x2 ≠ 0 := by rintro h; rw [h, nrm_zero] at hx; exact zero_ne_one hx
  exact ⟨traj s.st ⟨g • tilt, 0⟩ x, fun N => traj_runs s x k hs hne hy _ N⟩

/-- **C120**, rate: with gains in the domain `Gains`, the estimate of the velocity and the intermediate estimate of the tilt converge
geometrically, at a rate that depends on the parameters only. -/
theorem C120_rate (c : Params) (hc : Gains c) (hw : c.w = 0) : ∃ ρ K : ℝ, ρ < 1 ∧ 0 < ρ ∧
    ∀ (s : Est) (k : Int) (x : State) (tilt : V3) (X : ℕ → State), s.st = c → s.x = some (x, k) → nrm x.x2 = 1 → s.y.v = [] →
      Estimates s k tilt X → ∀ N, nrm ((X N).x1 - velocity c) + nrm ((X N).x2p - tilt) ≤
        K * (nrm (x.x1 - velocity c) + nrm (x.x2p - tilt)) * ρ ^ N := by
  obtain ⟨ρ, K, h0, h1, -, h⟩ := linear_rate c hc hw
  refine ⟨ρ, K, h1, h0, fun s k x tilt X hst hs hx hy hX N => ?_⟩
  rw [hX.eq hs hx hy, hst]
  exact h tilt x N

theorem tendsto_tilt {tilt : V3} (ht : nrm tilt = 1) {X : ℕ → State} (hX : ∀ N, nrm (X N).x2 = 1)
    (h : Tendsto (fun N => (X N).x2 ⬝ᵥ tilt) atTop (𝓝 1)) : Tendsto (fun N => (X N).x2) atTop (𝓝 tilt) := by
  have h1 : Tendsto (fun N => nrm ((X N).x2 - tilt)) atTop (𝓝 0) := by
    have e : (fun N => nrm ((X N).x2 - tilt)) = fun N => √(2 * (1 - (X N).x2 ⬝ᵥ tilt)) := funext fun N => nrm_sub_sq (hX N) ht
    rw [e]
    have := ((h.const_sub 1).const_mul 2).sqrt
    simpa using this
  rw [tendsto_pi_nhds]
  intro i
  have h2 : Tendsto (fun N => (X N).x2 i - tilt i) atTop (𝓝 0) :=
    squeeze_zero_norm (fun N => by rw [Real.norm_eq_abs]; exact abs_le_nrm ((X N).x2 - tilt) i) h1
  have := h2.add_const (tilt i)
  simpa using this

/-- **C120**: with gains in the domain `Gains` and `0 < gamma`, `gamma dt < 2`, the estimate of the velocity converges to the velocity, the
intermediate estimate to the tilt, and the estimate of the tilt to the tilt or to its opposite; to the tilt if the errors of the velocity and
of the intermediate estimate are small enough with respect to the distance of the estimate from the opposite of the tilt. -/
theorem C120_converges (c : Params) (hc : Gains c) (hγ : 0 < c.gamma) (hγ2 : c.gamma * c.dt < 2) (hw : c.w = 0) :
    ∃ r : ℝ, ∀ (s : Est) (k : Int) (x : State) (tilt : V3) (X : ℕ → State), s.st = c → s.x = some (x, k) → nrm x.x2 = 1 → s.y.v = [] →
      nrm tilt = 1 → Estimates s k tilt X →
      Tendsto (fun N => (X N).x1) atTop (𝓝 (velocity c)) ∧ Tendsto (fun N => (X N).x2p) atTop (𝓝 tilt) ∧
      (Tendsto (fun N => (X N).x2) atTop (𝓝 tilt) ∨ Tendsto (fun N => (X N).x2) atTop (𝓝 (-tilt))) ∧
      (r * (nrm (x.x1 - velocity c) + nrm (x.x2p - tilt)) < 1 + x.x2 ⬝ᵥ tilt → Tendsto (fun N => (X N).x2) atTop (𝓝 tilt)) := by
  obtain ⟨r, -, h⟩ := tilt_converges c hc hγ hγ2 hw
  obtain ⟨ρ, K, h0, h1, -, hl⟩ := linear_rate c hc hw
  refine ⟨r, fun s k x tilt X hst hs hx hy ht hX => ?_⟩
  have hX := hX.eq hs hx hy
  rw [hst] at hX
  have hunit : ∀ N, nrm (X N).x2 = 1 := by rw [hX]; exact traj_unit c _ x hx
  have hgeo : Tendsto (fun N => K * linErr c tilt x * ρ ^ N) atTop (𝓝 0) := by
    have := (tendsto_pow_atTop_nhds_zero_of_lt_one h0.le h1).const_mul (K * linErr c tilt x)
    simpa using this
  have hlin : ∀ N, linErr c tilt (X N) ≤ K * linErr c tilt x * ρ ^ N := fun N => by rw [hX]; exact hl tilt x N
  obtain ⟨h2, h3⟩ := h tilt x ht hx
  rw [← hX] at h2 h3
  refine ⟨?_, ?_, ?_, fun hr => tendsto_tilt ht hunit (h3 hr)⟩
  · rw [tendsto_pi_nhds]
    intro i
    have h4 : Tendsto (fun N => (X N).x1 i - velocity c i) atTop (𝓝 0) := squeeze_zero_norm (fun N => by
      rw [Real.norm_eq_abs]
      exact (abs_le_nrm ((X N).x1 - velocity c) i).trans ((le_add_of_nonneg_right (nrm_nonneg _)).trans (hlin N))) hgeo
    have := h4.add_const (velocity c i)
    simpa using this
  · rw [tendsto_pi_nhds]
    intro i
    have h4 : Tendsto (fun N => (X N).x2p i - tilt i) atTop (𝓝 0) := squeeze_zero_norm (fun N => by
      rw [Real.norm_eq_abs]
      exact (abs_le_nrm ((X N).x2p - tilt) i).trans ((le_add_of_nonneg_left (nrm_nonneg _)).trans (hlin N))) hgeo
    have := h4.add_const (tilt i)
    simpa using this
  · rcases h2 with h2 | h2
    · exact .inl (tendsto_tilt ht hunit h2)
    · refine .inr (tendsto_tilt (by rwa [nrm_neg]) hunit ?_)
      simp only [dotProduct_neg]
      simpa using h2.neg

/-- **C120**, from exact velocity and intermediate estimate the estimate of the tilt converges to the tilt from every direction but one, the
opposite of the tilt, where it stays. -/
theorem C120_almost_global (c : Params) (hc : Gains c) (hγ : 0 < c.gamma) (hγ2 : c.gamma * c.dt < 2) (hw : c.w = 0)
    (s : Est) (k : Int) (z tilt : V3) (X : ℕ → State) (hst : s.st = c) (hs : s.x = some (⟨velocity c, tilt, z⟩, k)) (hz : nrm z = 1)
    (hy : s.y.v = []) (ht : nrm tilt = 1) (hX : Estimates s k tilt X) :
    (z ≠ -tilt → Tendsto (fun N => (X N).x2) atTop (𝓝 tilt)) ∧ (z = -tilt → ∀ N, (X N).x2 = -tilt) := by
  constructor
  · intro hne
    obtain ⟨r, h⟩ := C120_converges c hc hγ hγ2 hw
    refine (h s k _ tilt X hst hs hz hy ht hX).2.2.2 ?_
    simp only [sub_self, nrm_zero, add_zero, mul_zero]
    have h1 := (abs_le.1 (abs_dot_le z tilt)).1
    rw [hz, ht, one_mul] at h1
    refine lt_of_le_of_ne (by linarith) fun h2 => hne ?_
    have h3 := nrm_sub_sq hz (show nrm (-tilt) = 1 by rwa [nrm_neg])
    rw [dotProduct_neg, show 1 - -(z ⬝ᵥ tilt) = 0 by linarith, mul_zero, Real.sqrt_zero, nrm_eq_zero] at h3
    exact sub_eq_zero.1 h3
  · rintro rfl
    have hX := hX.eq hs hz hy
    rw [hst] at hX
    have : ∀ N, X N = ⟨velocity c, tilt, -tilt⟩ := fun N => by
      induction N with
      | zero => rw [hX]; rfl
      | succ N ih =>
        rw [hX, traj_succ, ← hX, ih]
        ext i
        · have := next_x1 hw tilt ⟨velocity c, tilt, -tilt⟩ i
          simp only [sub_self, mul_zero] at this
          exact sub_eq_zero.1 this
        · have := next_x2p hw tilt ⟨velocity c, tilt, -tilt⟩ i
          simp only [sub_self, mul_zero, add_zero] at this
          exact sub_eq_zero.1 this
        · simp [next, euler, drift, ht, nrm_neg]
    intro N
    rw [this N]

/-- One eigenvector of the linear part that does not decrease. -/
theorem no_root (c : Params) (hw : c.w = 0) (hdt : 0 < c.dt) (tilt : V3) (ht : nrm tilt = 1) (hβ : c.beta ≠ 0)
    (h : ∀ x : State, nrm x.x2 = 1 → Tendsto (fun N => (traj c ⟨g • tilt, 0⟩ x N).x2p) atTop (𝓝 tilt))
    (l : ℝ) (hl : 1 ≤ |l|) (hr : (l - 1) * (l - 1 + c.alpha * c.dt) + g * c.beta * c.dt ^ 2 = 0) : False := by
  set x : State := ⟨velocity c + (l - 1) • tilt, tilt + (c.beta * c.dt) • tilt, tilt⟩ with hx
  have h1 : ∀ N i, (traj c ⟨g • tilt, 0⟩ x N).x1 i - velocity c i = l ^ N * ((l - 1) * tilt i) ∧
      (traj c ⟨g • tilt, 0⟩ x N).x2p i - tilt i = l ^ N * (c.beta * c.dt * tilt i) := fun N i => by
    induction N with
    | zero => simp [traj_zero, hx]
    | succ N ih =>
      rw [traj_succ, next_x1 hw, next_x2p hw, ih.1, ih.2]
      constructor
      · linear_combination (-(l ^ N * tilt i)) * hr
      · ring
  have hne : ∃ i, tilt i ≠ 0 := by
    by_contra h0
    push Not at h0
    have : tilt = 0 := funext h0
    rw [this, nrm_zero] at ht
    exact zero_ne_one ht
  obtain ⟨i, hi⟩ := hne
  have h2 := (tendsto_pi_nhds.1 (h x ht) i).sub_const (tilt i)
  simp only [(h1 _ i).2, sub_self] at h2
  have h3 := h2.abs
  simp only [abs_zero, abs_mul, abs_pow] at h3
  have h4 : |c.beta| * |c.dt| * |tilt i| ≤ 0 := ge_of_tendsto' h3 fun N =>
    le_mul_of_one_le_left (by positivity) (one_le_pow₀ hl)
  have : 0 < |c.beta| * |c.dt| * |tilt i| := by
    have := abs_pos.2 hβ; have := abs_pos.2 hdt.ne'; have := abs_pos.2 hi
    positivity
  linarith

/-- **C120**, the domain of the gains is exact: with a positive sampling time, the estimates of the velocity and the intermediate estimates of
the tilt converge from all initial states if and only if `0 < beta`, `g beta dt < alpha` and `2 alpha dt < 4 + g beta dt²`. -/
theorem C120_gains (c : Params) (hdt : 0 < c.dt) (hw : c.w = 0) (tilt : V3) (ht : nrm tilt = 1) :
    (∀ (s : Est) (k : Int) (x : State) (X : ℕ → State), s.st = c → s.x = some (x, k) → nrm x.x2 = 1 → s.y.v = [] → Estimates s k tilt X →
      Tendsto (fun N => (X N).x1) atTop (𝓝 (velocity c)) ∧ Tendsto (fun N => (X N).x2p) atTop (𝓝 tilt)) ↔
    0 < c.beta ∧ g * c.beta * c.dt < c.alpha ∧ 2 * c.alpha * c.dt < 4 + g * c.beta * c.dt ^ 2 := by
  constructor
  · intro h'
    have h : ∀ x : State, nrm x.x2 = 1 → Tendsto (fun N => (traj c ⟨g • tilt, 0⟩ x N).x1) atTop (𝓝 (velocity c)) ∧
        Tendsto (fun N => (traj c ⟨g • tilt, 0⟩ x N).x2p) atTop (𝓝 tilt) := fun x hx => by
      have hne : x.x2 ≠ 0 := by rintro h; rw [h, nrm_zero] at hx; exact zero_ne_one hx
      exact h' ⟨some (x, 0), IArr.empty, IArr.empty, c⟩ 0 x _ rfl rfl hx rfl fun N => traj_runs _ x 0 rfl hne rfl _ N
    have hne : ∃ i, tilt i ≠ 0 := by
      by_contra h0
      push Not at h0
      have : tilt = 0 := funext h0
      rw [this, nrm_zero] at ht
      exact zero_ne_one ht
    have hβ : c.beta ≠ 0 := by
      intro h0
      obtain ⟨i, hi⟩ := hne
      have h1 : ∀ N, (traj c ⟨g • tilt, 0⟩ ⟨0, tilt + tilt, tilt⟩ N).x2p i - tilt i = tilt i := fun N => by
        induction N with
        | zero => simp [traj_zero]
        | succ N ih => rw [traj_succ, next_x2p hw, ih, h0]; ring
      have h2 := (tendsto_pi_nhds.1 (h ⟨0, tilt + tilt, tilt⟩ ht).2 i).sub_const (tilt i)
      simp only [h1, sub_self] at h2
      exact hi (tendsto_nhds_unique tendsto_const_nhds h2)
    have h1 : 0 < g * c.beta * c.dt ^ 2 := by
      by_contra hq
      push Not at hq
      have hd : 0 ≤ (c.alpha * c.dt) ^ 2 - 4 * (g * c.beta * c.dt ^ 2) := by nlinarith [sq_nonneg (c.alpha * c.dt)]
      have hs := Real.sq_sqrt hd
      have hl : |c.alpha * c.dt| ≤ √((c.alpha * c.dt) ^ 2 - 4 * (g * c.beta * c.dt ^ 2)) := Real.abs_le_sqrt (by linarith)
      have hl' := (le_abs_self (c.alpha * c.dt)).trans hl
      set q := √((c.alpha * c.dt) ^ 2 - 4 * (g * c.beta * c.dt ^ 2)) with hqdef
      refine no_root c hw hdt tilt ht hβ (fun x hx => (h x hx).2) (1 + (-(c.alpha * c.dt) + q) / 2) ?_ ?_
      · exact le_trans (by linarith) (le_abs_self _)
      · nlinarith
    have hb : 0 < c.beta := by
      have hg : (0 : ℝ) < g := by norm_num [g]
      by_contra hb
      push Not at hb
      have : g * c.beta * c.dt ^ 2 ≤ 0 := by
        have := mul_nonneg (mul_nonneg hg.le (neg_nonneg.2 hb)) (sq_nonneg c.dt)
        linarith
      linarith
    refine ⟨hb, ?_, ?_⟩
    · by_contra hq
      push Not at hq
      obtain ⟨i, hi⟩ := hne
      set X := traj c ⟨g • tilt, 0⟩ ⟨velocity c + tilt, tilt, tilt⟩ with hX
      set Y := traj c ⟨g • tilt, 0⟩ ⟨velocity c, tilt + tilt, tilt⟩ with hY
      have hdet : ∀ N, ((X N).x1 i - velocity c i) * ((Y N).x2p i - tilt i) - ((X N).x2p i - tilt i) * ((Y N).x1 i - velocity c i) =
          (1 - c.alpha * c.dt + g * c.beta * c.dt ^ 2) ^ N * (tilt i) ^ 2 := fun N => by
        induction N with
        | zero => simp [hX, hY, traj_zero]; ring
        | succ N ih =>
          rw [hX, hY, traj_succ, traj_succ, ← hX, ← hY, next_x1 hw, next_x1 hw, next_x2p hw, next_x2p hw]
          linear_combination (1 - c.alpha * c.dt + g * c.beta * c.dt ^ 2) * ih
      have a1 := (tendsto_pi_nhds.1 (h ⟨velocity c + tilt, tilt, tilt⟩ ht).1 i).sub_const (velocity c i)
      have a2 := (tendsto_pi_nhds.1 (h ⟨velocity c + tilt, tilt, tilt⟩ ht).2 i).sub_const (tilt i)
      have a3 := (tendsto_pi_nhds.1 (h ⟨velocity c, tilt + tilt, tilt⟩ ht).1 i).sub_const (velocity c i)
      have a4 := (tendsto_pi_nhds.1 (h ⟨velocity c, tilt + tilt, tilt⟩ ht).2 i).sub_const (tilt i)
      have a5 := (a1.mul a4).sub (a2.mul a3)
      simp only [← hX, ← hY, hdet, sub_self, mul_zero] at a5
      have hD : 1 ≤ 1 - c.alpha * c.dt + g * c.beta * c.dt ^ 2 := by nlinarith [mul_le_mul_of_nonneg_right hq hdt.le]
      have a6 : (tilt i) ^ 2 ≤ 0 := ge_of_tendsto' a5 fun N => le_mul_of_one_le_left (sq_nonneg _) (one_le_pow₀ hD)
      have := pow_pos (abs_pos.2 hi) 2
      rw [sq_abs] at this
      linarith
    · by_contra hq
      push Not at hq
      have hd : (4 - c.alpha * c.dt) ^ 2 ≤ (c.alpha * c.dt) ^ 2 - 4 * (g * c.beta * c.dt ^ 2) := by nlinarith
      have hd0 : 0 ≤ (c.alpha * c.dt) ^ 2 - 4 * (g * c.beta * c.dt ^ 2) := (sq_nonneg _).trans hd
      have hs := Real.sq_sqrt hd0
      have hl := (le_abs_self (4 - c.alpha * c.dt)).trans (Real.abs_le_sqrt hd)
      set q := √((c.alpha * c.dt) ^ 2 - 4 * (g * c.beta * c.dt ^ 2)) with hqdef
      refine no_root c hw hdt tilt ht hβ (fun x hx => (h x hx).2) (1 + (-(c.alpha * c.dt) - q) / 2) ?_ ?_
      · exact le_trans (by linarith) (neg_le_abs _)
      · nlinarith
  · rintro ⟨h1, h2, h3⟩ s k x X hst hs hx hy hX
    have hc : Gains c := ⟨hdt, h1, h2, h3⟩
    have hX := hX.eq hs hx hy
    rw [hst] at hX
    subst hX
    obtain ⟨ρ, K, h0, h1, -, hl⟩ := linear_rate c hc hw
    have hgeo : Tendsto (fun N => K * linErr c tilt x * ρ ^ N) atTop (𝓝 0) := by
      have := (tendsto_pow_atTop_nhds_zero_of_lt_one h0.le h1).const_mul (K * linErr c tilt x)
      simpa using this
    constructor
    · rw [tendsto_pi_nhds]
      intro i
      have h4 : Tendsto (fun N => (traj c ⟨g • tilt, 0⟩ x N).x1 i - velocity c i) atTop (𝓝 0) := squeeze_zero_norm (fun N => by
        rw [Real.norm_eq_abs]
        exact (abs_le_nrm ((traj c ⟨g • tilt, 0⟩ x N).x1 - velocity c) i).trans ((le_add_of_nonneg_right (nrm_nonneg _)).trans (hl tilt x N))) hgeo
      have := h4.add_const (velocity c i)
      simpa using this
    · rw [tendsto_pi_nhds]
      intro i
      have h4 : Tendsto (fun N => (traj c ⟨g • tilt, 0⟩ x N).x2p i - tilt i) atTop (𝓝 0) := squeeze_zero_norm (fun N => by
        rw [Real.norm_eq_abs]
        exact (abs_le_nrm ((traj c ⟨g • tilt, 0⟩ x N).x2p - tilt) i).trans ((le_add_of_nonneg_left (nrm_nonneg _)).trans (hl tilt x N))) hgeo
      have := h4.add_const (tilt i)
      simpa using this

/-- The hypotheses of C120 are met: the default sampling time, gains 5, 1, 2, and any state given by `setState`. -/
example (x : State) : Gains (ctor 5 1 2).st ∧ 0 < (ctor 5 1 2).st.gamma ∧ (ctor 5 1 2).st.gamma * (ctor 5 1 2).st.dt < 2 ∧
    (ctor 5 1 2).st.w = 0 ∧ ∃ s, exec (ctor 5 1 2) (.setState x 0) = .ok s ∧ s.st = (ctor 5 1 2).st ∧ s.x = some (x, 0) ∧ s.y.v = [] := by
  refine ⟨⟨?_, ?_, ?_, ?_⟩, ?_, ?_, rfl, ?_⟩
  · norm_num [ctor]
  · norm_num [ctor]
  · norm_num [ctor, g]
  · norm_num [ctor, g]
  · norm_num [ctor]
  · norm_num [ctor]
  · refine ⟨_, setState_eq _ x 0, rfl, rfl, ?_⟩
    simp [ctor, IArr.empty, Obs.dropUpTo]

end StateObs.Tilt
