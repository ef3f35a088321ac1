import Verif.ModelFlex.Reach
/-! # The options chosen by the client -/

namespace StateObs.ModelFlex
open StateObs KF Imu Rot Kine Matrix Obs

/-- What the client chose: number of contacts, options, variances, limits. -/
structure Config where
  nb : ℕ
  force : Bool
  abs : Bool
  bias : Bool
  unmodeled : Bool
  /-- variance of the measured forces; `none` after `setForceVariance(const Matrix3 &)` -/
  forceVar : Option ℝ
  absVar : ℝ
  torques : V3
  forces : V3
  limit : Bool
  on : Bool
  /-- Jacobians by finite differences -/
  fd : Bool

/-- The documented effect of a call on the options. -/
noncomputable def Config.after (c : Config) : Op → Config
  | .setContactsNumber n => { c with nb := n }
  | .setWithForcesMeasurements b => { c with force := b }
  | .setWithAbsolutePos b => { c with abs := b }
  | .setWithUnmodeledForces b => { c with unmodeled := b }
  | .setWithComBias b => { c with bias := b }
  | .setUnmodeledForceVariance d => if d > 0 then { c with unmodeled := true } else c
  | .setUnmodeledForceProcessVariance d => if d > 0 then { c with unmodeled := true } else c
  | .setForceVariance d => { c with forceVar := some d }
  | .setForceVariance3 _ => { c with forceVar := none }
  | .setAbsolutePosVariance d => { c with absVar := d }
  | .setTorquesLimit v => { c with torques := v }
  | .setForcesLimit v => { c with forces := v }
  | .setLimitOn b => { c with limit := b }
  | .setOn b => { c with on := b }
  | .useFiniteDifferencesJacobians _ => { c with fd := true }
  | .setJacobians _ _ => { c with fd := false }
  | _ => c

/-- The options of a new estimator. -/
noncomputable def Config.default : Config := ⟨0, false, false, false, false, some 1e-4, 1e-4, weights ![10, 10, 100], weights ![100, 100, 1000], true, true, true⟩

/-- The options after the calls. -/
noncomputable def Config.of (ops : List Op) : Config := ops.foldl Config.after .default

/-- The size of a measurement vector. -/
def Config.size (c : Config) : ℕ := 6 + (if c.force then c.nb * 6 else 0) + (if c.abs then 6 else 0)

/-- The estimator has the options. -/
structure Has (s : Est) (c : Config) : Prop where
  nb : s.sys.nb = c.nb
  force : s.useFT = c.force
  abs : s.withAbs = c.abs
  bias : s.withBias = c.bias
  unmodeled : s.withUnmodeled = c.unmodeled
  forceVar : ∀ d, c.forceVar = some d → s.forceVar = square 6 (scalar d)
  forceVar3 : c.forceVar = none → s.forceVar.hasSize 3 3 = true
  absVar : s.absVar = c.absVar
  torques : s.limT = c.torques
  forces : s.limF = c.forces
  limit : s.limOn = c.limit
  on : s.on = c.on
  fd : s.fd = c.fd

theorem Has.size {s : Est} {c : Config} (h : Has s c) (hi : Inv s) : s.sys.measSize = c.size := by
  have : s.sys.measSize = _ := hi.f.reach.inv.meas
  rw [this, Config.size, ← h.nb, ← h.force, ← h.abs, ← hi.force, ← hi.abs]
  rfl

/-- Members that a call leaves. -/
structure Kept (s t : Est) : Prop where
  nb : t.sys.nb = s.sys.nb
  force : t.useFT = s.useFT
  abs : t.withAbs = s.withAbs
  bias : t.withBias = s.withBias
  unmodeled : t.withUnmodeled = s.withUnmodeled
  forceVar : t.forceVar = s.forceVar
  absVar : t.absVar = s.absVar
  torques : t.limT = s.limT
  forces : t.limF = s.limF
  limit : t.limOn = s.limOn
  on : t.on = s.on
  fd : t.fd = s.fd

theorem Kept.has {s t : Est} {c : Config} (k : Kept s t) (h : Has s c) : Has t c :=
  ⟨k.nb.trans h.nb, k.force.trans h.force, k.abs.trans h.abs, k.bias.trans h.bias, k.unmodeled.trans h.unmodeled, fun d e => k.forceVar.trans (h.forceVar d e),
    fun e => by rw [k.forceVar]; exact h.forceVar3 e, k.absVar.trans h.absVar,
    k.torques.trans h.torques, k.forces.trans h.forces, k.limit.trans h.limit, k.on.trans h.on, k.fd.trans h.fd⟩

theorem Kept.trans {s t u : Est} (a : Kept s t) (b : Kept t u) : Kept s u :=
  ⟨b.nb.trans a.nb, b.force.trans a.force, b.abs.trans a.abs, b.bias.trans a.bias, b.unmodeled.trans a.unmodeled, b.forceVar.trans a.forceVar, b.absVar.trans a.absVar,
    b.torques.trans a.torques, b.forces.trans a.forces, b.limit.trans a.limit, b.on.trans a.on, b.fd.trans a.fd⟩

theorem updateR_kept {s t : Est} (h : s.updateR = .ok t) : Kept s t := by
  obtain ⟨R, n, -, rfl⟩ := updateR_eq h
  constructor <;> rfl

theorem resizeF_sys {s : Est} (hi : Inv s) (sys : Elastic.Sys Unit) : (resizeF s.ekf sys).st.ext.sys = sys := by
  obtain ⟨y, u, c, r, e, -⟩ := resizeF_eq hi.f sys
  rw [e]

theorem resizeF_nb {s : Est} (hi : Inv s) (sys : Elastic.Sys Unit) {n : ℕ} (h : sys.nb = n) : (resizeF s.ekf sys).st.ext.sys.nb = n := by rw [resizeF_sys hi, h]

theorem getVector_kept {s t : Est} (hi : Inv s) (h : s.getFlexibilityVector = .ok t) : Kept s t := by
  by_cases hon : s.on = true
  · by_cases hy : s.ekf.y.v = []
    · rw [getVector_idle hon hy] at h; cases h; constructor <;> rfl
    · obtain ⟨f1, f, z, o, hj, hs, hx, -, rfl⟩ := getVector_ok hi hon hy h
      have u := jacobians_upd hi.f.reach hj
      obtain ⟨i2, q2, r2, s2⟩ := oneStep_inv (u.inv hi.f) hs
      exact ⟨(s2.trans u.same).nb, rfl, rfl, rfl, rfl, rfl, rfl, rfl, rfl, rfl, rfl, rfl⟩
  · obtain ⟨x, hx⟩ := hi.f.x
    rw [Est.getFlexibilityVector, if_neg hon] at h
    simp only [Res.bind_eq_ok, getCurrentTime, hx, Res.ok.injEq, exists_eq_left'] at h
    obtain ⟨f, hf, h⟩ := h
    obtain ⟨w, hw, rfl, hf'⟩ := hi.f.setState hf
    split_ifs at h
    · simp only [Est.resetStateCovarianceMatrix, setStateCovariance, Res.bind_eq_ok] at h
      obtain ⟨g, ⟨_, h1, h2⟩, h3⟩ := h
      cases h2; cases h3
      constructor <;> rfl
    · cases h
      constructor <;> rfl

theorem arguments_kept {s t : Est} {u : DVec} {b : Bool} (hi : Inv s) (h : s.arguments b = .ok (u, t)) : Kept s t := by
  unfold Est.arguments at h
  split_ifs at h <;> simp only [Res.bind_eq_ok] at h
  · obtain ⟨_, -, t', h1, h2⟩ := h
    cases h2
    exact getVector_kept hi h1
  · obtain ⟨t', h1, _, -, h2⟩ := h
    cases h2
    exact getVector_kept hi h1

theorem setSys_kept {s : Est} {f : Elastic.Sys Unit} (h : f.nb = s.sys.nb) : Kept s (s.setSys f) := by
  constructor <;> first | exact h | rfl

theorem setUnmodeled_has {s t : Est} (hi : Inv s) {b : Bool} {c : Config} (hc : Has s c) (h : s.setWithUnmodeledForces b = .ok t) : Has t { c with unmodeled := b } := by
  by_cases hb : s.withUnmodeled = b
  · rw [Est.setWithUnmodeledForces, if_neg (by simpa using hb)] at h
    cases h
    have := hc
    cases this
    constructor <;> assumption
  · have h := setWithUnmodeled_eq hi hb h
    refine (updateR_kept h).has ?_
    exact ⟨resizeF_nb hi _ hc.nb, hc.force, hc.abs, hc.bias, rfl, hc.forceVar, hc.forceVar3, hc.absVar, hc.torques, hc.forces, hc.limit, hc.on, hc.fd⟩

theorem has_exec {s t : Est} (hi : Inv s) {c : Config} (hc : Has s c) (op : Op) (h : exec s op = .ok t) : Has t (c.after op) := by
  cases op with
  | param p =>
    simp only [exec, Res.bind_eq_ok] at h
    obtain ⟨⟨f, _⟩, h1, h2⟩ := h
    cases h2
    refine (setSys_kept ?_).has hc
    cases p <;> cases h1 <;> rfl
  | setContactsNumber n =>
    obtain ⟨sys, hs⟩ : ∃ x, { s.sys with nb := n }.updateMeasurementSize = x := ⟨_, rfl⟩
    have hn : sys.nb = n := by rw [← hs]; rfl
    have h0 : Has { s with ekf := resizeF s.ekf sys } { c with nb := n } := ⟨resizeF_nb hi _ hn, hc.force, hc.abs, hc.bias,
      hc.unmodeled, hc.forceVar, hc.forceVar3, hc.absVar, hc.torques, hc.forces, hc.limit, hc.on, hc.fd⟩
    rcases setContactsNumber_eq hi h hs with ⟨h, -⟩ | ⟨rfl, -⟩
    · exact (updateR_kept h).has h0
    · exact h0
  | setWithForcesMeasurements b =>
    by_cases hb : s.useFT = b
    · simp only [exec] at h
      rw [Est.setWithForcesMeasurements, if_neg (by simpa using hb)] at h
      cases h
      have := hc
      cases this
      constructor <;> assumption
    · refine (updateR_kept (setWithForces_eq hi hb h)).has ⟨resizeF_nb hi _ hc.nb, rfl, hc.abs, hc.bias, hc.unmodeled, hc.forceVar, hc.forceVar3, hc.absVar, hc.torques, hc.forces, hc.limit, hc.on, hc.fd⟩
  | setWithAbsolutePos b =>
    by_cases hb : s.withAbs = b
    · simp only [exec] at h
      rw [Est.setWithAbsolutePos, if_neg (by simpa using hb)] at h
      cases h
      have := hc
      cases this
      constructor <;> assumption
    · refine (updateR_kept (setWithAbs_eq hi hb h)).has ⟨resizeF_nb hi _ hc.nb, hc.force, rfl, hc.bias, hc.unmodeled, hc.forceVar, hc.forceVar3, hc.absVar, hc.torques, hc.forces, hc.limit, hc.on, hc.fd⟩
  | setWithUnmodeledForces b => exact setUnmodeled_has hi hc h
  | setWithComBias b =>
    cases h
    show Has (if s.withBias ≠ b then _ else s) _
    split_ifs with hb
    · exact ⟨hc.nb, hc.force, hc.abs, rfl, hc.unmodeled, hc.forceVar, hc.forceVar3, hc.absVar, hc.torques, hc.forces, hc.limit, hc.on, hc.fd⟩
    · rw [not_not] at hb
      have := hc
      cases this
      constructor <;> assumption
  | setUnmodeledForceVariance d =>
    simp only [exec, Est.setUnmodeledForceVariance, Res.bind_eq_ok] at h
    obtain ⟨s1, h1, P, h2, f, h3, h4⟩ := h
    have i0 : Inv { s with unmodeledVar := d } := by have := hi.toInv0; exact ⟨by cases this; constructor <;> assumption, hi.r, hi.rSize⟩
    have c0 : Has { s with unmodeledVar := d } c := by have := hc; cases this; constructor <;> assumption
    have c1 : Has s1 (c.after (.setUnmodeledForceVariance d)) := by
      simp only [Config.after]
      split_ifs at h1 ⊢
      · exact setUnmodeled_has i0 c0 h1
      · cases h1; exact c0
    simp only [setStateCovariance, Res.bind_eq_ok] at h3
    obtain ⟨_, -, h3⟩ := h3
    cases h3; cases h4
    have := c1
    cases this
    constructor <;> assumption
  | setUnmodeledForceProcessVariance d =>
    simp only [exec, Est.setUnmodeledForceProcessVariance, Res.bind_eq_ok] at h
    obtain ⟨Q, h2, f, h3, h4⟩ := h
    obtain ⟨P', rfl, rfl⟩ := setQ_eq hi.f.nt h3
    have i1 := inv0_setQ (Q := P') hi.toInv0
    have i1 : Inv { s with Q := ⟨35, 35, P'⟩, ekf := { s.ekf with st := { s.ekf.st with q := ⟨35, 35, P'⟩ } } } := ⟨i1, hi.r, hi.rSize⟩
    have c0 : Has { s with Q := ⟨35, 35, P'⟩, ekf := { s.ekf with st := { s.ekf.st with q := ⟨35, 35, P'⟩ } } } c := by have := hc; cases this; constructor <;> assumption
    simp only [Config.after]
    split_ifs at h4 ⊢
    · exact setUnmodeled_has i1 c0 h4
    · cases h4; exact c0
  | setForceVariance d =>
    exact (updateR_kept h).has ⟨hc.nb, hc.force, hc.abs, hc.bias, hc.unmodeled, fun d e => (by cases e; rfl), fun e => (by cases e), hc.absVar, hc.torques, hc.forces, hc.limit, hc.on, hc.fd⟩
  | setForceVariance3 V =>
    exact (updateR_kept h).has ⟨hc.nb, hc.force, hc.abs, hc.bias, hc.unmodeled, fun d e => (by cases e), fun _ => rfl, hc.absVar, hc.torques, hc.forces, hc.limit, hc.on, hc.fd⟩
  | setAbsolutePosVariance d =>
    exact (updateR_kept h).has ⟨hc.nb, hc.force, hc.abs, hc.bias, hc.unmodeled, hc.forceVar, hc.forceVar3, rfl, hc.torques, hc.forces, hc.limit, hc.on, hc.fd⟩
  | setMeasurementNoiseCovariance R =>
    simp only [exec, Est.setMeasurementNoiseCovariance, Res.bind_eq_ok] at h
    obtain ⟨_, -, h⟩ := h
    exact (updateR_kept h).has ⟨hc.nb, hc.force, hc.abs, hc.bias, hc.unmodeled, hc.forceVar, hc.forceVar3, hc.absVar, hc.torques, hc.forces, hc.limit, hc.on, hc.fd⟩
  | setProcessNoiseCovariance Q =>
    simp only [exec, Est.setProcessNoiseCovariance, Res.bind_eq_ok] at h
    obtain ⟨f, h1, h2⟩ := h
    obtain ⟨P', rfl, rfl⟩ := setQ_eq hi.f.nt h1
    cases h2
    exact Kept.has (by constructor <;> rfl) hc
  | setFlexibilityCovariance P =>
    simp only [exec, Est.setFlexibilityCovariance, Res.bind_eq_ok] at h
    obtain ⟨f, h1, h2⟩ := h
    obtain ⟨P', rfl, rfl⟩ := setCov_eq hi.f.nt h1
    cases h2
    exact Kept.has (by constructor <;> rfl) hc
  | resetCovarianceMatrices =>
    have h6 : 6 ≤ s.sys.measSize := by
      have : s.sys.measSize = _ := hi.f.reach.inv.meas
      omega
    have h : s.resetCovarianceMatrices = .ok t := h
    rw [resetAll_live hi.f.mt h6 hi.f.nt] at h
    cases h
    exact Kept.has (by constructor <;> rfl) hc
  | resetStateCovarianceMatrix =>
    simp only [exec, Est.resetStateCovarianceMatrix, Res.bind_eq_ok] at h
    obtain ⟨f, h1, h2⟩ := h
    obtain ⟨P', -, rfl⟩ := setCov_eq hi.f.nt h1
    cases h2
    exact Kept.has (by constructor <;> rfl) hc
  | setTorquesLimit v => cases h; exact ⟨hc.nb, hc.force, hc.abs, hc.bias, hc.unmodeled, hc.forceVar, hc.forceVar3, hc.absVar, rfl, hc.forces, hc.limit, hc.on, hc.fd⟩
  | setForcesLimit v => cases h; exact ⟨hc.nb, hc.force, hc.abs, hc.bias, hc.unmodeled, hc.forceVar, hc.forceVar3, hc.absVar, hc.torques, rfl, hc.limit, hc.on, hc.fd⟩
  | setLimitOn v => cases h; exact ⟨hc.nb, hc.force, hc.abs, hc.bias, hc.unmodeled, hc.forceVar, hc.forceVar3, hc.absVar, hc.torques, hc.forces, rfl, hc.on, hc.fd⟩
  | setOn v => cases h; exact ⟨hc.nb, hc.force, hc.abs, hc.bias, hc.unmodeled, hc.forceVar, hc.forceVar3, hc.absVar, hc.torques, hc.forces, hc.limit, rfl, hc.fd⟩
  | useFiniteDifferencesJacobians v =>
    cases h; exact ⟨hc.nb, hc.force, hc.abs, hc.bias, hc.unmodeled, hc.forceVar, hc.forceVar3, hc.absVar, hc.torques, hc.forces, hc.limit, hc.on, rfl⟩
  | setJacobians A C =>
    simp only [exec, setA, setC, Res.bind_eq_ok] at h
    obtain ⟨f, ⟨_, -, h1⟩, g, ⟨_, -, h2⟩, h3⟩ := h
    cases h1; cases h2; cases h3
    exact ⟨hc.nb, hc.force, hc.abs, hc.bias, hc.unmodeled, hc.forceVar, hc.forceVar3, hc.absVar, hc.torques, hc.forces, hc.limit, hc.on, rfl⟩
  | setMeasurement y =>
    obtain ⟨w, rfl, rfl⟩ := setMeas_eq hi h
    exact Kept.has (by constructor <;> rfl) hc
  | setInput u =>
    obtain ⟨w, u', rfl, rfl, hu⟩ := setInput_eq hi h
    exact Kept.has (by constructor <;> rfl) hc
  | setMeasurementInput u =>
    obtain ⟨w, a, rfl, rfl, -⟩ := setMeasInput_eq hi h
    exact Kept.has (by constructor <;> rfl) hc
  | setFlexibilityGuess x =>
    obtain ⟨w, rfl, -⟩ := setGuess_eq hi h
    exact Kept.has (by constructor <;> rfl) hc
  | setComBiasGuess b =>
    obtain ⟨l, hl, -, rfl⟩ := setComBias_eq hi h
    exact Kept.has (by constructor <;> rfl) hc
  | getFlexibilityVector => exact (getVector_kept hi h).has hc
  | getFlexibility =>
    simp only [exec, Est.getFlexibility, Res.bind_eq_ok] at h
    obtain ⟨⟨M, t'⟩, ⟨t1, h1, h2⟩, h3⟩ := h
    split_ifs at h2
    cases h2; cases h3
    exact (getVector_kept hi h1).has hc
  | getForcesAndMoments =>
    simp only [exec, Est.getForcesAndMoments, Res.bind_eq_ok] at h
    obtain ⟨⟨M, t'⟩, ⟨t1, h1, h2⟩, h3⟩ := h
    split_ifs at h2
    cases h2; cases h3
    exact (getVector_kept hi h1).has hc
  | getMomentaDotFromForces b =>
    simp only [exec, Est.getMomentaDotFromForces, Res.bind_eq_ok] at h
    obtain ⟨⟨M, t'⟩, h, h3⟩ := h
    cases h3
    split_ifs at h
    · simp only [Res.bind_eq_ok] at h
      obtain ⟨⟨u, s1⟩, h1, ⟨w, f⟩, h2, h3⟩ := h
      have i1 := arguments_inv hi h1
      rw [← (Prod.mk.inj (Res.ok.inj h3)).2]
      exact ((arguments_kept hi h1).trans (setSys_kept (momF_same i1.f.reach.inv h2).nb)).has hc
    · cases h; exact hc
  | getMomentaDotFromKinematics b =>
    simp only [exec, Est.getMomentaDotFromKinematics, Res.bind_eq_ok] at h
    obtain ⟨⟨M, t'⟩, h, h3⟩ := h
    cases h3
    split_ifs at h
    · simp only [Res.bind_eq_ok] at h
      obtain ⟨⟨u, s1⟩, h1, ⟨w, f⟩, h2, h3⟩ := h
      have i1 := arguments_inv hi h1
      rw [← (Prod.mk.inj (Res.ok.inj h3)).2]
      exact ((arguments_kept hi h1).trans (setSys_kept (momK_same i1.f.reach.inv h2).nb)).has hc
    · cases h; exact hc
  | computeAccelerations b =>
    simp only [exec, Est.computeAccelerations, Res.bind_eq_ok] at h
    obtain ⟨⟨M, t'⟩, ⟨⟨u, s1⟩, h1, ⟨w, f⟩, h2, h3⟩, h4⟩ := h
    cases h4
    have i1 := arguments_inv hi h1
    rw [← (Prod.mk.inj (Res.ok.inj h3)).2]
    exact ((arguments_kept hi h1).trans (setSys_kept (acc_same i1.f.reach.inv h2).nb)).has hc
  | getSimulatedMeasurement =>
    simp only [exec, Est.getSimulatedMeasurement, Res.bind_eq_ok] at h
    obtain ⟨⟨y, t'⟩, ⟨t1, h1, k, -, x, -, ⟨y', f⟩, h2, h4⟩, h3⟩ := h
    cases h4; cases h3
    have i1 := inv_getVector hi h1
    have k : Kept t1 { t1 with ekf := f } := ⟨(simulateSensor_upd i1.f.reach h2).same.nb, rfl, rfl, rfl, rfl, rfl, rfl, rfl, rfl, rfl, rfl, rfl⟩
    exact ((getVector_kept hi h1).trans k).has hc
  | getPrediction =>
    simp only [exec, Res.bind_eq_ok] at h
    obtain ⟨f, hf, h⟩ := h
    cases h
    exact Kept.has ⟨(updateState_upd hi.f.reach hf).same.nb, rfl, rfl, rfl, rfl, rfl, rfl, rfl, rfl, rfl, rfl, rfl⟩ hc
  | getPredictedMeasurement =>
    simp only [exec, Res.bind_eq_ok] at h
    obtain ⟨f, hf, h⟩ := h
    cases h
    exact Kept.has ⟨(updateBoth_upd hi.f.reach hf).same.nb, rfl, rfl, rfl, rfl, rfl, rfl, rfl, rfl, rfl, rfl, rfl⟩ hc

theorem has_fold : ∀ (ops : List Op) {s t : Est} {c : Config}, Inv s → Has s c → ops.foldlM exec s = .ok t → Has t (ops.foldl Config.after c)
  | [], s, t, c, _, hc, h => by cases h; exact hc
  | op :: ops, s, t, c, hi, hc, h => by
    simp only [List.foldlM_cons, Res.bind_eq_ok] at h
    obtain ⟨s1, h1, h2⟩ := h
    exact has_fold ops (inv_exec hi op h1) (has_exec hi hc op h1) h2

/-- In every reachable state the estimator has the options that the client chose. -/
theorem has_run {mem : ℕ → ℕ → ℕ → ℝ} {dt : ℝ} {ops : List Op} {s : Est} (h : run mem dt ops = .ok s) : Has s (Config.of ops) := by
  obtain ⟨s0, e, hi, h1, h2, h3, -, -, -, -, -, -, -, -, -, -, -, -, -, h4, h5, h6, h7, h8, h9, h10, h11, h12, -⟩ := ctor_eq mem dt
  rw [run, e, Res.ok_bind] at h
  refine has_fold ops hi ⟨by rw [h8]; rfl, h4, h5, h6, h7, fun d e => ?_, fun e => by simp [Config.default] at e, h12, h9, h10, h3, h1, h2⟩ h
  simp only [Config.default, Option.some.injEq] at e
  rw [h11, e]

end StateObs.ModelFlex
