import Verif.ModelFlex.QProps
/-! # Estimations do not use old predictions: the predictions kept by the filter are not about the future, unless the user asked for one -/

namespace StateObs.ModelFlex
open StateObs KF Imu Rot Kine Matrix Obs

/-- The predictions kept by the filter are for the time `k` at the latest. -/
def Past (k : Int) (f : Filter) : Prop := (∀ v t, f.st.xbar = some (v, t) → t ≤ k) ∧ ∀ v t, f.st.ybar = some (v, t) → t ≤ k

theorem Past.mono {k k' : Int} {f : Filter} (h : Past k f) (hk : k ≤ k') : Past k' f := ⟨fun v t e => (h.1 v t e).trans hk, fun v t e => (h.2 v t e).trans hk⟩

theorem Past.notX {k : Int} {f : Filter} (h : Past k f) : EKF.notCached f.st.xbar (k + 1) = true := by
  unfold EKF.notCached
  cases hx : f.st.xbar with
  | none => rfl
  | some v => obtain ⟨v, t⟩ := v; have := h.1 v t hx; simp; omega

theorem Past.notY {k : Int} {f : Filter} (h : Past k f) : EKF.notCached f.st.ybar (k + 1) = true := by
  unfold EKF.notCached
  cases hx : f.st.ybar with
  | none => rfl
  | some v => obtain ⟨v, t⟩ := v; have := h.2 v t hx; simp; omega

theorem prediction_past {f g : Filter} {k : Int} (h0 : Past k f) (h : prediction f k = .ok g) : Past k g := by
  unfold prediction at h
  split_ifs at h
  · simp only [Res.bind_eq_ok] at h
    obtain ⟨_, -, u, -, h⟩ := h
    cases hx : f.x with
    | none => rw [hx] at h; simp at h
    | some q =>
      rw [hx] at h
      simp only [Res.bind_eq_ok] at h
      obtain ⟨⟨v, sys, _⟩, -, h2⟩ := h
      cases h2
      exact ⟨fun v t e => by cases e; exact le_refl _, h0.2⟩
  · cases h; exact h0

theorem simulate_past {f g : Filter} {x y : DVec} {k k' : Int} (h0 : Past k f) (h : simulateSensor f x k' = .ok (y, g)) : Past k g := by
  unfold simulateSensor at h
  simp only [Res.bind_eq_ok] at h
  obtain ⟨_, -, u, -, ⟨v, sys, _⟩, -, h2⟩ := h
  cases h2
  exact h0

theorem predictSensor_past {f g : Filter} {k : Int} (h0 : Past k f) (h : predictSensor f k = .ok g) : Past k g := by
  unfold predictSensor at h
  split_ifs at h
  · simp only [Res.bind_eq_ok] at h
    obtain ⟨xb, -, ⟨y, g'⟩, h1, h2⟩ := h
    have := simulate_past h0 h1
    cases h2
    exact ⟨this.1, fun v t e => by cases e; exact le_refl _⟩
  · cases h; exact h0

theorem jacobians_past {b : Bool} {f g : Filter} {k : Int} {x : DVec} (hx : f.x = some (x, k)) (hr : Reach f.st.ext.sys) (h0 : Past (k + 1) f) (h : jacobians b f = .ok g) : Past (k + 1) g := by
  unfold jacobians at h
  split_ifs at h
  · simp only [Res.bind_eq_ok, setA, setC, updateStateAndMeasurementPrediction, updateStatePrediction, getCurrentTime, hx, Res.ok.injEq, exists_eq_left'] at h
    obtain ⟨f1, ⟨f0, h1, k', h2, h3⟩, ⟨A, s1, g1⟩, -, f2, ⟨_, -, h4⟩, ⟨C, s2, g2⟩, -, _, -, h5⟩ := h
    have e0 : f0.x = some (x, k) := (prediction_upd hr h1).x.trans hx
    rw [e0] at h2
    cases h2
    have p1 := predictSensor_past (prediction_past h0 h1) h3
    cases h4; cases h5
    exact p1
  · cases h; exact h0

theorem oneStep_past {f g : Filter} {x : DVec} {k : Int} (hr : Reach f.st.ext.sys) (hx : f.x = some (x, k)) (h0 : Past (k + 1) f) (h : oneStep virt f = .ok g) : Past (k + 1) g := by
  obtain ⟨g1, g', xb, yb, y, xhat, P, inn, K, h1, h2, -, -, -, -, -, -, -, -, e⟩ := oneStep_ok' hr hx h
  rw [e]
  have p := predictSensor_past (prediction_past h0 h1) h2
  exact ⟨p.1, p.2⟩

/-- The predictions kept by the estimator are not about the future. -/
def Fresh (s : Est) : Prop := Past s.k s.ekf

theorem getVector_fresh {s t : Est} (hi : Inv s) (h0 : Fresh s) (h : s.getFlexibilityVector = .ok t) : Fresh t := by
  obtain ⟨x, hx⟩ := hi.f.x
  by_cases hon : s.on = true
  · by_cases hy : s.ekf.y.v = []
    · rw [getVector_idle hon hy] at h; cases h; exact h0
    · obtain ⟨f1, f, z, o, hj, hs, hz, -, rfl⟩ := getVector_ok hi hon hy h
      have u := jacobians_upd hi.f.reach hj
      have p := jacobians_past hx hi.f.reach (h0.mono (by omega)) hj
      have p := oneStep_past u.reach (u.x.trans hx) p hs
      exact ⟨p.1, p.2⟩
  · rw [Est.getFlexibilityVector, if_neg hon] at h
    simp only [Res.bind_eq_ok, getCurrentTime, hx, Res.ok.injEq, exists_eq_left'] at h
    obtain ⟨f, hf, h⟩ := h
    obtain ⟨w, hw, rfl, hf'⟩ := hi.f.setState hf
    split_ifs at h
    · simp only [Est.resetStateCovarianceMatrix, setStateCovariance, Res.bind_eq_ok] at h
      obtain ⟨g, ⟨_, h1, h2⟩, h3⟩ := h
      cases h2; cases h3
      exact h0
    · cases h
      exact h0

theorem updateR_fresh {s t : Est} (h0 : Fresh s) (h : s.updateR = .ok t) : Fresh t := by
  obtain ⟨R, n, -, rfl⟩ := updateR_eq h
  exact h0

theorem resizeF_past {s : Est} (hi : Inv s) (h0 : Past s.k s.ekf) (sys : Elastic.Sys Unit) : Past s.k (resizeF s.ekf sys) := by
  obtain ⟨y, u, c, r, e, -⟩ := resizeF_eq hi.f sys
  rw [e]
  exact h0

theorem arguments_fresh {s t : Est} {u : DVec} {b : Bool} (hi : Inv s) (h0 : Fresh s) (h : s.arguments b = .ok (u, t)) : Fresh t := by
  unfold Est.arguments at h
  split_ifs at h <;> simp only [Res.bind_eq_ok] at h
  · obtain ⟨_, -, t', h1, h2⟩ := h
    cases h2
    exact getVector_fresh hi h0 h1
  · obtain ⟨t', h1, _, -, h2⟩ := h
    cases h2
    exact getVector_fresh hi h0 h1

theorem setWithUnmodeled_fresh {s t : Est} (hi : Inv s) (h0 : Fresh s) {b : Bool} (h : s.setWithUnmodeledForces b = .ok t) : Fresh t := by
  by_cases hb : s.withUnmodeled = b
  · rw [Est.setWithUnmodeledForces, if_neg (by simpa using hb)] at h
    cases h
    exact h0
  · have hf : Fresh { s with withUnmodeled := b, ekf := resizeF s.ekf { s.sys with withUnmodeled := b } } := resizeF_past hi h0 _
    exact updateR_fresh hf (setWithUnmodeled_eq hi hb h)

/-- The calls that compute a prediction of the state or of the measurement. -/
def Op.predicts : Op → Bool
  | .getPrediction | .getPredictedMeasurement => true
  | _ => false

theorem fresh_exec {s t : Est} (hi : Inv s) (h0 : Fresh s) (op : Op) (hop : op.predicts = false) (h : exec s op = .ok t) : Fresh t := by
  cases op with
  | param p =>
    simp only [exec, Res.bind_eq_ok] at h
    obtain ⟨⟨f, _⟩, h1, h2⟩ := h
    cases h2
    exact h0
  | setContactsNumber n =>
    obtain ⟨sys, hs⟩ : ∃ x, { s.sys with nb := n }.updateMeasurementSize = x := ⟨_, rfl⟩
    have h0 : Fresh { s with ekf := resizeF s.ekf sys } := resizeF_past hi h0 sys
    rcases setContactsNumber_eq hi h hs with ⟨h, -⟩ | ⟨rfl, -⟩
    · exact updateR_fresh h0 h
    · exact h0
  | setWithForcesMeasurements b =>
    by_cases hb : s.useFT = b
    · simp only [exec] at h
      rw [Est.setWithForcesMeasurements, if_neg (by simpa using hb)] at h
      cases h
      exact h0
    · have hf : Fresh { s with useFT := b, ekf := resizeF s.ekf { s.sys with withForce := b }.updateMeasurementSize } := resizeF_past hi h0 _
      exact updateR_fresh hf (setWithForces_eq hi hb h)
  | setWithAbsolutePos b =>
    by_cases hb : s.withAbs = b
    · simp only [exec] at h
      rw [Est.setWithAbsolutePos, if_neg (by simpa using hb)] at h
      cases h
      exact h0
    · have hf : Fresh { s with withAbs := b, ekf := resizeF s.ekf { s.sys with withAbs := b }.updateMeasurementSize } := resizeF_past hi h0 _
      exact updateR_fresh hf (setWithAbs_eq hi hb h)
  | setWithUnmodeledForces b => exact setWithUnmodeled_fresh hi h0 h
  | setWithComBias b =>
    cases h
    show Fresh (if s.withBias ≠ b then _ else s)
    split_ifs with hb
    · exact h0
    · exact h0
  | setUnmodeledForceVariance d =>
    simp only [exec, Est.setUnmodeledForceVariance, setStateCovariance, Res.bind_eq_ok] at h
    obtain ⟨s1, h1, P, -, f, ⟨_, -, h2⟩, h3⟩ := h
    cases h2; cases h3
    have i0 : Inv { s with unmodeledVar := d } := by have := hi.toInv0; exact ⟨by cases this; constructor <;> assumption, hi.r, hi.rSize⟩
    have : Fresh s1 := by
      split_ifs at h1
      · exact setWithUnmodeled_fresh i0 h0 h1
      · cases h1; exact h0
    exact this
  | setUnmodeledForceProcessVariance d =>
    have h' := h
    simp only [exec, Est.setUnmodeledForceProcessVariance, Res.bind_eq_ok] at h
    obtain ⟨Q, hQ, f, hf, h3⟩ := h
    obtain ⟨Q', rfl, rfl⟩ := setQ_eq hi.f.nt hf
    split_ifs at h3 with hd
    · refine setWithUnmodeled_fresh (s := { s with ekf := { s.ekf with st := { s.ekf.st with q := ⟨35, 35, Q'⟩ } }, Q := ⟨35, 35, Q'⟩ }) ?_ h0 h3
      exact inv_exec hi (.setProcessNoiseCovariance ⟨35, 35, Q'⟩) (by simp only [exec, Est.setProcessNoiseCovariance, hf, Res.ok_bind])
    · cases h3; exact h0
  | setForceVariance d => exact updateR_fresh (s := { s with forceVar := square 6 (scalar d) }) h0 h
  | setForceVariance3 V => exact updateR_fresh (s := { s with forceVar := ⟨3, 3, V⟩ }) h0 h
  | setAbsolutePosVariance d => exact updateR_fresh (s := { s with absVar := d }) h0 h
  | setMeasurementNoiseCovariance R =>
    simp only [exec, Est.setMeasurementNoiseCovariance, Res.bind_eq_ok] at h
    obtain ⟨_, -, h⟩ := h
    exact updateR_fresh (s := { s with R := R }) h0 h
  | setProcessNoiseCovariance Q =>
    simp only [exec, Est.setProcessNoiseCovariance, setQ, Res.bind_eq_ok] at h
    obtain ⟨f, ⟨_, -, h1⟩, h2⟩ := h
    cases h1; cases h2
    exact h0
  | setFlexibilityCovariance P =>
    simp only [exec, Est.setFlexibilityCovariance, setStateCovariance, Res.bind_eq_ok] at h
    obtain ⟨f, ⟨_, -, h1⟩, h2⟩ := h
    cases h1; cases h2
    exact h0
  | resetCovarianceMatrices =>
    simp only [exec, Est.resetCovarianceMatrices, Est.resetStateCovarianceMatrix, setStateCovariance, setQ, Res.bind_eq_ok] at h
    obtain ⟨_, -, s1, h1, f, ⟨_, -, h2⟩, g, ⟨_, -, h3⟩, h4⟩ := h
    cases h2; cases h3; cases h4
    have : Fresh s1 := updateR_fresh (by exact h0) h1
    exact this
  | resetStateCovarianceMatrix =>
    simp only [exec, Est.resetStateCovarianceMatrix, setStateCovariance, Res.bind_eq_ok] at h
    obtain ⟨f, ⟨_, -, h1⟩, h2⟩ := h
    cases h1; cases h2
    exact h0
  | setTorquesLimit v => cases h; exact h0
  | setForcesLimit v => cases h; exact h0
  | setLimitOn v => cases h; exact h0
  | setOn v => cases h; exact h0
  | useFiniteDifferencesJacobians v => cases h; exact h0
  | setJacobians A C =>
    simp only [exec, setA, setC, Res.bind_eq_ok] at h
    obtain ⟨f, ⟨_, -, h1⟩, g, ⟨_, -, h2⟩, h3⟩ := h
    cases h1; cases h2; cases h3
    exact h0
  | setMeasurement y =>
    obtain ⟨w, rfl, rfl⟩ := setMeas_eq hi h
    exact h0
  | setInput u =>
    obtain ⟨w, u', rfl, rfl, hu⟩ := setInput_eq hi h
    exact h0
  | setMeasurementInput u =>
    obtain ⟨w, a, rfl, rfl, -⟩ := setMeasInput_eq hi h
    exact h0
  | setFlexibilityGuess x =>
    obtain ⟨w, rfl, -⟩ := setGuess_eq hi h
    exact h0
  | setComBiasGuess b =>
    obtain ⟨l, -, -, rfl⟩ := setComBias_eq hi h
    exact h0
  | getFlexibilityVector => exact getVector_fresh hi h0 h
  | getFlexibility =>
    simp only [exec, Est.getFlexibility, Res.bind_eq_ok] at h
    obtain ⟨⟨M, t'⟩, ⟨t1, h1, h2⟩, h3⟩ := h
    split_ifs at h2
    cases h2; cases h3
    exact getVector_fresh hi h0 h1
  | getForcesAndMoments =>
    simp only [exec, Est.getForcesAndMoments, Res.bind_eq_ok] at h
    obtain ⟨⟨M, t'⟩, ⟨t1, h1, h2⟩, h3⟩ := h
    split_ifs at h2
    cases h2; cases h3
    exact getVector_fresh hi h0 h1
  | getMomentaDotFromForces b =>
    simp only [exec, Est.getMomentaDotFromForces, Res.bind_eq_ok] at h
    obtain ⟨⟨M, t'⟩, h, h3⟩ := h
    cases h3
    split_ifs at h
    · simp only [Res.bind_eq_ok] at h
      obtain ⟨⟨u, s1⟩, h1, ⟨w, f⟩, h2, h3⟩ := h
      rw [← (Prod.mk.inj (Res.ok.inj h3)).2]
      have p := arguments_fresh hi h0 h1
      exact ⟨p.1, p.2⟩
    · cases h; exact h0
  | getMomentaDotFromKinematics b =>
    simp only [exec, Est.getMomentaDotFromKinematics, Res.bind_eq_ok] at h
    obtain ⟨⟨M, t'⟩, h, h3⟩ := h
    cases h3
    split_ifs at h
    · simp only [Res.bind_eq_ok] at h
      obtain ⟨⟨u, s1⟩, h1, ⟨w, f⟩, h2, h3⟩ := h
      rw [← (Prod.mk.inj (Res.ok.inj h3)).2]
      have p := arguments_fresh hi h0 h1
      exact ⟨p.1, p.2⟩
    · cases h; exact h0
  | computeAccelerations b =>
    simp only [exec, Est.computeAccelerations, Res.bind_eq_ok] at h
    obtain ⟨⟨M, t'⟩, ⟨⟨u, s1⟩, h1, ⟨w, f⟩, h2, h3⟩, h4⟩ := h
    cases h4
    rw [← (Prod.mk.inj (Res.ok.inj h3)).2]
    have p := arguments_fresh hi h0 h1
    exact ⟨p.1, p.2⟩
  | getSimulatedMeasurement =>
    simp only [exec, Est.getSimulatedMeasurement, Res.bind_eq_ok] at h
    obtain ⟨⟨y, t'⟩, ⟨t1, h1, k, -, x, -, ⟨y', f⟩, h2, h4⟩, h3⟩ := h
    cases h4; cases h3
    have f1 := getVector_fresh hi h0 h1
    have p := simulate_past f1 h2
    exact ⟨p.1, p.2⟩
  | getPrediction => simp [Op.predicts] at hop
  | getPredictedMeasurement => simp [Op.predicts] at hop

theorem fresh_fold : ∀ (ops : List Op) {s t : Est}, Inv s → Fresh s → (∀ op ∈ ops, op.predicts = false) → ops.foldlM exec s = .ok t → Fresh t
  | [], s, t, _, hf, _, h => by cases h; exact hf
  | op :: ops, s, t, hi, hf, ho, h => by
    simp only [List.foldlM_cons, Res.bind_eq_ok] at h
    obtain ⟨s1, h1, h2⟩ := h
    exact fresh_fold ops (inv_exec hi op h1) (fresh_exec hi hf op (ho op (by simp)) h1) (fun o h => ho o (by simp [h])) h2

theorem fresh_run {mem : ℕ → ℕ → ℕ → ℝ} {dt : ℝ} {ops : List Op} {s : Est} (h : run mem dt ops = .ok s) (ho : ∀ op ∈ ops, op.predicts = false) : Fresh s := by
  obtain ⟨s0, e, hi, -, -, -, -, -, -, -, -, -, -, e1, e2, -⟩ := ctor_eq mem dt
  simp only [run, e, Res.ok_bind] at h
  exact fresh_fold ops hi ⟨fun v t h => (by rw [e1] at h; cases h), fun v t h => (by rw [e2] at h; cases h)⟩ ho h

end StateObs.ModelFlex
