import Verif.ModelFlex.CovLemmas
import Verif.ModelFlex.Stuck
/-!
# C94: process noise, covariance of the state and options

`s.Q` is what `getProcessNoiseCovariance()` returns, `s.ekf.st.q` the matrix that the filter uses and `s.ekf.st.pr` what `getFlexibilityCovariance()` returns. The components of the
state are: 0 to 23 motion and contact forces, 24 to 29 unmodelled forces, 30 and 31 bias of the centre of mass, 32 to 34 drift.
-/

namespace StateObs.ModelFlex
open StateObs KF Imu Rot Kine Matrix Obs
open StateObs.Elastic (at1)

theorem updateR_flat {s t : Est} (h0 : Flat s) (h : s.updateR = .ok t) : Flat t := by
  obtain ⟨R, n, -, rfl⟩ := updateR_eq h
  exact ⟨⟨h0.f.x, h0.f.xbar, h0.f.xk, h0.f.xk1⟩, h0.lastX, h0.Q, h0.P, h0.fd⟩

theorem resizeF_flat {s : Est} (hi : Inv s) (h0 : FFlat s.ekf) {sys : Elastic.Sys Unit} (h1 : sys.xk = s.sys.xk) (h2 : sys.xk1 = s.sys.xk1) :
    FFlat (resizeF s.ekf sys) ∧ (resizeF s.ekf sys).st.pr = s.ekf.st.pr := by
  obtain ⟨y, u, c, r, e, -⟩ := resizeF_eq hi.f sys
  rw [e]
  refine ⟨⟨h0.x, h0.xbar, ?_, ?_⟩, rfl⟩
  · show Tail sys.xk; rw [h1]; exact h0.xk
  · show Tail sys.xk1; rw [h2]; exact h0.xk1

theorem setSys_flat {s : Est} (h0 : Flat s) {sys : Elastic.Sys Unit} (h1 : sys.xk = s.sys.xk) (h2 : sys.xk1 = s.sys.xk1) : Flat (s.setSys sys) := by
  refine ⟨⟨h0.f.x, h0.f.xbar, ?_, ?_⟩, h0.lastX, h0.Q, h0.P, h0.fd⟩
  · show Tail sys.xk; rw [h1]; exact h0.f.xk
  · show Tail sys.xk1; rw [h2]; exact h0.f.xk1

theorem acc_keep {s f : Elastic.Sys Unit} {x u : DVec} {w} (h : Elastic.Inv s) (e1 : s.computeAccelerations x u = .ok (w, f)) : f.xk = s.xk ∧ f.xk1 = s.xk1 := by
  obtain ⟨hx, hu⟩ := Elastic.computeAccelerations_sizes e1
  obtain ⟨rt, hr, e2⟩ := Elastic.computeAccelerations_eq h.rot x u hx hu
  rw [e2] at e1
  obtain ⟨a, -, e1⟩ := Res.bind_eq_ok.1 e1
  cases e1
  exact ⟨rfl, rfl⟩

theorem momF_keep {s f : Elastic.Sys Unit} {x u : DVec} {w} (h : Elastic.Inv s) (e1 : s.momentaDotFromForces x u = .ok (w, f)) : f.xk = s.xk ∧ f.xk1 = s.xk1 := by
  obtain ⟨hx, hu⟩ := Elastic.momentaForces_sizes e1
  obtain ⟨rt, hr, e2⟩ := Elastic.momentaForces_eq h.rot x u hx hu
  rw [e2] at e1
  obtain ⟨a, -, e1⟩ := Res.bind_eq_ok.1 e1
  cases e1
  exact ⟨rfl, rfl⟩

theorem momK_keep {s f : Elastic.Sys Unit} {x u : DVec} {w} (h : Elastic.Inv s) (e1 : s.momentaDotFromKinematics x u = .ok (w, f)) : f.xk = s.xk ∧ f.xk1 = s.xk1 := by
  obtain ⟨hx, hu⟩ := Elastic.momentaKine_sizes e1
  obtain ⟨rt, hr, e2⟩ := Elastic.momentaKine_eq h.rot x u hx hu
  rw [e2] at e1
  obtain ⟨a, -, e1⟩ := Res.bind_eq_ok.1 e1
  cases e1
  exact ⟨rfl, rfl⟩

theorem arguments_flat {s t : Est} {u : DVec} {b : Bool} (hi : Inv s) (h0 : Flat s) (h : s.arguments b = .ok (u, t)) : Flat t := by
  unfold Est.arguments at h
  split_ifs at h <;> simp only [Res.bind_eq_ok] at h
  · obtain ⟨_, -, t', h1, h2⟩ := h
    cases h2
    exact getVector_flat hi h0 h1
  · obtain ⟨t', h1, _, -, h2⟩ := h
    cases h2
    exact getVector_flat hi h0 h1

/-- The calls that neither change a covariance of the state or of the process, nor give a state or Jacobians. -/
def Op.keepsVariances : Op → Bool
  | .resetCovarianceMatrices | .setProcessNoiseCovariance _ | .setFlexibilityCovariance _ | .setUnmodeledForceVariance _ | .setUnmodeledForceProcessVariance _
  | .setJacobians _ _ | .setFlexibilityGuess _ | .setComBiasGuess _ => false
  | _ => true

theorem flat_exec {s t : Est} (hi : Inv s) (h0 : Flat s) (op : Op) (hop : op.keepsVariances = true) (h : exec s op = .ok t) : Flat t := by
  cases op with
  | param p =>
    simp only [exec, Res.bind_eq_ok] at h
    obtain ⟨⟨f, _⟩, h1, h2⟩ := h
    cases h2
    refine setSys_flat h0 ?_ ?_ <;> cases p <;> cases h1 <;> rfl
  | setContactsNumber n =>
    obtain ⟨sys, hs⟩ : ∃ x, { s.sys with nb := n }.updateMeasurementSize = x := ⟨_, rfl⟩
    obtain ⟨a, b⟩ := resizeF_flat hi h0.f (sys := sys) (by rw [← hs]; rfl) (by rw [← hs]; rfl)
    have h0 : Flat { s with ekf := resizeF s.ekf sys } := ⟨a, h0.lastX, h0.Q, by show Null (resizeF s.ekf sys).st.pr; rw [b]; exact h0.P, h0.fd⟩
    rcases setContactsNumber_eq hi h hs with ⟨h, -⟩ | ⟨rfl, -⟩
    · exact updateR_flat h0 h
    · exact h0
  | setWithForcesMeasurements b =>
    by_cases hb : s.useFT = b
    · simp only [exec] at h
      rw [Est.setWithForcesMeasurements, if_neg (by simpa using hb)] at h
      cases h
      exact h0
    · obtain ⟨a, c⟩ := resizeF_flat hi h0.f (sys := { s.sys with withForce := b }.updateMeasurementSize) rfl rfl
      have hf : Flat { s with useFT := b, ekf := resizeF s.ekf { s.sys with withForce := b }.updateMeasurementSize } := ⟨a, h0.lastX, h0.Q, by show Null (resizeF s.ekf _).st.pr; rw [c]; exact h0.P, h0.fd⟩
      exact updateR_flat hf (setWithForces_eq hi hb h)
  | setWithAbsolutePos b =>
    by_cases hb : s.withAbs = b
    · simp only [exec] at h
      rw [Est.setWithAbsolutePos, if_neg (by simpa using hb)] at h
      cases h
      exact h0
    · obtain ⟨a, c⟩ := resizeF_flat hi h0.f (sys := { s.sys with withAbs := b }.updateMeasurementSize) rfl rfl
      have hf : Flat { s with withAbs := b, ekf := resizeF s.ekf { s.sys with withAbs := b }.updateMeasurementSize } := ⟨a, h0.lastX, h0.Q, by show Null (resizeF s.ekf _).st.pr; rw [c]; exact h0.P, h0.fd⟩
      exact updateR_flat hf (setWithAbs_eq hi hb h)
  | setWithUnmodeledForces b =>
    by_cases hb : s.withUnmodeled = b
    · simp only [exec] at h
      rw [Est.setWithUnmodeledForces, if_neg (by simpa using hb)] at h
      cases h
      exact h0
    · obtain ⟨a, c⟩ := resizeF_flat hi h0.f (sys := { s.sys with withUnmodeled := b }) rfl rfl
      have hf : Flat { s with withUnmodeled := b, ekf := resizeF s.ekf { s.sys with withUnmodeled := b } } := ⟨a, h0.lastX, h0.Q, by show Null (resizeF s.ekf _).st.pr; rw [c]; exact h0.P, h0.fd⟩
      exact updateR_flat hf (setWithUnmodeled_eq hi hb h)
  | setWithComBias b =>
    cases h
    show Flat (if s.withBias ≠ b then _ else s)
    split_ifs with hb
    · exact setSys_flat (s := { s with withBias := b }) (sys := { s.sys with withBias := b }) ⟨h0.f, h0.lastX, h0.Q, h0.P, h0.fd⟩ rfl rfl
    · exact h0
  | setUnmodeledForceVariance d => simp [Op.keepsVariances] at hop
  | setUnmodeledForceProcessVariance d => simp [Op.keepsVariances] at hop
  | setForceVariance d => exact updateR_flat (s := { s with forceVar := square 6 (scalar d) }) ⟨h0.f, h0.lastX, h0.Q, h0.P, h0.fd⟩ h
  | setForceVariance3 V => exact updateR_flat (s := { s with forceVar := ⟨3, 3, V⟩ }) ⟨h0.f, h0.lastX, h0.Q, h0.P, h0.fd⟩ h
  | setAbsolutePosVariance d => exact updateR_flat (s := { s with absVar := d }) ⟨h0.f, h0.lastX, h0.Q, h0.P, h0.fd⟩ h
  | setMeasurementNoiseCovariance R =>
    simp only [exec, Est.setMeasurementNoiseCovariance, Res.bind_eq_ok] at h
    obtain ⟨_, -, h⟩ := h
    exact updateR_flat (s := { s with R := R }) ⟨h0.f, h0.lastX, h0.Q, h0.P, h0.fd⟩ h
  | setProcessNoiseCovariance Q => simp [Op.keepsVariances] at hop
  | setFlexibilityCovariance P => simp [Op.keepsVariances] at hop
  | resetCovarianceMatrices => simp [Op.keepsVariances] at hop
  | resetStateCovarianceMatrix =>
    simp only [exec, Est.resetStateCovarianceMatrix, setStateCovariance, Res.bind_eq_ok] at h
    obtain ⟨f, ⟨_, -, h1⟩, h2⟩ := h
    cases h1; cases h2
    exact ⟨⟨h0.f.x, h0.f.xbar, h0.f.xk, h0.f.xk1⟩, h0.lastX, h0.Q, h0.Q, h0.fd⟩
  | setTorquesLimit v => cases h; exact ⟨h0.f, h0.lastX, h0.Q, h0.P, h0.fd⟩
  | setForcesLimit v => cases h; exact ⟨h0.f, h0.lastX, h0.Q, h0.P, h0.fd⟩
  | setLimitOn v => cases h; exact ⟨h0.f, h0.lastX, h0.Q, h0.P, h0.fd⟩
  | setOn v => cases h; exact ⟨h0.f, h0.lastX, h0.Q, h0.P, h0.fd⟩
  | useFiniteDifferencesJacobians v => cases h; exact ⟨h0.f, h0.lastX, h0.Q, h0.P, rfl⟩
  | setJacobians A C => simp [Op.keepsVariances] at hop
  | setMeasurement y =>
    obtain ⟨w, rfl, rfl⟩ := setMeas_eq hi h
    exact ⟨⟨h0.f.x, h0.f.xbar, h0.f.xk, h0.f.xk1⟩, h0.lastX, h0.Q, h0.P, h0.fd⟩
  | setInput u =>
    obtain ⟨w, u', rfl, rfl, hu⟩ := setInput_eq hi h
    exact ⟨⟨h0.f.x, h0.f.xbar, h0.f.xk, h0.f.xk1⟩, h0.lastX, h0.Q, h0.P, h0.fd⟩
  | setMeasurementInput u =>
    obtain ⟨w, a, rfl, rfl, -⟩ := setMeasInput_eq hi h
    exact ⟨⟨h0.f.x, h0.f.xbar, h0.f.xk, h0.f.xk1⟩, h0.lastX, h0.Q, h0.P, h0.fd⟩
  | setFlexibilityGuess x => simp [Op.keepsVariances] at hop
  | setComBiasGuess b => simp [Op.keepsVariances] at hop
  | getFlexibilityVector => exact getVector_flat hi h0 h
  | getFlexibility =>
    simp only [exec, Est.getFlexibility, Res.bind_eq_ok] at h
    obtain ⟨⟨M, t'⟩, ⟨t1, h1, h2⟩, h3⟩ := h
    split_ifs at h2
    cases h2; cases h3
    exact getVector_flat hi h0 h1
  | getForcesAndMoments =>
    simp only [exec, Est.getForcesAndMoments, Res.bind_eq_ok] at h
    obtain ⟨⟨M, t'⟩, ⟨t1, h1, h2⟩, h3⟩ := h
    split_ifs at h2
    cases h2; cases h3
    exact getVector_flat hi h0 h1
  | getMomentaDotFromForces b =>
    simp only [exec, Est.getMomentaDotFromForces, Res.bind_eq_ok] at h
    obtain ⟨⟨M, t'⟩, h, h3⟩ := h
    cases h3
    split_ifs at h
    · simp only [Res.bind_eq_ok] at h
      obtain ⟨⟨u, s1⟩, h1, ⟨w, f⟩, h2, h3⟩ := h
      have i1 := arguments_inv hi h1
      rw [← (Prod.mk.inj (Res.ok.inj h3)).2]
      obtain ⟨a, b⟩ := momF_keep i1.f.reach.inv h2
      exact setSys_flat (arguments_flat hi h0 h1) a b
    · cases h; exact h0
  | getMomentaDotFromKinematics b =>
    simp only [exec, Est.getMomentaDotFromKinematics, Res.bind_eq_ok] at h
    obtain ⟨⟨M, t'⟩, h, h3⟩ := h
    cases h3
    split_ifs at h
    · simp only [Res.bind_eq_ok] at h
      obtain ⟨⟨u, s1⟩, h1, ⟨w, f⟩, h2, h3⟩ := h
      have i1 := arguments_inv hi h1
      rw [← (Prod.mk.inj (Res.ok.inj h3)).2]
      obtain ⟨a, b⟩ := momK_keep i1.f.reach.inv h2
      exact setSys_flat (arguments_flat hi h0 h1) a b
    · cases h; exact h0
  | computeAccelerations b =>
    simp only [exec, Est.computeAccelerations, Res.bind_eq_ok] at h
    obtain ⟨⟨M, t'⟩, ⟨⟨u, s1⟩, h1, ⟨w, f⟩, h2, h3⟩, h4⟩ := h
    cases h4
    have i1 := arguments_inv hi h1
    rw [← (Prod.mk.inj (Res.ok.inj h3)).2]
    obtain ⟨a, b⟩ := acc_keep i1.f.reach.inv h2
    exact setSys_flat (arguments_flat hi h0 h1) a b
  | getSimulatedMeasurement =>
    simp only [exec, Est.getSimulatedMeasurement, Res.bind_eq_ok] at h
    obtain ⟨⟨y, t'⟩, ⟨t1, h1, k, -, x, -, ⟨y', f⟩, h2, h4⟩, h3⟩ := h
    cases h4; cases h3
    have i1 := inv_getVector hi h1
    have f1 := getVector_flat hi h0 h1
    have u := simulateSensor_upd i1.f.reach h2
    exact ⟨simulate_flat i1.f f1.f h2, f1.lastX, f1.Q, by show Null f.st.pr; rw [u.pr]; exact f1.P, f1.fd⟩
  | getPrediction =>
    simp only [exec, Res.bind_eq_ok] at h
    obtain ⟨f, hf, h⟩ := h
    cases h
    exact ⟨updateState_flat hi.f h0.f hf, h0.lastX, h0.Q, by show Null f.st.pr; rw [(updateState_upd hi.f.reach hf).pr]; exact h0.P, h0.fd⟩
  | getPredictedMeasurement =>
    simp only [exec, Res.bind_eq_ok] at h
    obtain ⟨f, hf, h⟩ := h
    cases h
    exact ⟨updateBoth_flat hi.f h0.f hf, h0.lastX, h0.Q, by show Null f.st.pr; rw [(updateBoth_upd hi.f.reach hf).pr]; exact h0.P, h0.fd⟩

theorem flat_fold : ∀ (ops : List Op) {s t : Est}, Inv s → Flat s → (∀ op ∈ ops, op.keepsVariances = true) → ops.foldlM exec s = .ok t → Flat t
  | [], s, t, _, hf, _, h => by cases h; exact hf
  | op :: ops, s, t, hi, hf, ho, h => by
    simp only [List.foldlM_cons, Res.bind_eq_ok] at h
    obtain ⟨s1, h1, h2⟩ := h
    exact flat_fold ops (inv_exec hi op h1) (flat_exec hi hf op (ho op (by simp)) h1) (fun o h => ho o (by simp [h])) h2

/-! ## The properties -/

/-- The variances after a reset: the motion, the contact forces, and, according to the options, the unmodelled forces, the bias of the centre of mass and the drift. -/
noncomputable def expectedQ (c : Config) (i : ℕ) : ℝ :=
  if i < 12 then 1e-8 else if i < 24 then 1e-4 else if i < 30 then (if c.unmodeled then 1e-2 else 0) else if i < 32 then (if c.bias then 2.5e-10 else 0) else if c.abs then 1e-8 else 0

theorem diag_set (g : ℕ → ℝ) (r h : ℕ) (d : ℝ) : setBlk (fun i j => if i = j then g i else 0) r r h h (scalar d) =
    fun i j => if i = j then (if r ≤ i ∧ i < r + h then d else g i) else 0 := by
  funext i j
  unfold setBlk scalar
  by_cases e : i = j
  · subst e; simp
  · simp only [if_neg e]
    rw [ite_eq_right_iff]
    intro h
    exact if_neg (by omega)

theorem scalar_if (b : Bool) (d : ℝ) : (if b = true then scalar d else 0 : ℕ → ℕ → ℝ) = scalar (if b = true then d else 0) := by
  cases b
  · funext i j; simp [scalar]
  · simp

theorem resetQ_at {s : Est} {c : Config} (hc : Has s c) (i j : ℕ) (hj : j < 35) : s.resetQ i j = if i = j then expectedQ c i else 0 := by
  unfold Est.resetQ defaultQ expectedQ
  rw [hc.unmodeled, hc.bias, hc.abs, scalar_if, scalar_if, scalar_if, show scalar 1 = fun i j => if i = j then (fun _ => (1 : ℝ)) i else 0 from rfl]
  simp only [diag_set]
  by_cases e : i = j
  · subst e
    simp only [if_true]
    interval_cases i <;> simp
  · simp only [if_neg e]

/-- In every reachable state the covariance of the process noise returned is the one that the filter uses, and both covariances have the size of the state. -/
theorem C94_size {mem : ℕ → ℕ → ℕ → ℝ} {dt : ℝ} {ops : List Op} {s : Est} (h : run mem dt ops = .ok s) :
    s.ekf.st.q = s.Q ∧ (∃ Q : Matrix (Fin 35) (Fin 35) ℝ, s.Q = ⟨35, 35, Q⟩) ∧ ∃ P : Matrix (Fin 35) (Fin 35) ℝ, s.ekf.st.pr = ⟨35, 35, P⟩ := by
  have hi := inv_run h
  exact ⟨hi.q, hi.qSize, hi.f.pr⟩

/-- After `resetCovarianceMatrices` both covariances are diagonal with the variances of the options. -/
theorem C94_reset {mem : ℕ → ℕ → ℕ → ℝ} {dt : ℝ} {ops : List Op} {s : Est} (h : run mem dt ops = .ok s) :
    ∃ t, exec s .resetCovarianceMatrices = .ok t ∧ ∃ Q : Matrix (Fin 35) (Fin 35) ℝ, Q = Matrix.diagonal (fun i : Fin 35 => expectedQ (Config.of ops) i) ∧
      t.Q = ⟨35, 35, Q⟩ ∧ t.ekf.st.q = ⟨35, 35, Q⟩ ∧ t.ekf.st.pr = ⟨35, 35, Q⟩ := by
  have hi := inv_run h
  have hc := has_run h
  have h6 : 6 ≤ s.sys.measSize := by rw [hc.size hi, Config.size]; omega
  have e : square 35 s.resetQ = ⟨35, 35, Matrix.diagonal (fun i : Fin 35 => expectedQ (Config.of ops) i)⟩ := by
    unfold square
    congr 1
    funext i j
    rw [resetQ_at hc i j j.2, Matrix.diagonal_apply]
    simp only [Fin.ext_iff]
  exact ⟨_, resetAll_live hi.f.mt h6 hi.f.nt, _, rfl, e, e, e⟩

/-- Covariances given by the client are accepted and used. -/
theorem C94_set {mem : ℕ → ℕ → ℕ → ℝ} {dt : ℝ} {ops : List Op} {s : Est} (h : run mem dt ops = .ok s) (Q : Matrix (Fin 35) (Fin 35) ℝ) :
    (∃ t, exec s (.setProcessNoiseCovariance ⟨35, 35, Q⟩) = .ok t ∧ t.Q = ⟨35, 35, Q⟩ ∧ t.ekf.st.q = ⟨35, 35, Q⟩ ∧ t.ekf.st.pr = s.ekf.st.pr) ∧
      ∃ t, exec s (.setFlexibilityCovariance ⟨35, 35, Q⟩) = .ok t ∧ t.ekf.st.pr = ⟨35, 35, Q⟩ ∧ t.Q = s.Q ∧ t.ekf.st.q = s.ekf.st.q := by
  have hi := inv_run h
  have hq : s.ekf.st.checkQ ⟨35, 35, Q⟩ = true := by rw [KData.checkQ, hi.f.nt]; exact DMat.hasSize_mk ..
  have hp : s.ekf.st.checkP ⟨35, 35, Q⟩ = true := by rw [KData.checkP, hi.f.nt]; exact DMat.hasSize_mk ..
  constructor
  · simp only [exec, Est.setProcessNoiseCovariance, setQ, hq, Res.assert_true, Res.ok_bind]
    exact ⟨_, rfl, rfl, rfl, rfl⟩
  · simp only [exec, Est.setFlexibilityCovariance, setStateCovariance, hp, Res.assert_true, Res.ok_bind]
    exact ⟨_, rfl, rfl, rfl, rfl⟩

theorem setWithUnmodeled_keep {s : Est} (hi : Inv s) (b : Bool) :
    ∃ t, s.setWithUnmodeledForces b = .ok t ∧ Inv t ∧ t.ekf.st.pr = s.ekf.st.pr ∧ t.ekf.st.q = s.ekf.st.q ∧ t.Q = s.Q := by
  by_cases hb : s.withUnmodeled = b
  · exact ⟨s, by rw [Est.setWithUnmodeledForces, if_neg (by simpa using hb)], hi, rfl, rfl, rfl⟩
  · have e1 : setInputSize (s.setSys { s.sys with withUnmodeled := b }).ekf (48 + 12 * s.sys.nb) = (s.setSys { s.sys with withUnmodeled := b }).ekf :=
      setInputSize_same _ hi.f.p
    have e2 : setMeasureSize (s.setSys { s.sys with withUnmodeled := b }).ekf s.sys.measSize = (s.setSys { s.sys with withUnmodeled := b }).ekf :=
      setMeasureSize_same _ hi.f.m hi.f.mt
    obtain ⟨R, hR⟩ := hi.rSize
    have e3 : s.setWithUnmodeledForces b = .ok { s.setSys { s.sys with withUnmodeled := b } with
        withUnmodeled := b, ekf := { (s.setSys { s.sys with withUnmodeled := b }).ekf with st := { (s.setSys { s.sys with withUnmodeled := b }).ekf.st with r := s.R } } } := by
      rw [Est.setWithUnmodeledForces, if_pos hb]
      refine Eq.trans (congrArg (fun g : Filter => Est.updateR { s.setSys { s.sys with withUnmodeled := b } with ekf := g, withUnmodeled := b })
        ((congrArg (fun g : Filter => setInputSize g (48 + 12 * s.sys.nb)) e2).trans e1)) ?_
      exact updateR_keep (s := { s.setSys { s.sys with withUnmodeled := b } with withUnmodeled := b }) hi.f.mt hR
    exact ⟨_, e3, inv_setWithUnmodeled hi e3, rfl, rfl, rfl⟩

/-- `setUnmodeledForceVariance(d)` sets the six variances of the unmodelled forces in the covariance of the state and nothing else in it;
`setUnmodeledForceProcessVariance(d)` does so in the covariance of the process noise. -/
theorem C94_unmodeled {mem : ℕ → ℕ → ℕ → ℝ} {dt : ℝ} {ops : List Op} {s : Est} (h : run mem dt ops = .ok s) (d : ℝ) {P Q : Matrix (Fin 35) (Fin 35) ℝ}
    (hP : s.ekf.st.pr = ⟨35, 35, P⟩) (hQ : s.Q = ⟨35, 35, Q⟩) :
    (∃ t P', exec s (.setUnmodeledForceVariance d) = .ok t ∧ t.ekf.st.pr = ⟨35, 35, P'⟩ ∧ t.Q = s.Q ∧ t.ekf.st.q = s.ekf.st.q ∧
      ∀ i j : Fin 35, P' i j = if i = j ∧ 24 ≤ i.val ∧ i.val < 30 then d else P i j) ∧
    ∃ t Q', exec s (.setUnmodeledForceProcessVariance d) = .ok t ∧ t.Q = ⟨35, 35, Q'⟩ ∧ t.ekf.st.q = ⟨35, 35, Q'⟩ ∧ t.ekf.st.pr = s.ekf.st.pr ∧
      ∀ i j : Fin 35, Q' i j = if i = j ∧ 24 ≤ i.val ∧ i.val < 30 then d else Q i j := by
  have hi := inv_run h
  constructor
  · have i0 : Inv { s with unmodeledVar := d } := by have := hi.toInv0; exact ⟨by cases this; constructor <;> assumption, hi.r, hi.rSize⟩
    obtain ⟨s1, e1, i1, k1, k2, k3⟩ : ∃ s1, (if d > 0 then Est.setWithUnmodeledForces { s with unmodeledVar := d } true else .ok { s with unmodeledVar := d }) = .ok s1 ∧
        Inv s1 ∧ s1.ekf.st.pr = s.ekf.st.pr ∧ s1.ekf.st.q = s.ekf.st.q ∧ s1.Q = s.Q := by
      split_ifs
      · exact setWithUnmodeled_keep i0 true
      · exact ⟨_, rfl, i0, rfl, rfl, rfl⟩
    have e2 : setDiag6 s1.ekf.st.pr 24 d = .ok ⟨35, 35, fun i j => if i.val = j.val ∧ 24 ≤ i.val ∧ i.val < 24 + 6 then d else P i j⟩ := by
      rw [k1, hP, setDiag6, if_pos ⟨by norm_num, by norm_num⟩]
    obtain ⟨M, hM⟩ : ∃ M : Matrix (Fin 35) (Fin 35) ℝ, M = fun i j => if i.val = j.val ∧ 24 ≤ i.val ∧ i.val < 24 + 6 then d else P i j := ⟨_, rfl⟩
    rw [← hM] at e2
    have e3 : s1.ekf.st.checkP ⟨35, 35, M⟩ = true := by rw [KData.checkP, i1.f.nt]; exact DMat.hasSize_mk ..
    refine ⟨{ s1 with ekf := { s1.ekf with st := { s1.ekf.st with pr := ⟨35, 35, M⟩ } }, P := ⟨35, 35, M⟩ }, M, ?_, rfl, k3, k2,
      fun i j => by simp only [hM, Fin.ext_iff, Nat.reduceAdd]⟩
    simp only [exec, Est.setUnmodeledForceVariance, e1, Res.ok_bind, e2, setStateCovariance, e3, Res.assert_true]
  · obtain ⟨M, hM⟩ : ∃ M : Matrix (Fin 35) (Fin 35) ℝ, M = fun i j => if i.val = j.val ∧ 24 ≤ i.val ∧ i.val < 24 + 6 then d else Q i j := ⟨_, rfl⟩
    have e2 : setDiag6 s.Q 24 d = .ok ⟨35, 35, M⟩ := by rw [hQ, setDiag6, if_pos ⟨by norm_num, by norm_num⟩, hM]
    have e3 : s.ekf.st.checkQ ⟨35, 35, M⟩ = true := by rw [KData.checkQ, hi.f.nt]; exact DMat.hasSize_mk ..
    have i1 : Inv { s with Q := ⟨35, 35, M⟩, ekf := { s.ekf with st := { s.ekf.st with q := ⟨35, 35, M⟩ } } } := ⟨inv0_setQ (Q := M) hi.toInv0, hi.r, hi.rSize⟩
    obtain ⟨t, e1, k1, k2, k3⟩ : ∃ t, (if d > 0 then Est.setWithUnmodeledForces { s with Q := ⟨35, 35, M⟩, ekf := { s.ekf with st := { s.ekf.st with q := ⟨35, 35, M⟩ } } } true
        else .ok { s with Q := ⟨35, 35, M⟩, ekf := { s.ekf with st := { s.ekf.st with q := ⟨35, 35, M⟩ } } }) = .ok t ∧
        t.ekf.st.pr = s.ekf.st.pr ∧ t.ekf.st.q = ⟨35, 35, M⟩ ∧ t.Q = ⟨35, 35, M⟩ := by
      split_ifs
      · obtain ⟨t, a1, -, a2, a3, a4⟩ := setWithUnmodeled_keep i1 true
        exact ⟨t, a1, a2, a3, a4⟩
      · exact ⟨_, rfl, rfl, rfl, rfl⟩
    refine ⟨t, M, ?_, k3, k2, k1, fun i j => by simp only [hM, Fin.ext_iff, Nat.reduceAdd]⟩
    simp only [exec, Est.setUnmodeledForceProcessVariance, e2, setQ, e3, Res.assert_true, Res.ok_bind]
    exact e1

/-- The options can be enabled, but the estimates of the unmodelled forces, of the bias of the centre of mass and of the drift stay null in every execution in which the client
neither resets nor sets the covariances, nor gives a guess or Jacobians: whatever the measurements are, enabling an option has no effect on the estimates. -/
theorem C94_options_false {mem : ℕ → ℕ → ℕ → ℝ} {dt : ℝ} {ops : List Op} {s t : Est} (ho : ∀ op ∈ ops, op.keepsVariances = true) (h : run mem dt ops = .ok s)
    (ht : exec s .getFlexibilityVector = .ok t) : ∀ i, 24 ≤ i → at1 t.lastX i = 0 := by
  obtain ⟨s0, e, hi, -, hfd, -, -, -, -, hl, hx, -, -, hxb, -, hQ, -, hpr, -, hu1, hu2, hu3, hu4, hsys, -⟩ := ctor_eq mem dt
  have r0 : run mem dt [] = .ok s0 := by rw [run, e]; rfl
  have hQ' : Null s0.Q := by
    rw [hQ]
    refine null_mk.2 fun i j hij => ?_
    rw [resetQ_at (has_run r0) i j j.2]
    split_ifs with hh
    · have hi24 : 24 ≤ i.val := by omega
      simp only [Config.of, List.foldl_nil, expectedQ, Config.default]
      rw [if_neg (by omega), if_neg (by omega)]
      simp
    · rfl
  have h0 : Flat s0 := by
    refine ⟨⟨fun x k e => ?_, fun x k e => ?_, ?_, ?_⟩, by rw [hl]; exact tail_zero 35, hQ', by rw [hpr]; exact hQ', hfd⟩
    · rw [hx] at e; cases e; exact tail_zero 35
    · rw [hxb] at e; cases e
    · have : s0.ekf.st.ext.sys.xk = Elastic.noVec := by show s0.sys.xk = _; rw [hsys]; rfl
      rw [this]; exact tail_zero 0
    · have : s0.ekf.st.ext.sys.xk1 = Elastic.noVec := by show s0.sys.xk1 = _; rw [hsys]; rfl
      rw [this]; exact tail_zero 0
  have hr := h
  rw [run, e, Res.ok_bind] at h
  exact (getVector_flat (inv_run hr) (flat_fold ops hi h0 ho h) ht).lastX

theorem unmodeled_live {s : Est} (hi : Inv s) (b : Bool) : ∃ t, exec s (.setWithUnmodeledForces b) = .ok t ∧ t.on = s.on ∧ t.ekf.y = s.ekf.y ∧ t.withUnmodeled = b := by
  by_cases hb : s.withUnmodeled = b
  · refine ⟨s, ?_, rfl, rfl, hb⟩
    simp only [exec]
    rw [Est.setWithUnmodeledForces, if_neg (by simpa using hb)]
  · simp only [exec]
    rw [Est.setWithUnmodeledForces, if_pos hb]
    have e1 : setMeasureSize (s.setSys { s.sys with withUnmodeled := b }).ekf s.sys.measSize = (s.setSys { s.sys with withUnmodeled := b }).ekf :=
      setMeasureSize_same _ hi.f.m hi.f.mt
    have e2 : setInputSize (s.setSys { s.sys with withUnmodeled := b }).ekf (48 + 12 * s.sys.nb) = (s.setSys { s.sys with withUnmodeled := b }).ekf := setInputSize_same _ hi.f.p
    obtain ⟨R, hR⟩ := hi.rSize
    have e3 := updateR_keep (s := { s.setSys { s.sys with withUnmodeled := b } with withUnmodeled := b }) hi.f.mt (R := R) hR
    refine ⟨_, Eq.trans ?_ e3, rfl, rfl, rfl⟩
    · show Est.updateR { s.setSys { s.sys with withUnmodeled := b } with
        ekf := setInputSize (setMeasureSize (s.setSys { s.sys with withUnmodeled := b }).ekf s.sys.measSize) (48 + 12 * s.sys.nb), withUnmodeled := b } = _
      rw [e1, e2]

/-- Such an execution: both options are enabled. -/
example (mem : ℕ → ℕ → ℕ → ℝ) (dt : ℝ) : ∃ s, run mem dt [.setWithUnmodeledForces true, .setWithComBias true] = .ok s ∧ exec s .getFlexibilityVector = .ok s ∧
    (Config.of [.setWithUnmodeledForces true, .setWithComBias true]).unmodeled = true := by
  obtain ⟨s0, e, hi, hon, -, -, -, -, -, -, -, hy, -⟩ := ctor_eq mem dt
  have r0 : run mem dt [] = .ok s0 := by rw [run, e]; rfl
  obtain ⟨s1, e1, h1, h2, -⟩ := unmodeled_live hi true
  have r1 := run_snoc r0 e1
  simp only [List.nil_append] at r1
  have r2 := run_snoc r1 (op := .setWithComBias true) (t := s1.setWithComBias true) rfl
  simp only [List.nil_append, List.cons_append] at r2
  have ho : (s1.setWithComBias true).on = s1.on := by unfold Est.setWithComBias; split_ifs <;> rfl
  have hz : (s1.setWithComBias true).ekf.y = s1.ekf.y := by unfold Est.setWithComBias; split_ifs <;> rfl
  exact ⟨_, r2, getVector_idle (by rw [ho, h1, hon]) (by rw [hz, h2, hy]), rfl⟩

end StateObs.ModelFlex
