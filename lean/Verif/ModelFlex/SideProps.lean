import Verif.ModelFlex.StepExample
import Verif.Kalman.Singular
/-!
# C96, covariance and steps of the finite differences; C99, the other outputs

`s.ekf.st.pr`, `s.Q` and `s.R` are what `getFlexibilityCovariance()`, `getProcessNoiseCovariance()` and `getMeasurementNoiseCovariance()` return.
-/

namespace StateObs.ModelFlex
open StateObs KF KFSpec Imu Rot Kine Matrix Obs
open StateObs.Elastic (at1 bump Estimated)
open StateObs.KO (at3)

/-! ## Covariance -/

/-- The three covariances are symmetric and positive semidefinite. -/
structure Cov (s : Est) : Prop where
  p : IsPSD s.ekf.st.pr
  q : IsPSD s.Q
  r : IsPSD s.R

theorem getVector_cov {s t : Est} (hi : Inv s) (h0 : Cov s) (h : s.getFlexibilityVector = .ok t) : Cov t := by
  by_cases hon : s.on = true
  · by_cases hy : s.ekf.y.v = []
    · rw [getVector_idle hon hy] at h; cases h; exact h0
    · obtain ⟨x, hx⟩ := hi.f.x
      obtain ⟨f1, f, z, o, hj, hs, hz, -, rfl⟩ := getVector_ok hi hon hy h
      have u := jacobians_upd hi.f.reach hj
      obtain ⟨g1, g, xb, yb, y, xhat, P', inn, K, -, -, up, ea, ec, ⟨h1, h2, h3, h4, h5⟩, -, -, -, hc, rfl⟩ := oneStep_ok' u.reach (u.x.trans hx) hs
      obtain ⟨A, Q, P, C, R, hm⟩ := hasMats_of_checks _ h1 h2 h3 h4 h5
      have hm1 : HasMats g.st f1.st.nt f1.st.mt A Q P C R :=
        ⟨up.nt.trans hm.hnt, up.mt.trans hm.hmt, ea.trans hm.a, up.q.trans hm.q, up.pr.trans hm.pr, ec.trans hm.c, up.r.trans hm.r⟩
      have hP : P.PosSemidef := by have := h0.p; rw [← u.pr, hm.pr] at this; exact isPSD_mk.1 this
      have hQ : Q.PosSemidef := by have := h0.q; rw [← hi.q, ← u.q, hm.q] at this; exact isPSD_mk.1 this
      have hR : R.PosSemidef := by have := h0.r; rw [← hi.r, ← u.r, hm.r] at this; exact isPSD_mk.1 this
      obtain ⟨hS, rfl, -⟩ := correct_ok hm1 hQ hP hR hc
      exact ⟨isPSD_mk.2 (posterior_psd' hS hR (predCov_psd hQ hP)), h0.q, h0.r⟩
  · rw [getVector_off hi (by simpa using hon)] at h
    cases h
    split_ifs
    · exact ⟨h0.p, h0.q, h0.r⟩
    · exact ⟨h0.q, h0.q, h0.r⟩

theorem arguments_cov {s t : Est} {u : DVec} {b : Bool} (hi : Inv s) (h0 : Cov s) (h : s.arguments b = .ok (u, t)) : Cov t := by
  unfold Est.arguments at h
  split_ifs at h <;> simp only [Res.bind_eq_ok] at h
  · obtain ⟨_, -, t', h1, h2⟩ := h
    cases h2
    exact getVector_cov hi h0 h1
  · obtain ⟨t', h1, _, -, h2⟩ := h
    cases h2
    exact getVector_cov hi h0 h1

theorem simulate_upd' {f g : Filter} {x y : DVec} {k : Int} (h : simulateSensor f x k = .ok (y, g)) : g.st.pr = f.st.pr := by
  simp only [simulateSensor, Res.bind_eq_ok] at h
  obtain ⟨_, -, u, -, ⟨v, sys, _⟩, -, h2⟩ := h
  cases h2
  rfl

/-- The calls that do not replace a covariance by a matrix that is not positive semidefinite: the estimations, the measurements, inputs and guesses, the parameters of the robot, the limits,
and the covariances that are positive semidefinite. -/
def Op.Sound : Op → Prop
  | .setProcessNoiseCovariance Q => IsPSD Q
  | .setFlexibilityCovariance P => IsPSD P
  | .setContactsNumber _ | .setWithForcesMeasurements _ | .setWithAbsolutePos _ | .setWithUnmodeledForces _ | .setWithComBias _ | .setUnmodeledForceVariance _
  | .setUnmodeledForceProcessVariance _ | .setForceVariance _ | .setForceVariance3 _ | .setAbsolutePosVariance _ | .setMeasurementNoiseCovariance _ | .resetCovarianceMatrices => False
  | _ => True

theorem cov_exec {s t : Est} (hi : Inv s) (h0 : Cov s) (op : Op) (hop : op.Sound) (h : exec s op = .ok t) : Cov t := by
  cases op with
  | param p =>
    simp only [exec, Res.bind_eq_ok] at h
    obtain ⟨⟨f, _⟩, h1, h2⟩ := h
    cases h2
    exact ⟨h0.p, h0.q, h0.r⟩
  | setContactsNumber n => exact hop.elim
  | setWithForcesMeasurements b => exact hop.elim
  | setWithAbsolutePos b => exact hop.elim
  | setWithUnmodeledForces b => exact hop.elim
  | setWithComBias b => exact hop.elim
  | setUnmodeledForceVariance d => exact hop.elim
  | setUnmodeledForceProcessVariance d => exact hop.elim
  | setForceVariance d => exact hop.elim
  | setForceVariance3 V => exact hop.elim
  | setAbsolutePosVariance d => exact hop.elim
  | setMeasurementNoiseCovariance R => exact hop.elim
  | resetCovarianceMatrices => exact hop.elim
  | setProcessNoiseCovariance Q =>
    simp only [exec, Est.setProcessNoiseCovariance, setQ, Res.bind_eq_ok] at h
    obtain ⟨f, ⟨_, -, h1⟩, h2⟩ := h
    cases h1; cases h2
    exact ⟨h0.p, hop, h0.r⟩
  | setFlexibilityCovariance P =>
    simp only [exec, Est.setFlexibilityCovariance, setStateCovariance, Res.bind_eq_ok] at h
    obtain ⟨f, ⟨_, -, h1⟩, h2⟩ := h
    cases h1; cases h2
    exact ⟨hop, h0.q, h0.r⟩
  | resetStateCovarianceMatrix =>
    simp only [exec, Est.resetStateCovarianceMatrix, setStateCovariance, Res.bind_eq_ok] at h
    obtain ⟨f, ⟨_, -, h1⟩, h2⟩ := h
    cases h1; cases h2
    exact ⟨h0.q, h0.q, h0.r⟩
  | setTorquesLimit v => cases h; exact ⟨h0.p, h0.q, h0.r⟩
  | setForcesLimit v => cases h; exact ⟨h0.p, h0.q, h0.r⟩
  | setLimitOn v => cases h; exact ⟨h0.p, h0.q, h0.r⟩
  | setOn v => cases h; exact ⟨h0.p, h0.q, h0.r⟩
  | useFiniteDifferencesJacobians v => cases h; exact ⟨h0.p, h0.q, h0.r⟩
  | setJacobians A C =>
    simp only [exec, setA, setC, Res.bind_eq_ok] at h
    obtain ⟨f, ⟨_, -, h1⟩, g, ⟨_, -, h2⟩, h3⟩ := h
    cases h1; cases h2; cases h3
    exact ⟨h0.p, h0.q, h0.r⟩
  | setMeasurement y =>
    obtain ⟨w, rfl, rfl⟩ := setMeas_eq hi h
    exact ⟨h0.p, h0.q, h0.r⟩
  | setInput u =>
    obtain ⟨w, u', rfl, rfl, hu⟩ := setInput_eq hi h
    exact ⟨h0.p, h0.q, h0.r⟩
  | setMeasurementInput u =>
    obtain ⟨w, a, rfl, rfl, -⟩ := setMeasInput_eq hi h
    exact ⟨h0.p, h0.q, h0.r⟩
  | setFlexibilityGuess x =>
    obtain ⟨w, rfl, -⟩ := setGuess_eq hi h
    exact ⟨h0.p, h0.q, h0.r⟩
  | setComBiasGuess b =>
    obtain ⟨l, -, -, rfl⟩ := setComBias_eq hi h
    exact ⟨h0.p, h0.q, h0.r⟩
  | getFlexibilityVector => exact getVector_cov hi h0 h
  | getFlexibility =>
    simp only [exec, Est.getFlexibility, Res.bind_eq_ok] at h
    obtain ⟨⟨M, t'⟩, ⟨t1, h1, h2⟩, h3⟩ := h
    split_ifs at h2
    cases h2; cases h3
    exact getVector_cov hi h0 h1
  | getForcesAndMoments =>
    simp only [exec, Est.getForcesAndMoments, Res.bind_eq_ok] at h
    obtain ⟨⟨M, t'⟩, ⟨t1, h1, h2⟩, h3⟩ := h
    split_ifs at h2
    cases h2; cases h3
    exact getVector_cov hi h0 h1
  | getMomentaDotFromForces b =>
    simp only [exec, Est.getMomentaDotFromForces, Res.bind_eq_ok] at h
    obtain ⟨⟨M, t'⟩, h, h3⟩ := h
    cases h3
    split_ifs at h
    · simp only [Res.bind_eq_ok] at h
      obtain ⟨⟨u, s1⟩, h1, ⟨w, f⟩, h2, h3⟩ := h
      rw [← (Prod.mk.inj (Res.ok.inj h3)).2]
      have p := arguments_cov hi h0 h1
      exact ⟨p.p, p.q, p.r⟩
    · cases h; exact h0
  | getMomentaDotFromKinematics b =>
    simp only [exec, Est.getMomentaDotFromKinematics, Res.bind_eq_ok] at h
    obtain ⟨⟨M, t'⟩, h, h3⟩ := h
    cases h3
    split_ifs at h
    · simp only [Res.bind_eq_ok] at h
      obtain ⟨⟨u, s1⟩, h1, ⟨w, f⟩, h2, h3⟩ := h
      rw [← (Prod.mk.inj (Res.ok.inj h3)).2]
      have p := arguments_cov hi h0 h1
      exact ⟨p.p, p.q, p.r⟩
    · cases h; exact h0
  | computeAccelerations b =>
    simp only [exec, Est.computeAccelerations, Res.bind_eq_ok] at h
    obtain ⟨⟨M, t'⟩, ⟨⟨u, s1⟩, h1, ⟨w, f⟩, h2, h3⟩, h4⟩ := h
    cases h4
    rw [← (Prod.mk.inj (Res.ok.inj h3)).2]
    have p := arguments_cov hi h0 h1
    exact ⟨p.p, p.q, p.r⟩
  | getSimulatedMeasurement =>
    simp only [exec, Est.getSimulatedMeasurement, Res.bind_eq_ok] at h
    obtain ⟨⟨y, t'⟩, ⟨t1, h1, k, -, x, -, ⟨y', f⟩, h2, h4⟩, h3⟩ := h
    cases h4; cases h3
    have p := getVector_cov hi h0 h1
    exact ⟨by show IsPSD f.st.pr; rw [simulate_upd' h2]; exact p.p, p.q, p.r⟩
  | getPrediction =>
    simp only [exec, Res.bind_eq_ok] at h
    obtain ⟨f, h1, h2⟩ := h
    cases h2
    exact ⟨by show IsPSD f.st.pr; rw [(updateState_upd hi.f.reach h1).pr]; exact h0.p, h0.q, h0.r⟩
  | getPredictedMeasurement =>
    simp only [exec, Res.bind_eq_ok] at h
    obtain ⟨f, h1, h2⟩ := h
    cases h2
    exact ⟨by show IsPSD f.st.pr; rw [(updateBoth_upd hi.f.reach h1).pr]; exact h0.p, h0.q, h0.r⟩

theorem cov_fold : ∀ (ops : List Op) {s t : Est}, Inv s → Cov s → (∀ op ∈ ops, op.Sound) → ops.foldlM exec s = .ok t → Cov t
  | [], s, t, _, hc, _, h => by cases h; exact hc
  | op :: ops, s, t, hi, hc, ho, h => by
    simp only [List.foldlM_cons, Res.bind_eq_ok] at h
    obtain ⟨s1, h1, h2⟩ := h
    exact cov_fold ops (inv_exec hi op h1) (cov_exec hi hc op (ho op (by simp)) h1) (fun o h => ho o (by simp [h])) h2

/-- **C96**, covariance: from positive semidefinite covariances, no sequence of estimations, with measurements, inputs, guesses, Jacobians, parameters of the robot, and positive semidefinite covariances
given in between, leaves a covariance of the state that is not symmetric or not positive semidefinite. -/
theorem C96_covariance {mem : ℕ → ℕ → ℕ → ℝ} {dt : ℝ} {ops more : List Op} {s t : Est} (h : run mem dt ops = .ok s) (hP : IsPSD s.ekf.st.pr) (hQ : IsPSD s.Q) (hR : IsPSD s.R)
    (hm : ∀ op ∈ more, op.Sound) (ht : more.foldlM exec s = .ok t) : IsPSD t.ekf.st.pr ∧ IsPSD t.Q ∧ IsPSD t.R := by
  obtain ⟨a, b, c⟩ := cov_fold more (inv_run h) ⟨hP, hQ, hR⟩ hm ht
  exact ⟨a, b, c⟩

/-- **C96**, information: an estimation does not increase the covariance with respect to the predicted one, when the measurement noise is positive definite. -/
theorem C96_information {mem : ℕ → ℕ → ℕ → ℝ} {dt : ℝ} {ops : List Op} {s t : Est} (h : run mem dt ops = .ok s) (hp : ∀ op ∈ ops, op.predicts = false) (hon : s.on = true) (hfd : s.fd = true)
    {x : DVec} (hx : s.ekf.x = some (x, s.k)) {w : Fin s.sys.measSize → ℝ} (hy : s.ekf.y = ⟨s.k + 1, [⟨_, w⟩]⟩)
    {P Q : Matrix (Fin 35) (Fin 35) ℝ} {R : Matrix (Fin s.sys.measSize) (Fin s.sys.measSize) ℝ} (eP : s.ekf.st.pr = ⟨35, 35, P⟩) (eQ : s.Q = ⟨35, 35, Q⟩) (eR : s.R = ⟨_, _, R⟩)
    (hP : P.PosSemidef) (hQ : Q.PosSemidef) (hR : R.PosDef) (ht : exec s .getFlexibilityVector = .ok t) :
    ∃ a u xb s1 A P', s.ekf.u = ⟨s.k, [a, u]⟩ ∧ s.sys.stateDynamics x a () = .ok (⟨35, xb⟩, s1, ()) ∧ StateJacobian s.sys x a xb A ∧
      t.ekf.st.pr = ⟨35, 35, P'⟩ ∧ (A * P * Aᵀ + Q - P').PosSemidef := by
  obtain ⟨a, u, hU, xb, yb, s1, s2, A, C, h1, h2, hA, hC, -, hpr, -⟩ := C96_step h hp hon hfd hx hy eP eQ eR hP hQ hR.posSemidef ht
  exact ⟨a, u, xb, s1, A, _, hU, h1, hA, hpr, posterior_le_pred hR (predCov_psd hQ hP)⟩

/-- A case that meets the hypotheses. -/
example (mem : ℕ → ℕ → ℕ → ℝ) (dt : ℝ) : ∃ ops s t, run mem dt ops = .ok s ∧ IsPSD s.ekf.st.pr ∧ IsPSD s.Q ∧ IsPSD s.R ∧ (∀ op ∈ [Op.getFlexibilityVector], op.Sound) ∧
    [Op.getFlexibilityVector].foldlM exec s = .ok t ∧ t.k = s.k + 1 := by
  obtain ⟨ops, s, t, h, hp, hon, hfd, hx, hsz, ⟨w, hy⟩, hu, -, -, -, -, -, hP, hQ, ⟨R, hR, hRp⟩, -, ht⟩ := C96_example mem dt 0 1 1 1 Matrix.PosSemidef.one Matrix.PosSemidef.one Matrix.PosDef.one
  refine ⟨ops, s, t, h, by rw [hP]; exact isPSD_mk.2 .one, by rw [hQ]; exact isPSD_mk.2 .one, by rw [hR]; exact isPSD_mk.2 hRp.posSemidef, by simp [Op.Sound], ?_, ?_⟩
  · simp only [List.foldlM_cons, ht, Res.ok_bind]; rfl
  · obtain ⟨a, u, -, xb, yb, s1, s2, A, C, -, -, -, -, -, -, -, -, o, -, -, hk, -⟩ := C96_step h hp hon hfd hx hy hP hQ hR .one .one hRp.posSemidef ht
    exact hk

/-! ## The steps of the finite differences -/

/-- The same estimator with other steps of finite differences in memory. -/
def Est.withDx (s : Est) (dx : DVec) : Est := { s with dx := dx }

theorem getVector_dx (s : Est) (dx : DVec) : (s.withDx dx).getFlexibilityVector = s.getFlexibilityVector >>= fun t => .ok (t.withDx dx) := by
  by_cases hon : s.on = true
  · by_cases hy : s.ekf.y.size > 0
    · rw [Est.getFlexibilityVector, Est.getFlexibilityVector, if_pos hon, if_pos hy, if_pos (show (s.withDx dx).on = true from hon), if_pos (show (s.withDx dx).ekf.y.size > 0 from hy)]
      simp only [Res.bind_assoc]
      show (_ >>= _) = _
      refine congrArg (Res.bind _) (funext fun k => congrArg (Res.bind _) (funext fun t => congrArg (Res.bind _) (funext fun f => congrArg (Res.bind _) (funext fun f' => congrArg (Res.bind _) (funext fun x => ?_)))))
      split_ifs
      · simp only [Res.bind_assoc]
        rfl
      · rfl
    · rw [Est.getFlexibilityVector, Est.getFlexibilityVector, if_pos hon, if_neg hy, if_pos (show (s.withDx dx).on = true from hon), if_neg (show ¬ (s.withDx dx).ekf.y.size > 0 from hy)]
      rfl
  · rw [Est.getFlexibilityVector, Est.getFlexibilityVector, if_neg hon, if_neg (show ¬ (s.withDx dx).on = true from hon)]
    simp only [Res.bind_assoc]
    refine congrArg (Res.bind _) (funext fun t => congrArg (Res.bind _) (funext fun f => ?_))
    split_ifs
    · simp only [Est.resetStateCovarianceMatrix, Res.bind_assoc]
      rfl
    · rfl

/-- **C96**, negative: the steps given to `useFiniteDifferencesJacobians(dx)` are accepted, for any vector `dx`, even of a wrong size, and have no effect: once finite differences are used, the next
estimation has the same outcome and the same result. -/
theorem C96_dx_false (s : Est) (dx : DVec) (hfd : s.fd = true) : exec s (.useFiniteDifferencesJacobians dx) = .ok (s.withDx dx) ∧
    exec (s.withDx dx) .getFlexibilityVector = exec s .getFlexibilityVector >>= fun t => .ok (t.withDx dx) := by
  refine ⟨?_, getVector_dx s dx⟩
  show Res.ok ({ s with fd := true, dx := dx } : Est) = _
  rw [Est.withDx, ← hfd]

/-! ## C99: the other outputs -/

/-- The sizes do not change in an estimation. -/
theorem measSize_keep {mem : ℕ → ℕ → ℕ → ℝ} {dt : ℝ} {ops : List Op} {s t : Est} (h : run mem dt ops = .ok s) (ht : exec s .getFlexibilityVector = .ok t) : t.sys.measSize = s.sys.measSize := by
  have h' := run_snoc h ht
  rw [(has_run h).size (inv_run h), (has_run h').size (inv_run h')]
  congr 1
  unfold Config.of
  rw [List.foldl_append]
  rfl

theorem obsMat_eq (m : ℕ) (t : Est) (A : Matrix (Fin 35) (Fin 35) ℝ) (C : Matrix (Fin m) (Fin 35) ℝ) (hm : t.sys.measSize = m) (ea : t.ekf.st.a = ⟨35, 35, A⟩) (ec : t.ekf.st.c = ⟨m, 35, C⟩) :
    t.computeLocalObservationMatrix = .ok ⟨m * 2, 35, fun i j => if hi : i.val < m then C ⟨i, hi⟩ j else (C * A) ⟨i - m, by omega⟩ j⟩ := by
  have key : ∀ (n : ℕ) (c a : DMat), n = m → a = ⟨35, 35, A⟩ → c = ⟨m, 35, C⟩ →
      (if h : c.rows = n ∧ c.cols = 35 then do
        let CA ← c.mul a
        if h' : CA.rows = n ∧ CA.cols = 35 then
          Res.ok (⟨n * 2, 35, fun i j => if hi : i.val < n then c.val ⟨i, by omega⟩ ⟨j, by omega⟩ else CA.val ⟨i - n, by omega⟩ ⟨j, by omega⟩⟩ : DMat)
        else .assertFail
      else .assertFail) = .ok ⟨m * 2, 35, fun i j => if hi : i.val < m then C ⟨i, hi⟩ j else (C * A) ⟨i - m, by omega⟩ j⟩ := by
    rintro n c a rfl rfl rfl
    rw [dif_pos ⟨rfl, rfl⟩, DMat.mul_mk, Res.ok_bind, dif_pos ⟨rfl, rfl⟩]
  exact key _ _ _ hm ea ec

/-- **C99**, observability: after an estimation `computeLocalObservationMatrix()` is the matrix of the two first blocks `C`, `C A` of the observability matrix, for the Jacobians `A` of the dynamics about
the previous estimate and `C` of the measurement about the predicted state. -/
theorem C99_observation {mem : ℕ → ℕ → ℕ → ℝ} {dt : ℝ} {ops : List Op} {s t : Est} (h : run mem dt ops = .ok s) (hp : ∀ op ∈ ops, op.predicts = false) (hon : s.on = true) (hfd : s.fd = true)
    {x : DVec} (hx : s.ekf.x = some (x, s.k)) {w : Fin s.sys.measSize → ℝ} (hy : s.ekf.y = ⟨s.k + 1, [⟨_, w⟩]⟩)
    {P Q : Matrix (Fin 35) (Fin 35) ℝ} {R : Matrix (Fin s.sys.measSize) (Fin s.sys.measSize) ℝ} (eP : s.ekf.st.pr = ⟨35, 35, P⟩) (eQ : s.Q = ⟨35, 35, Q⟩) (eR : s.R = ⟨_, _, R⟩)
    (hP : P.PosSemidef) (hQ : Q.PosSemidef) (hR : R.PosSemidef) (ht : exec s .getFlexibilityVector = .ok t) :
    ∃ a u xb yb s1 s2, ∃ (A : Matrix (Fin 35) (Fin 35) ℝ) (C : Matrix (Fin s.sys.measSize) (Fin 35) ℝ) (O : Matrix (Fin (s.sys.measSize * 2)) (Fin 35) ℝ), s.ekf.u = ⟨s.k, [a, u]⟩ ∧
      s.sys.stateDynamics x a () = .ok (⟨35, xb⟩, s1, ()) ∧ s1.measureDynamics ⟨35, xb⟩ u (s.k + 1) () = .ok (⟨s.sys.measSize, yb⟩, s2, ()) ∧
      StateJacobian s.sys x a xb A ∧ MeasureJacobian s1 ⟨35, xb⟩ u (s.k + 1) yb C ∧ t.computeLocalObservationMatrix = .ok ⟨_, _, O⟩ ∧
      (∀ (i : Fin s.sys.measSize) j, O ⟨i, by omega⟩ j = C i j) ∧ ∀ (i : Fin s.sys.measSize) j, O ⟨s.sys.measSize + i, by omega⟩ j = (C * A) i j := by
  obtain ⟨a, u, hU, xb, yb, s1, s2, A, C, h1, h2, hA, hC, -, -, ea, ec, -⟩ := C96_step h hp hon hfd hx hy eP eQ eR hP hQ hR ht
  have hm := measSize_keep h ht
  refine ⟨a, u, xb, yb, s1, s2, A, C, fun i j => if hi : i.val < s.sys.measSize then C ⟨i, hi⟩ j else (C * A) ⟨i - s.sys.measSize, by omega⟩ j, hU, h1, h2, hA, hC, ?_, fun i j => dif_pos i.2, fun i j => ?_⟩
  · exact obsMat_eq _ t A C hm ea ec
  · refine (dif_neg (by dsimp only; omega)).trans ?_
    have : (⟨s.sys.measSize + i.val - s.sys.measSize, by omega⟩ : Fin s.sys.measSize) = i := by ext; simp
    show (C * A) ⟨s.sys.measSize + i.val - s.sys.measSize, _⟩ j = _
    rw [this]

/-- **C99**, negative: on a new estimator, there is no such matrix: the call fails an assertion. -/
theorem C99_observation_false {mem : ℕ → ℕ → ℕ → ℝ} {dt : ℝ} {s : Est} (h : run mem dt [] = .ok s) : s.computeLocalObservationMatrix = .assertFail := by
  obtain ⟨s0, e, hi, -, -, -, -, -, -, -, -, -, -, -, -, -, -, -, -, -, -, -, -, hsys, -, -, -, -, -, hc⟩ := ctor_eq mem dt
  have : s = s0 := by
    rw [run, e] at h
    cases h
    rfl
  subst this
  unfold Est.computeLocalObservationMatrix
  rw [dif_neg]
  rw [hc]
  rintro ⟨-, h⟩
  cases h

/-- **C99**, order: `computeAccelerations()` and the rates of the momenta call the estimation and read the input as two arguments of a call. If the compiler evaluates the input first, they use the input of the
time before the estimation with the state of the time after it; otherwise, they use the state and the input of the same time. -/
theorem C99_order {mem : ℕ → ℕ → ℕ → ℝ} {dt : ℝ} {ops : List Op} {s t : Est} (h : run mem dt ops = .ok s) (hon : s.on = true) (hw : Waits s) {a u : DVec} (hu : s.ekf.u = ⟨s.k, [a, u]⟩)
    (ht : exec s .getFlexibilityVector = .ok t) :
    (s.computeAccelerations true = t.sys.computeAccelerations t.lastX a >>= fun r => .ok (r.1, t.setSys r.2)) ∧
    (s.computeAccelerations false = t.sys.computeAccelerations t.lastX u >>= fun r => .ok (r.1, t.setSys r.2)) ∧
    (s.getMomentaDotFromForces true = t.sys.momentaDotFromForces t.lastX a >>= fun r => .ok (r.1, t.setSys r.2)) ∧
    (s.getMomentaDotFromForces false = t.sys.momentaDotFromForces t.lastX u >>= fun r => .ok (r.1, t.setSys r.2)) ∧
    (s.getMomentaDotFromKinematics true = t.sys.momentaDotFromKinematics t.lastX a >>= fun r => .ok (r.1, t.setSys r.2)) ∧
    s.getMomentaDotFromKinematics false = t.sys.momentaDotFromKinematics t.lastX u >>= fun r => .ok (r.1, t.setSys r.2) := by
  have hi := inv_run h
  have ht' : s.getFlexibilityVector = .ok t := ht
  have e1 : s.arguments true = .ok (a, t) := by
    have : s.ekf.u.get s.k = .ok a := by rw [hu]; simp [IArr.get, IArr.checkIndex]
    simp only [Est.arguments, if_true, this, ht', Res.ok_bind]
  have e2 : s.arguments false = .ok (u, t) := by
    obtain ⟨f1, f, z, o, -, -, -, -, rfl⟩ := getVector_ok hi hon hw ht
    have : (from_ (s.k + 1) s.ekf.u).get (s.k + 1) = .ok u := by rw [hu]; simp [from_, dropUpTo, IArr.get, IArr.checkIndex]
    simp only [Est.arguments, Bool.false_eq_true, if_false, ht', Res.ok_bind, this]
  simp only [Est.computeAccelerations, Est.getMomentaDotFromForces, Est.getMomentaDotFromKinematics, e1, e2, hon, if_true, Res.ok_bind]
  simp

/-- Two inputs that differ only by the acceleration of the centre of mass do not give the same accelerations. -/
theorem accel_differ {f : Elastic.Sys Unit} (hr : Reach f) {x u u' : DVec} {a α : V3} {f1 f2 : Elastic.Sys Unit} (h1 : f.computeAccelerations x u = .ok ((a, α), f1))
    (h2 : f.computeAccelerations x u' = .ok ((a, α), f2)) (he : ∀ i, i < 6 ∨ 9 ≤ i → at1 u i = at1 u' i) : at3 u 6 = at3 u' 6 := by
  have hi := hr.inv
  have e3 : ∀ i, i + 2 < 6 ∨ 9 ≤ i → at3 u' i = at3 u i := fun i h => by
    funext j
    exact (he (i + j) (by omega)).symm
  have es : ∀ i, 9 ≤ i → Elastic.sym u' i = Elastic.sym u i := fun i h => by
    unfold Elastic.sym
    rw [he i (by omega), he (i + 1) (by omega), he (i + 2) (by omega), he (i + 3) (by omega), he (i + 4) (by omega), he (i + 5) (by omega)]
  obtain ⟨hx, hu⟩ := Elastic.computeAccelerations_sizes h1
  obtain ⟨-, hu'⟩ := Elastic.computeAccelerations_sizes h2
  obtain ⟨rt, -, e⟩ := Elastic.computeAccelerations_eq hi.rot x u hx hu
  obtain ⟨rt', -, e'⟩ := Elastic.computeAccelerations_eq hi.rot x u' hx hu'
  rw [e] at h1
  rw [e'] at h2
  obtain ⟨w, hw, h1⟩ := Res.bind_eq_ok.1 h1
  obtain ⟨w', hw', h2⟩ := Res.bind_eq_ok.1 h2
  have hw1 : w = (a, α) := (Prod.mk.inj (Res.ok.inj h1)).1
  have hw2 : w' = (a, α) := (Prod.mk.inj (Res.ok.inj h2)).1
  subst hw1 hw2
  unfold Elastic.Sys.accelPure Elastic.Sys.accel at hw hw'
  rw [Elastic.biased_eq] at hw hw'
  rw [e3 0 (by omega), e3 3 (by omega), es 9 (by omega), e3 15 (by omega), es 18 (by omega), e3 24 (by omega), e3 42 (by omega), e3 45 (by omega)] at hw'
  have hc : ∀ i : ℕ, at3 u' (48 + 12 * i) = at3 u (48 + 12 * i) ∧ at3 u' (48 + 12 * i + 3) = at3 u (48 + 12 * i + 3) ∧ at3 u' (48 + 12 * i + 6) = at3 u (48 + 12 * i + 6) ∧
      at3 u' (48 + 12 * i + 9) = at3 u (48 + 12 * i + 9) := fun i => ⟨e3 _ (by omega), e3 _ (by omega), e3 _ (by omega), e3 _ (by omega)⟩
  simp only [Res.bind_eq_ok, (hc _).1, (hc _).2.1, (hc _).2.2.1, (hc _).2.2.2] at hw hw'
  obtain ⟨⟨F, τ⟩, k1, k2⟩ := hw
  obtain ⟨⟨F', τ'⟩, k1', k2'⟩ := hw'
  rw [k1] at k1'
  cases k1'
  have hm : (f.readEfforts (Elastic.cast x 35 hx)).massInv = 1 / (f.readEfforts (Elastic.cast x 35 hx)).mass := hi.mass
  rw [hm] at k2 k2'
  obtain ⟨-, p1, -⟩ := Elastic.accelerations_ok (Elastic.sym_symm u 9) k2
  obtain ⟨-, p2, -⟩ := Elastic.accelerations_ok (Elastic.sym_symm u 9) k2'
  have := add_left_cancel (p1.trans p2.symm)
  dsimp only at this
  have hR := (rv_isRot (seg 3 (Elastic.cast x 35 hx) Elastic.iOri)).1
  have := congrArg ((rotationVectorToRotationMatrix (seg 3 (Elastic.cast x 35 hx) Elastic.iOri))ᵀ *ᵥ ·) this
  simpa only [mulVec_mulVec, hR, one_mulVec] using this

theorem getVector_same {s t : Est} (hi : Inv s) (hon : s.on = true) (hw : Waits s) (h : s.getFlexibilityVector = .ok t) : Elastic.Same t.sys s.sys := by
  obtain ⟨x, hx⟩ := hi.f.x
  obtain ⟨f1, f, z, o, hj, hs, hz, -, rfl⟩ := getVector_ok hi hon hw h
  have u := jacobians_upd hi.f.reach hj
  obtain ⟨g1, g, xb, yb, y, xhat, P', inn, K, -, -, up, -, -, -, -, -, -, -, rfl⟩ := oneStep_ok' u.reach (u.x.trans hx) hs
  exact up.same.trans u.same

/-- **C99**, negative: so their results depend on the compiler. There are calls after which the two orders give two accelerations. -/
theorem C99_order_false (mem : ℕ → ℕ → ℕ → ℝ) (dt : ℝ) : ∃ ops s r1 r2 t1 t2, run mem dt ops = .ok s ∧ s.computeAccelerations true = .ok (r1, t1) ∧ s.computeAccelerations false = .ok (r2, t2) ∧ r1 ≠ r2 := by
  obtain ⟨ops, s, t, h, hp, hon, hfd, hx, hsz, ⟨w, hy⟩, hu, hmass, hmodel, hnb, hbias, -, hP, hQ, ⟨R, hR, hRp⟩, -, ht⟩ := C96_example mem dt ![0, 0, 1] 1 1 1 Matrix.PosSemidef.one Matrix.PosSemidef.one Matrix.PosDef.one
  have hi := inv_run h
  have hw : Waits s := by rw [Waits, hy]; simp
  obtain ⟨o1, o2, -⟩ := C99_order h hon hw hu ht
  have sm := getVector_same hi hon hw ht
  have it := inv_run (run_snoc h ht)
  have rt : Reach t.sys := it.f.reach
  obtain ⟨z, hz⟩ := it.lastX
  have live : ∀ v : DVec, v.size = 60 → GoodInertia t.sys t.lastX v → ∃ a α f, t.sys.computeAccelerations t.lastX v = .ok ((a, α), f) := fun v hv hg => by
    obtain ⟨dt', ops', e⟩ := rt
    exact Elastic.C87_return dt' () () ops' _ t.lastX v e (by rw [hz]) (by rw [sm.nb, hnb, hv]) (by rw [sm.mass, hmass]; norm_num) (fun _ => by rw [sm.nb, hnb]; norm_num) (hg _ (.refl _))
  obtain ⟨a, α, f1, e1⟩ := live Elastic.exInput rfl (exFlex_posDef _ (by rw [sm.mass, hmass]) _ (by rw [sm.withBias, hbias]))
  obtain ⟨b, β, f2, e2⟩ := live (exInputAcc ![0, 0, 1]) rfl (exAcc_posDef _ (by rw [sm.mass, hmass]) _ (by rw [sm.withBias, hbias]) _)
  rw [e1] at o1
  rw [e2] at o2
  refine ⟨ops, s, _, _, _, _, h, o1, o2, fun he => ?_⟩
  have he : (a, α) = (b, β) := he
  cases he
  have := accel_differ rt e1 e2 fun i hi => (exInputAcc_at1 _ i hi).symm
  rw [exInputAcc_6, exInput_6] at this
  have := congrFun this 2
  simp at this

/-- **C99**, simulation: when no measurement waits, `getSimulatedMeasurement()` is the measurement that the model of the robot gives for the state of the filter and the input of the current time; the state, its
covariance and the stored inputs stay. -/
theorem C99_simulated {mem : ℕ → ℕ → ℕ → ℝ} {dt : ℝ} {ops : List Op} {s t : Est} {y : DVec} (h : run mem dt ops = .ok s) (hon : s.on = true) (hw : ¬ Waits s) (ht : s.getSimulatedMeasurement = .ok (y, t)) :
    ∃ x u l s', s.ekf.x = some (x, s.k) ∧ s.ekf.u = ⟨s.k, u :: l⟩ ∧ s.sys.measureDynamics x u s.k () = .ok (y, s', ()) ∧
      t.ekf.x = s.ekf.x ∧ t.ekf.u = s.ekf.u ∧ ¬ Waits t ∧ t.ekf.st.pr = s.ekf.st.pr ∧ t.lastX = s.lastX ∧ t.k = s.k := by
  have hi := inv_run h
  obtain ⟨x, hx⟩ := hi.f.x
  have hw : s.ekf.y.v = [] := not_not.1 hw
  simp only [Est.getSimulatedMeasurement, getVector_idle hon hw, Res.ok_bind, getCurrentTime, hx, val, Res.bind_eq_ok, simulateSensor] at ht
  obtain ⟨⟨y', f⟩, ⟨_, h1, u, h2, ⟨y'', s', _⟩, h3, h4⟩, h5⟩ := ht
  cases h4; cases h5
  obtain ⟨l, hl⟩ : ∃ l, s.ekf.u = ⟨s.k, u :: l⟩ := by
    rcases hi.f.u with e | ⟨a, e⟩ | ⟨a, b, e⟩
    · have h1 := asserted h1
      rw [IArr.checkIndex, e] at h1
      simp at h1
    · rw [e] at h2
      simp [IArr.get, IArr.checkIndex] at h2
      exact ⟨[], by rw [e, ← h2]⟩
    · rw [e] at h2
      simp [IArr.get, IArr.checkIndex] at h2
      exact ⟨_, by rw [e, ← h2]⟩
  exact ⟨_, u, l, s', hx, hl, h3, hx.symm, rfl, not_not.2 hw, rfl, rfl, rfl⟩

/-- A case that meets the hypotheses of C95 and of C98_stale_false: a measurement waits, the limits are used, the estimation and the prediction return. -/
example (mem : ℕ → ℕ → ℕ → ℝ) (dt : ℝ) : ∃ ops s s1 t, run mem dt ops = .ok s ∧ (Config.of ops).on = true ∧ (Config.of ops).limit = true ∧ Waits s ∧ exec s .getPrediction = .ok s1 ∧
    exec s .getFlexibilityVector = .ok t := by
  obtain ⟨ops, s, t, h, hp, hon, hfd, hx, hsz, ⟨w, hy⟩, hu, -, -, -, -, hlim, hP, hQ, ⟨R, hR, hRp⟩, -, ht⟩ := C96_example mem dt 0 1 1 1 Matrix.PosSemidef.one Matrix.PosSemidef.one Matrix.PosDef.one
  have hw : Waits s := by rw [Waits, hy]; simp
  have hc := has_run h
  obtain ⟨f1, f, z, o, hj, -⟩ := getVector_ok (inv_run h) hon hw ht
  rw [hfd] at hj
  simp only [jacobians, if_true, Res.bind_eq_ok, updateStateAndMeasurementPrediction] at hj
  obtain ⟨g, ⟨g1, h1, -⟩, -⟩ := hj
  exact ⟨ops, s, { s with ekf := g1 }, t, h, by rw [← hc.on, hon], by rw [← hc.limit, hlim], hw, by simp only [exec, h1, Res.ok_bind], ht⟩

/-- A case of C99: the measurement is simulated after an estimation; and no measurement waits and no input is there on a new estimator. -/
example (mem : ℕ → ℕ → ℕ → ℝ) (dt : ℝ) : (∃ ops s y t, run mem dt ops = .ok s ∧ s.on = true ∧ ¬ Waits s ∧ s.getSimulatedMeasurement = .ok (y, t)) ∧
    ∃ s, run mem dt [] = .ok s ∧ s.on = true ∧ ¬ Waits s ∧ s.ekf.u.v = [] := by
  constructor
  · obtain ⟨ops, s, t, h, hp, hon, hfd, hx, hsz, ⟨w, hy⟩, hu, hmass, hmodel, hnb, hbias, -, hP, hQ, ⟨R, hR, hRp⟩, -, ht⟩ := C96_example mem dt ![0, 0, 1] 1 1 1 Matrix.PosSemidef.one Matrix.PosSemidef.one Matrix.PosDef.one
    have hi := inv_run h
    have hw : Waits s := by rw [Waits, hy]; simp
    have ht' := run_snoc h ht
    have it := inv_run ht'
    obtain ⟨a, u, hu', xb, yb, s1, s2, A, C, h1, h2, -, -, -, -, -, -, o, ho, hl, hk, hx', hy', hu'', -⟩ := C96_step h hp hon hfd hx hy hP hQ hR .one .one hRp.posSemidef ht
    obtain ⟨rfl, rfl⟩ : a = Elastic.exInput ∧ u = exInputAcc ![0, 0, 1] := by rw [hu] at hu'; cases hu'; exact ⟨rfl, rfl⟩
    have sm := getVector_same hi hon hw ht
    have hon' : t.on = true := by
      rw [(has_run ht').on]
      have : (Config.of ops).on = true := by rw [← (has_run h).on, hon]
      unfold Config.of at this ⊢
      rw [List.foldl_append]
      exact this
    have rt : Reach t.sys := it.f.reach
    have hmass' : t.sys.mass = 2 := by rw [sm.mass, hmass]
    have hbias' : t.sys.withBias = false := by rw [sm.withBias, hbias]
    have hnb' : t.sys.nb = 1 := by rw [sm.nb, hnb]
    have hg : t.ekf.u.get t.k = .ok (exInputAcc ![0, 0, 1]) := by rw [hu'', hk]; simp [IArr.get, IArr.checkIndex]
    obtain ⟨a, α, f, e1⟩ : ∃ a α f, t.sys.computeAccelerations t.lastX (exInputAcc ![0, 0, 1]) = .ok ((a, α), f) := by
      obtain ⟨dt', ops', e⟩ := rt
      exact Elastic.C87_return dt' () () ops' _ t.lastX _ e (by rw [hl]) (by rw [hnb']; rfl) (by rw [hmass']; norm_num) (fun _ => by rw [hnb']; norm_num) (exAcc_posDef _ hmass' _ hbias' _ _ (.refl _))
    have he : f.efforts = true := by
      obtain ⟨rt', -, e⟩ := Elastic.computeAccelerations_eq rt.inv.rot t.lastX (exInputAcc ![0, 0, 1]) (by rw [hl]) (by rw [hnb']; rfl)
      rw [e1] at e
      obtain ⟨w, -, e⟩ := Res.bind_eq_ok.1 e.symm
      rw [← (Prod.mk.inj (Res.ok.inj e)).2]
      rfl
    have ec : exec t (.computeAccelerations false) = .ok (t.setSys f) := by
      simp only [exec, Est.computeAccelerations, Est.arguments, Bool.false_eq_true, if_false, getVector_idle hon' hy', Res.ok_bind, hg, e1]
    have r2 := run_snoc ht' ec
    have i2 := inv_run r2
    have hnb2 : f.nb = 1 := by
      have h1 := (has_run r2).nb
      have h2 := (has_run ht').nb
      have e : Config.of (ops ++ [Op.getFlexibilityVector] ++ [Op.computeAccelerations false]) = Config.of (ops ++ [Op.getFlexibilityVector]) := by
        unfold Config.of
        rw [List.foldl_append]
        rfl
      rw [e, ← h2, hnb'] at h1
      exact h1
    obtain ⟨hm2, hb2⟩ : f.mass = 2 ∧ f.withBias = false := by
      obtain ⟨rt', -, e⟩ := Elastic.computeAccelerations_eq rt.inv.rot t.lastX (exInputAcc ![0, 0, 1]) (by rw [hl]) (by rw [hnb']; rfl)
      rw [e1] at e
      obtain ⟨w, -, e⟩ := Res.bind_eq_ok.1 e.symm
      rw [← (Prod.mk.inj (Res.ok.inj e)).2]
      exact ⟨hmass', hbias'⟩
    have rf : Reach f := i2.f.reach
    obtain ⟨y, f', hf⟩ := meas_of_good (s := f) rf i2.f.snoise he (x := t.lastX) (u := exInputAcc ![0, 0, 1]) (by rw [hl]) (by rw [hnb2]; rfl) t.k
      (by rw [hm2]; norm_num) (by rw [hnb2]; norm_num) (exAcc_posDef _ hm2 _ hb2 _ _ (.refl _))
    have hck : t.ekf.u.checkIndex t.k = true := by rw [hu'', hk]; simp [IArr.checkIndex]
    rw [← hk] at hx'
    have fin : ∃ t3, (t.setSys f).getSimulatedMeasurement = .ok (y, t3) := by
      have e0 : (t.setSys f).getFlexibilityVector = .ok (t.setSys f) := getVector_idle hon' hy'
      have e1 : getCurrentTime (t.setSys f).ekf = .ok t.k := by
        show getCurrentTime { t.ekf with st := _ } = _
        rw [getCurrentTime, hx']
      have e2 : val (t.setSys f).ekf.x = .ok t.lastX := by
        show val t.ekf.x = _
        rw [hx']; rfl
      have e3 : simulateSensor (t.setSys f).ekf t.lastX t.k = .ok (y, { t.ekf with st := { t.ekf.st with ext := ⟨f', exInputAcc ![0, 0, 1]⟩ } }) := by
        show (Res.assert (t.ekf.u.checkIndex t.k) >>= fun _ => t.ekf.u.get t.k >>= fun u => f.measureDynamics t.lastX u t.k () >>= _) = _
        rw [hck, hg, Res.assert_true, Res.ok_bind, Res.ok_bind, hf]
        rfl
      simp only [Est.getSimulatedMeasurement, e0, e1, e2, e3, Res.ok_bind]
      exact ⟨_, rfl⟩
    obtain ⟨t3, fin⟩ := fin
    exact ⟨_, t.setSys f, y, t3, r2, hon', not_not.2 hy', fin⟩
  · obtain ⟨s0, e, hi, hon, -, -, -, -, -, -, -, hy, hu, -⟩ := ctor_eq mem dt
    exact ⟨s0, by rw [run, e]; rfl, hon, not_not.2 hy, hu⟩

/-- **C99**, negative: without an input of the current time (a new estimator, or one that was only given measurements and inputs of the next time and has been switched off) `getSimulatedMeasurement()` fails
an assertion. -/
theorem C99_simulated_false {mem : ℕ → ℕ → ℕ → ℝ} {dt : ℝ} {ops : List Op} {s : Est} (h : run mem dt ops = .ok s) (hon : s.on = true) (hw : ¬ Waits s) (hu : s.ekf.u.v = []) :
    s.getSimulatedMeasurement = .assertFail := by
  have hi := inv_run h
  obtain ⟨x, hx⟩ := hi.f.x
  have hw : s.ekf.y.v = [] := not_not.1 hw
  have h1 : s.ekf.u.checkIndex s.k = false := by
    rw [IArr.checkIndex, hu]
    simp
  simp only [Est.getSimulatedMeasurement, getVector_idle hon hw, Res.ok_bind, getCurrentTime, hx, val, simulateSensor, h1]
  rfl

end StateObs.ModelFlex
