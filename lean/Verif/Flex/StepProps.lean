import Verif.Flex.CovProps
import Verif.Flex.Functor
import Verif.EKF.FDGeneral
/-! # C82: an estimation of the flexibility -/

namespace StateObs.Flex
open StateObs KF Imu Rot Kine Matrix KFSpec EKF Obs

/-- The stored predictions are not for later than `B`. -/
def Times (B : Int) (s : KFilter EKF.Ext) : Prop := (∀ v t, s.st.xbar = some (v, t) → t ≤ B) ∧ ∀ v t, s.st.ybar = some (v, t) → t ≤ B

theorem Times.mono {B B' : Int} {s : KFilter EKF.Ext} (h : Times B s) (hb : B ≤ B') : Times B' s :=
  ⟨fun v t e => (h.1 v t e).trans hb, fun v t e => (h.2 v t e).trans hb⟩

theorem prediction_times {s t : KFilter EKF.Ext} {k B : Int} (hk : k ≤ B) (h : EKF.prediction s k = .ok t) (ht : Times B s) : Times B t := by
  unfold EKF.prediction at h
  by_cases h1 : EKF.notCached s.st.xbar k = true
  · rw [if_pos h1] at h
    simp only [Res.bind_eq_ok] at h
    obtain ⟨u, -, h⟩ := h
    cases hf : s.st.ext.f with
    | none => rw [hf] at h; simp at h
    | some f =>
      cases hx : s.x with
      | none => rw [hf, hx] at h; simp at h
      | some q =>
        rw [hf, hx] at h
        simp only [Res.bind_eq_ok] at h
        obtain ⟨v, -, h⟩ := h
        cases h
        refine ⟨fun v t e => ?_, ht.2⟩
        cases e; exact hk
  · rw [if_neg h1] at h
    cases h; exact ht

theorem predictSensor_times {s t : KFilter EKF.Ext} {k B : Int} (hk : k ≤ B) (h : EKF.predictSensor s k = .ok t) (ht : Times B s) : Times B t := by
  unfold EKF.predictSensor at h
  split_ifs at h with h1
  · simp only [Res.bind_eq_ok] at h
    obtain ⟨xb, -, ⟨y, u⟩, -, h⟩ := h
    cases h
    refine ⟨ht.1, fun v t e => ?_⟩
    cases e; exact hk
  · cases h; exact ht

theorem updateStatePrediction_times {s t : KFilter EKF.Ext} {x : DVec} {k B : Int} (hx : s.x = some (x, k)) (hk : k + 1 ≤ B)
    (h : EKF.updateStatePrediction s = .ok t) (ht : Times B s) : Times B t := by
  simp only [EKF.updateStatePrediction, Obs.getCurrentTime, hx, Res.ok_bind] at h
  exact prediction_times hk h ht

theorem updateBoth_times {s t : KFilter EKF.Ext} {x : DVec} {k B : Int} (hx : s.x = some (x, k)) (hk : k + 1 ≤ B)
    (h : EKF.updateStateAndMeasurementPrediction s = .ok t) (ht : Times B s) : Times B t := by
  simp only [EKF.updateStateAndMeasurementPrediction, Res.bind_eq_ok] at h
  obtain ⟨s1, h1, k', hk', h⟩ := h
  have hx1 := (updateStatePrediction_keeps h1).x
  simp only [Obs.getCurrentTime, hx1, hx, Res.ok.injEq] at hk'
  subst hk'
  exact predictSensor_times hk h (updateStatePrediction_times hx hk h1 ht)

theorem getA_times {s t : KFilter EKF.Ext} {x : DVec} {k B : Int} (hx : s.x = some (x, k)) (hk : k + 1 ≤ B) {dx : DVec} {A : DMat}
    (h : EKF.getAMatrixFD s dx = .ok (A, t)) (ht : Times B s) : Times B t := by
  simp only [EKF.getAMatrixFD, Res.bind_eq_ok] at h
  obtain ⟨k, -, s1, h1, x, -, u, -, c, -, h⟩ := h
  cases h
  have := updateStatePrediction_times hx hk h1 ht
  exact this

theorem getC_times {s t : KFilter EKF.Ext} {x : DVec} {k B : Int} (hx : s.x = some (x, k)) (hk : k + 1 ≤ B) {dx : DVec} {C : DMat}
    (h : EKF.getCMatrixFD s dx = .ok (C, t)) (ht : Times B s) : Times B t := by
  simp only [EKF.getCMatrixFD, Obs.getCurrentTime, hx, Res.ok_bind, Res.bind_eq_ok] at h
  obtain ⟨s1, h1, s2, h2, c, -, u, -, h⟩ := h
  cases h
  have := prediction_times hk h2 (updateBoth_times hx hk h1 ht)
  exact this

theorem jacobians_times {fd : Bool} {dx : DVec} {s t : KFilter EKF.Ext} {x : DVec} {k B : Int} (hx : s.x = some (x, k)) (hk : k + 1 ≤ B)
    (h : jacobians fd dx s = .ok t) (ht : Times B s) : Times B t := by
  unfold jacobians at h
  split_ifs at h
  · simp only [Res.bind_eq_ok] at h
    obtain ⟨⟨A, s1⟩, h1, s2, h2, ⟨C, s3⟩, h3, h4⟩ := h
    have hx2 : s2.x = some (x, k) := by rw [(setA_keeps h2).x, (getA_keeps h1).x, hx]
    have t1 := getA_times hx hk h1 ht
    simp only [setA, setC, Res.bind_eq_ok] at h2 h4
    obtain ⟨_, -, h2⟩ := h2
    obtain ⟨_, -, h4⟩ := h4
    cases h4
    have t2 : Times B s2 := by cases h2; exact t1
    have := getC_times hx2 hk h3 t2
    exact this
  · cases h; exact ht

theorem getEst_one {s t : KFilter EKF.Ext} {x : DVec} {k : Int} (hx : s.x = some (x, k)) (h : EKF.getEstimatedState s (k + 1) = .ok t) :
    ∃ t1, oneStep EKF.virt s = .ok t1 ∧ t.st = t1.st := by
  simp only [EKF.getEstimatedState, KF.getEstimatedState, Obs.getEstimatedState, getCurrentTime, hx, Res.ok_bind,
    show decide (k ≤ k + 1) = true by simp, Res.assert_true, show (k + 1 - k).toNat = 1 by omega, loop, loopBody, Res.bind_eq_ok] at h
  obtain ⟨s2, ⟨s1, h1, y, -, h2⟩, h3⟩ := h
  cases h3
  refine ⟨s1, h1, ?_⟩
  split_ifs at h2
  · simp only [Res.bind_eq_ok] at h2
    obtain ⟨u, -, h2⟩ := h2
    cases h2; rfl
  · cases h2; rfl

theorem oneStep_times {s t : KFilter EKF.Ext} {x : DVec} {k B : Int} (hx : s.x = some (x, k)) (hk : k + 1 ≤ B) (h : oneStep EKF.virt s = .ok t) :
    Times B t := by
  rw [EKF.oneStep_form] at h
  unfold Obs.kalmanStep at h
  rw [hx] at h
  simp only [Res.bind_eq_ok, EKF.stepF] at h
  obtain ⟨y, -, ⟨st, x'⟩, ⟨_, -, _, -, _, -, _, -, _, -, ⟨xb, o⟩, -, ⟨yb, o'⟩, -, ⟨xh, P, i, K⟩, -, h1⟩, h2⟩ := h
  cases h1; cases h2
  refine ⟨fun v t e => ?_, fun v t e => ?_⟩
  · cases e; exact hk
  · cases e; exact hk

/-- No prediction has been made in advance. -/
def Fresh (s : Fixed) : Prop := Times s.k s.ekf

theorem fresh_getVector {s t : Fixed} (hi : Inv s) (hf : Fresh s) (h : s.getFlexibilityVector = .ok t) : Fresh t := by
  by_cases hy : s.ekf.y.v = []
  · rw [getVector_idle hy] at h; cases h; exact hf
  · obtain ⟨f1, f, z, o, h1, h2, -, -, -, -, -, -, rfl⟩ := getVector_ok hi hy h
    obtain ⟨x, hx⟩ := hi.x
    have hx1 : f1.x = some (⟨18, x⟩, s.k) := by rw [(jacobians_keeps h1).x, hx]
    obtain ⟨g, g1, g2⟩ := getEst_one hx1 h2
    have := oneStep_times hx1 (le_refl _) g1
    unfold Times at this
    rw [← g2] at this
    exact this

theorem Fresh.of_st {s t : Fixed} (hf : Fresh s) (hk : t.k = s.k) (h1 : t.ekf.st.xbar = s.ekf.st.xbar) (h2 : t.ekf.st.ybar = s.ekf.st.ybar) : Fresh t := by
  unfold Fresh Times
  rw [hk, h1, h2]; exact hf

theorem fresh_exec {s t : Fixed} (hi : Inv s) (hf : Fresh s) (op : Op) (hp : ¬ op.Predicts) (h : exec s op = .ok t) : Fresh t := by
  cases op with
  | setContactsNumber n =>
    obtain ⟨R, y, c, hR, hy1, hy2, rfl⟩ := setContactsNumber_eq hi h
    exact hf.of_st rfl rfl rfl
  | setContactPosition i p =>
    simp only [exec, Fixed.setContactPosition, Res.bind_eq_ok] at h
    obtain ⟨_, -, h⟩ := h
    cases h
    exact hf.of_st rfl rfl rfl
  | setMeasurement y =>
    simp only [exec, Fixed.setMeasurement] at h
    split_ifs at h with h1
    simp only [Res.bind_eq_ok] at h
    obtain ⟨f, hf', h⟩ := h
    cases h
    exact hf.of_st rfl (by show f.st.xbar = _; rw [obs_setMeasurement_st hf']) (by show f.st.ybar = _; rw [obs_setMeasurement_st hf'])
  | setVirtualMeasurementsCovariance c =>
    obtain ⟨R, hR, hm, rfl⟩ := updateCov_eq h
    exact hf.of_st rfl rfl rfl
  | setMeasurementNoiseCovariance M =>
    simp only [exec, Fixed.setMeasurementNoiseCovariance, Res.bind_eq_ok] at h
    obtain ⟨_, -, h⟩ := h
    obtain ⟨R, hR, hm, rfl⟩ := updateCov_eq h
    exact hf.of_st rfl rfl rfl
  | setProcessNoiseCovariance Q =>
    simp only [exec, Fixed.setProcessNoiseCovariance, setQ, Res.bind_eq_ok] at h
    obtain ⟨f, ⟨_, h1, hf'⟩, h⟩ := h
    cases hf'; cases h
    exact hf.of_st rfl rfl rfl
  | setFlexibilityGuess x =>
    obtain ⟨w, rfl, -⟩ := setGuess_eq hi h
    exact hf.of_st rfl rfl rfl
  | setFlexibilityCovariance P =>
    simp only [exec, Base.setFlexibilityCovariance, setStateCovariance, Res.bind_eq_ok] at h
    obtain ⟨b, ⟨f, ⟨_, h1, hf'⟩, hb⟩, h⟩ := h
    cases hf'; cases hb; cases h
    exact hf.of_st rfl rfl rfl
  | setInput u =>
    simp only [exec, Base.setInput, Res.bind_eq_ok] at h
    obtain ⟨b, ⟨f, hf', hb⟩, h⟩ := h
    cases hb; cases h
    exact hf.of_st rfl (by show f.st.xbar = _; rw [obs_setInput_st hf']) (by show f.st.ybar = _; rw [obs_setInput_st hf'])
  | setMeasurementInput u =>
    simp only [exec, Res.bind_eq_ok] at h
    obtain ⟨b, hb, h⟩ := h
    obtain ⟨w, a, -, rfl, -⟩ := setMeasInput_eq hi hb
    cases h
    exact hf.of_st rfl rfl rfl
  | resetCovarianceMatrices =>
    obtain ⟨hm, rfl⟩ := resetCov_eq h
    exact hf.of_st rfl rfl rfl
  | setSamplingPeriod dt =>
    cases h
    exact hf.of_st rfl rfl rfl
  | getFlexibilityVector => exact fresh_getVector hi hf h
  | getFlexibility =>
    simp only [exec, Res.bind_eq_ok] at h
    obtain ⟨⟨M, t'⟩, h0, h2⟩ := h
    cases h2
    exact fresh_getVector hi hf (getFlexibility_of h0)
  | getSimulatedMeasurement =>
    simp only [exec, Fixed.getSimulatedMeasurement, Res.bind_eq_ok] at h
    obtain ⟨_, ⟨t', h0, _, -, _, -, ⟨y, u⟩, -, h2⟩, h3⟩ := h
    cases h2; cases h3
    exact (fresh_getVector hi hf h0).of_st rfl rfl rfl
  | getPrediction => exact absurd trivial hp
  | getPredictedMeasurement => exact absurd trivial hp

theorem fresh_foldl : ∀ (ops : List Op) {s t : Fixed}, (∀ op ∈ ops, ¬ op.Predicts) → Inv s → Fresh s → ops.foldlM exec s = .ok t → Fresh t
  | [], s, t, _, hi, hc, h => by cases h; exact hc
  | op :: ops, s, t, ha, hi, hc, h => by
    simp only [List.foldlM_cons, Res.bind_eq_ok] at h
    obtain ⟨s1, h1, h2⟩ := h
    exact fresh_foldl ops (fun o ho => ha o (List.mem_cons_of_mem _ ho)) (inv_exec hi op h1)
      (fresh_exec hi hc op (ha op List.mem_cons_self) h1) h2

theorem fresh_run {dt : ℝ} {ops : List Op} {s : Fixed} (ha : ∀ op ∈ ops, ¬ op.Predicts) (h : run dt ops = .ok s) : Fresh s := by
  obtain ⟨s0, h0, hi, -, -, -, -, -, -, -, -, -, -, -, -, e1, e2⟩ := ctor_eq dt
  rw [run, h0, Res.ok_bind] at h
  refine fresh_foldl ops ha hi ⟨fun v t e => ?_, fun v t e => ?_⟩ h
  · rw [e1] at e; cases e
  · rw [e2] at e; cases e

/-- The input of the current and of the next time, after `setMeasurementInput`. -/
theorem setMeasInput_live {s : Fixed} (hi : Inv s) (u : Fin 15 → ℝ) :
    ∃ a, exec s (.setMeasurementInput ⟨15, u⟩) = .ok { s with ekf := { s.ekf with u := ⟨s.k, [⟨15, a⟩, ⟨15, u⟩]⟩ } } := by
  obtain ⟨x, hx⟩ := hi.x
  have key : ∀ f : KFilter EKF.Ext, f.st.p = 15 → f.x = some (⟨18, x⟩, s.k) → ((∃ a, f.u = ⟨s.k, [⟨15, a⟩]⟩) ∨ ∃ a b, f.u = ⟨s.k, [⟨15, a⟩, ⟨15, b⟩]⟩) →
      ∃ a, Obs.setInput (cfg f) f ⟨15, u⟩ (s.k + 1) = .ok { f with u := ⟨s.k, [⟨15, a⟩, ⟨15, u⟩]⟩ } := by
    intro f hp hx hu
    rcases hu with ⟨a, hu⟩ | ⟨a, b, hu⟩ <;> refine ⟨a, ?_⟩ <;> simp only [Obs.setInput, cfg, hp, hu, hx] <;>
      simp [IArr.setValue, IArr.checkIndex, IArr.checkNext, IArr.size, IArr.getNextIndex]
  rcases hi.u with hu | hu
  · have h0 : s.ekf.u.size = 0 := by rw [IArr.size, hu]; rfl
    have e1 : Obs.setInput (cfg s.ekf) s.ekf ⟨15, u⟩ s.k = .ok { s.ekf with u := ⟨s.k, [⟨15, u⟩]⟩ } := by
      simp only [Obs.setInput, cfg, hi.p, h0, hx]
      simp [IArr.setValue, IArr.checkIndex, IArr.checkNext, hu]
    obtain ⟨a, ha⟩ := key { s.ekf with u := ⟨s.k, [⟨15, u⟩]⟩ } hi.p hx (Or.inl ⟨u, rfl⟩)
    refine ⟨a, ?_⟩
    simp only [exec, Base.setMeasurementInput, Base.firstInput, h0, if_true, e1, Res.ok_bind, ha]
  · have h0 : ¬ s.ekf.u.size = 0 := by
      rcases hu with ⟨a, hu⟩ | ⟨a, b, hu⟩ <;> rw [hu] <;> simp [IArr.size]
    obtain ⟨a, ha⟩ := key s.ekf hi.p hx hu
    refine ⟨a, ?_⟩
    simp only [exec, Base.setMeasurementInput, Base.firstInput, h0, if_false, Res.ok_bind, ha]

theorem setMeas_live {s : Fixed} (hi : Inv s) (y : Fin 6 → ℝ) :
    exec s (.setMeasurement ⟨6, y⟩) = .ok { s with ekf := { s.ekf with
      y := ⟨s.k + 1, [⟨6 + 3 * s.contacts.length, padded _ y⟩]⟩ } } := by
  obtain ⟨x, hx⟩ := hi.x
  have hm := hi.m
  have hy := hi.y
  obtain ⟨⟨⟨ex, ey, eu, ⟨sn, snt, sm, smt, sp, sa, sc, sq, sr, spr, sxb, syb, sin, skg, sar, sext⟩⟩, fd, dx, lx, k⟩, dtF, cs, vc, R', Q, dt⟩ := s
  simp only at hm hx hy
  subst hm hx
  have hp : (setSeg (0 : Fin (6 + 3 * cs.length) → ℝ) 0 fun i : Fin 6 => y i) = padded _ y := by
    funext i
    simp [setSeg, padded]
  simp only [exec, Fixed.setMeasurement]
  rw [dif_pos ⟨trivial, by omega⟩]
  simp only [Fin.cast_eq_self]
  rw [hp]
  simp only [Obs.setMeasurement, cfg, DVec.hasSize_mk, Res.assert_true, Res.ok_bind]
  rcases hy with hy | ⟨w, hy⟩
  · obtain ⟨i, v⟩ := ey
    simp only at hy
    subst hy
    simp [IArr.setValue, IArr.checkIndex, IArr.checkNext, IArr.size]
  · subst hy
    simp [IArr.setValue, IArr.checkIndex, IArr.checkNext, IArr.size]

/-- The estimation, once the Jacobians and predictions are known. -/
theorem getVector_of_jac {s : Fixed} (hi : Inv s) (x : Fin 18 → ℝ) (P Q : Matrix (Fin 18) (Fin 18) ℝ)
    (R : Matrix (Fin (6 + 3 * s.contacts.length)) (Fin (6 + 3 * s.contacts.length)) ℝ) (hx : s.ekf.x = some (⟨18, x⟩, s.k))
    (hP : s.ekf.st.pr = ⟨18, 18, P⟩) (hQ : s.ekf.st.q = ⟨18, 18, Q⟩) (hR : s.ekf.st.r = ⟨_, _, R⟩) (hP' : P.PosSemidef) (hQ' : Q.PosSemidef)
    (hR' : R.PosDef) (a u : Fin 15 → ℝ) (hu : s.ekf.u = ⟨s.k, [⟨15, a⟩, ⟨15, u⟩]⟩) (w) (hy : s.ekf.y = ⟨s.k + 1, [⟨6 + 3 * s.contacts.length, w⟩]⟩) :
    let F := fun x => nextState .fixed s.dtF (rotationVectorToQuaternion (seg 3 x iOri)) x 0
    let H := fun x => reading s.contacts x u
    let A := forwardDiff F fdStep x
    let C := forwardDiff H fdStep (F x)
    let z := F x + gain C R (predCov A Q P) *ᵥ (w - H (F x))
    jacobians true ⟨18, defaultDx⟩ s.ekf = .ok { s.ekf with st := { s.ekf.st with
      a := ⟨18, 18, A⟩
      c := ⟨6 + 3 * s.contacts.length, 18, C⟩
      xbar := some (⟨18, F x⟩, s.k + 1)
      ybar := some (⟨_, H (F x)⟩, s.k + 1)
      ext := { s.ekf.st.ext with optU := ⟨15, u⟩ } } } →
    exec s .getFlexibilityVector = (regulateOrientationVector (seg 3 z iOri) >>= fun o => .ok { s with
      k := s.k + 1
      lastX := ⟨18, setSeg z iOri o⟩
      ekf := { s.ekf with
        x := some (⟨18, setSeg z iOri o⟩, s.k + 1)
        y := ⟨s.k + 2, []⟩
        u := ⟨s.k + 1, [⟨15, u⟩]⟩
        st := { s.ekf.st with
          a := ⟨18, 18, A⟩
          c := ⟨6 + 3 * s.contacts.length, 18, C⟩
          xbar := some (⟨18, F x⟩, s.k + 1)
          ybar := some (⟨_, H (F x)⟩, s.k + 1)
          pr := ⟨18, 18, posterior C R (predCov A Q P)⟩
          innovation := ⟨18, gain C R (predCov A Q P) *ᵥ (w - H (F x))⟩
          kGain := ⟨18, _, gain C R (predCov A Q P)⟩
          ext := { s.ekf.st.ext with optU := ⟨15, u⟩ } } } }) := by
  intro F H A C z hj
  set f2 : KFilter EKF.Ext := { s.ekf with st := { s.ekf.st with
      a := ⟨18, 18, A⟩
      c := ⟨6 + 3 * s.contacts.length, 18, C⟩
      xbar := some (⟨18, F x⟩, s.k + 1)
      ybar := some (⟨_, H (F x)⟩, s.k + 1)
      ext := { s.ekf.st.ext with optU := ⟨15, u⟩ } } } with hf2
  have hm : HasMats f2.st 18 (6 + 3 * s.contacts.length) A Q P C R := ⟨hi.nt, hi.mt, rfl, hQ, hP, rfl, hR⟩
  have hst := oneStep_cached hm hQ' hP' hR' hi.arith ⟨18, x⟩ s.k hx (F x) (H (F x)) w rfl rfl (by
    show s.ekf.y.get _ = _
    rw [hy]; simp [IArr.get, IArr.checkIndex])
  set f3 : KFilter EKF.Ext := { f2 with
      x := some (⟨18, z⟩, s.k + 1)
      u := ⟨s.k + 1, [⟨15, u⟩]⟩
      st := { f2.st with
        pr := ⟨18, 18, posterior C R (predCov A Q P)⟩
        innovation := ⟨18, gain C R (predCov A Q P) *ᵥ (w - H (F x))⟩
        kGain := ⟨18, _, gain C R (predCov A Q P)⟩ } } with hf3
  have hx2 : f2.x = some (⟨18, x⟩, s.k) := hx
  have hy2 : f2.y = ⟨s.k + 1, [⟨6 + 3 * s.contacts.length, w⟩]⟩ := hy
  have hu2 : f2.u = ⟨s.k, [⟨15, a⟩, ⟨15, u⟩]⟩ := hu
  have hp2 : (cfg f2).p = 15 := hi.p
  have hest : EKF.getEstimatedState f2 (s.k + 1) = .ok f3 := by
    simp only [EKF.getEstimatedState, KF.getEstimatedState, Obs.getEstimatedState, getCurrentTime, hx2, Res.ok_bind,
      show decide (s.k ≤ s.k + 1) = true by simp, Res.assert_true, show (s.k + 1 - s.k).toNat = 1 by omega, loop, loopBody]
    rw [hst]
    simp only [Res.ok_bind, hp2, hy2, hu2]
    simp [popIf, IArr.getFirstIndex, IArr.popFront, IArr.size, hf3]
    exact ⟨rfl, hy2.symm⟩
  have hest0 : EKF.getEstimatedState f3 (s.k + 1) = .ok f3 := by
    simp only [EKF.getEstimatedState, KF.getEstimatedState, Obs.getEstimatedState, getCurrentTime, hf3, Res.ok_bind,
      show decide (s.k + 1 ≤ s.k + 1) = true by simp, Res.assert_true, show (s.k + 1 - (s.k + 1)).toNat = 0 by omega, loop]
  have hsz : s.ekf.y.size > 0 := by rw [hy]; simp [IArr.size]
  have hb : s.toBase.getFlexibilityVector = .ok { s.toBase with ekf := f3, k := s.k + 1, lastX := ⟨18, z⟩ } := by
    rw [Base.getFlexibilityVector, if_pos hsz]
    have e1 : s.ekf.getMeasurementTime = .ok (s.k + 1) := by
      simp [Obs.getMeasurementTime, hy, IArr.getLastIndex, IArr.size]
    simp only [e1, Res.ok_bind, getCurrentTime, hx, show (s.k + 1 - s.k).toNat = 1 by omega, estimate, hi.fd, hi.dx, hj, hest, hest0]
    rfl
  show s.getFlexibilityVector = _
  rw [Fixed.getFlexibilityVector, if_pos hsz, hb]
  simp only [Res.ok_bind, dif_pos, Fin.cast_eq_self]
  congr 1
  funext o
  have hl := obsSetState_live f3 (setSeg z iOri o) (s.k + 1) hi.n hi.p
  have hc : getCurrentTime f3 = .ok (s.k + 1) := rfl
  rw [hc]
  simp only [Res.ok_bind]
  erw [hl]
  have h3 : f3.y = ⟨s.k + 1, [⟨6 + 3 * s.contacts.length, w⟩]⟩ := hy2
  have h4 : f3.u = ⟨s.k + 1, [⟨15, u⟩]⟩ := rfl
  simp only [Res.ok_bind, h3, h4]
  simp [dropUpTo, hf3, hf2]
  omega

/-- The estimation with a measurement and an input for the next time. -/
theorem getVector_live {s : Fixed} (hi : Inv s) (hf : Fresh s) (x : Fin 18 → ℝ) (P Q : Matrix (Fin 18) (Fin 18) ℝ)
    (R : Matrix (Fin (6 + 3 * s.contacts.length)) (Fin (6 + 3 * s.contacts.length)) ℝ) (hx : s.ekf.x = some (⟨18, x⟩, s.k))
    (hP : s.ekf.st.pr = ⟨18, 18, P⟩) (hQ : s.ekf.st.q = ⟨18, 18, Q⟩) (hR : s.ekf.st.r = ⟨_, _, R⟩) (hP' : P.PosSemidef) (hQ' : Q.PosSemidef)
    (hR' : R.PosDef) (a u : Fin 15 → ℝ) (hu : s.ekf.u = ⟨s.k, [⟨15, a⟩, ⟨15, u⟩]⟩) (w) (hy : s.ekf.y = ⟨s.k + 1, [⟨6 + 3 * s.contacts.length, w⟩]⟩) :
    let F := fun x => nextState .fixed s.dtF (rotationVectorToQuaternion (seg 3 x iOri)) x 0
    let H := fun x => reading s.contacts x u
    let A := forwardDiff F fdStep x
    let C := forwardDiff H fdStep (F x)
    let z := F x + gain C R (predCov A Q P) *ᵥ (w - H (F x))
    exec s .getFlexibilityVector = (regulateOrientationVector (seg 3 z iOri) >>= fun o => .ok { s with
      k := s.k + 1
      lastX := ⟨18, setSeg z iOri o⟩
      ekf := { s.ekf with
        x := some (⟨18, setSeg z iOri o⟩, s.k + 1)
        y := ⟨s.k + 2, []⟩
        u := ⟨s.k + 1, [⟨15, u⟩]⟩
        st := { s.ekf.st with
          a := ⟨18, 18, A⟩
          c := ⟨6 + 3 * s.contacts.length, 18, C⟩
          xbar := some (⟨18, F x⟩, s.k + 1)
          ybar := some (⟨_, H (F x)⟩, s.k + 1)
          pr := ⟨18, 18, posterior C R (predCov A Q P)⟩
          innovation := ⟨18, gain C R (predCov A Q P) *ᵥ (w - H (F x))⟩
          kGain := ⟨18, _, gain C R (predCov A Q P)⟩
          ext := { s.ekf.st.ext with optU := ⟨15, u⟩ } } } }) := by
  intro F H A C z
  have hnx : notCached s.ekf.st.xbar (s.k + 1) = true := notCached_of_lt fun v t e => by have := hf.1 v t e; omega
  have hny : notCached s.ekf.st.ybar (s.k + 1) = true := notCached_of_lt fun v t e => by have := hf.2 v t e; omega
  have hget : s.ekf.u.get (s.k + 1) = .ok ⟨15, u⟩ := by
    rw [hu]
    simp [IArr.get, IArr.checkIndex]
  have ar : Armed (n := 18) (m := 6 + 3 * s.contacts.length) (p := 15) s.ekf x s.k (functor s.dtF s.contacts) F H u :=
    ⟨hi.n, hi.nt, hi.m, hi.mt, hi.p, by norm_num, hi.arith, hx, hget, hi.f, hi.dirState, fun z => functor_state _ _ _ _ _,
      fun z => functor_measure _ _ _ _ _⟩
  have gA := ar.getA hnx fdStep
  set f1 : KFilter EKF.Ext := { s.ekf with st := { s.ekf.st with
      a := ⟨18, 18, A⟩
      xbar := some (⟨18, F x⟩, s.k + 1)
      ext := { s.ekf.st.ext with optU := DVec.zero 15 } } } with hf1
  have ar1 : Armed (n := 18) (m := 6 + 3 * s.contacts.length) (p := 15) f1 x s.k (functor s.dtF s.contacts) F H u :=
    ⟨hi.n, hi.nt, hi.m, hi.mt, hi.p, by norm_num, hi.arith, hx, hget, hi.f, hi.dirState, fun z => functor_state _ _ _ _ _,
      fun z => functor_measure _ _ _ _ _⟩
  have gC := ar1.getC (F x) rfl hny (by norm_num) fdStep
  set f2 : KFilter EKF.Ext := { s.ekf with st := { s.ekf.st with
      a := ⟨18, 18, A⟩
      c := ⟨6 + 3 * s.contacts.length, 18, C⟩
      xbar := some (⟨18, F x⟩, s.k + 1)
      ybar := some (⟨_, H (F x)⟩, s.k + 1)
      ext := { s.ekf.st.ext with optU := ⟨15, u⟩ } } } with hf2
  have hj : jacobians true ⟨18, defaultDx⟩ s.ekf = .ok f2 := by
    rw [fdStep_eq, jacobians, if_pos rfl, gA]
    have c1 : ∀ o : DVec, KData.checkA { s.ekf.st with xbar := some (⟨18, F x⟩, s.k + 1), ext := { s.ekf.st.ext with optU := o } } ⟨18, 18, A⟩ = true := by
      intro o
      simp [KData.checkA, hi.nt]
    simp only [Res.ok_bind, setA]
    erw [c1]
    simp only [Res.assert_true, Res.ok_bind]
    erw [gC]
    simp only [Res.ok_bind, setC]
    have c2 : KData.checkC f1.st ⟨6 + 3 * s.contacts.length, 18, C⟩ = true := by simp [KData.checkC, hf1, hi.nt, hi.mt]
    erw [c2]
    rfl
  exact getVector_of_jac hi x P Q R hx hP hQ hR hP' hQ' hR' a u hu w hy hj

/-- The same, when the prediction has been asked before. -/
theorem getVector_cached {s : Fixed} (hi : Inv s) (x : Fin 18 → ℝ) (P Q : Matrix (Fin 18) (Fin 18) ℝ)
    (R : Matrix (Fin (6 + 3 * s.contacts.length)) (Fin (6 + 3 * s.contacts.length)) ℝ) (hx : s.ekf.x = some (⟨18, x⟩, s.k))
    (hP : s.ekf.st.pr = ⟨18, 18, P⟩) (hQ : s.ekf.st.q = ⟨18, 18, Q⟩) (hR : s.ekf.st.r = ⟨_, _, R⟩) (hP' : P.PosSemidef) (hQ' : Q.PosSemidef)
    (hR' : R.PosDef) (a u : Fin 15 → ℝ) (hu : s.ekf.u = ⟨s.k, [⟨15, a⟩, ⟨15, u⟩]⟩) (w) (hy : s.ekf.y = ⟨s.k + 1, [⟨6 + 3 * s.contacts.length, w⟩]⟩) :
    let F := fun x => nextState .fixed s.dtF (rotationVectorToQuaternion (seg 3 x iOri)) x 0
    let H := fun x => reading s.contacts x u
    s.ekf.st.xbar = some (⟨18, F x⟩, s.k + 1) → s.ekf.st.ybar = some (⟨6 + 3 * s.contacts.length, H (F x)⟩, s.k + 1) →
    let A := forwardDiff F fdStep x
    let C := forwardDiff H fdStep (F x)
    let z := F x + gain C R (predCov A Q P) *ᵥ (w - H (F x))
    exec s .getFlexibilityVector = (regulateOrientationVector (seg 3 z iOri) >>= fun o => .ok { s with
      k := s.k + 1
      lastX := ⟨18, setSeg z iOri o⟩
      ekf := { s.ekf with
        x := some (⟨18, setSeg z iOri o⟩, s.k + 1)
        y := ⟨s.k + 2, []⟩
        u := ⟨s.k + 1, [⟨15, u⟩]⟩
        st := { s.ekf.st with
          a := ⟨18, 18, A⟩
          c := ⟨6 + 3 * s.contacts.length, 18, C⟩
          xbar := some (⟨18, F x⟩, s.k + 1)
          ybar := some (⟨_, H (F x)⟩, s.k + 1)
          pr := ⟨18, 18, posterior C R (predCov A Q P)⟩
          innovation := ⟨18, gain C R (predCov A Q P) *ᵥ (w - H (F x))⟩
          kGain := ⟨18, _, gain C R (predCov A Q P)⟩
          ext := { s.ekf.st.ext with optU := ⟨15, u⟩ } } } }) := by
  intro F H hcx hcy A C z
  have hget : s.ekf.u.get (s.k + 1) = .ok ⟨15, u⟩ := by
    rw [hu]
    simp [IArr.get, IArr.checkIndex]
  have ar : Armed (n := 18) (m := 6 + 3 * s.contacts.length) (p := 15) s.ekf x s.k (functor s.dtF s.contacts) F H u :=
    ⟨hi.n, hi.nt, hi.m, hi.mt, hi.p, by norm_num, hi.arith, hx, hget, hi.f, hi.dirState, fun z => functor_state _ _ _ _ _,
      fun z => functor_measure _ _ _ _ _⟩
  have gA := ar.getA_cached hcx fdStep
  set f1 : KFilter EKF.Ext := { s.ekf with st := { s.ekf.st with
      a := ⟨18, 18, A⟩
      ext := { s.ekf.st.ext with optU := DVec.zero 15 } } } with hf1
  have ar1 : Armed (n := 18) (m := 6 + 3 * s.contacts.length) (p := 15) f1 x s.k (functor s.dtF s.contacts) F H u :=
    ⟨hi.n, hi.nt, hi.m, hi.mt, hi.p, by norm_num, hi.arith, hx, hget, hi.f, hi.dirState, fun z => functor_state _ _ _ _ _,
      fun z => functor_measure _ _ _ _ _⟩
  have gC := ar1.getC_cached (F x) hcx hcy (by norm_num) fdStep
  refine getVector_of_jac hi x P Q R hx hP hQ hR hP' hQ' hR' a u hu w hy ?_
  rw [fdStep_eq, jacobians, if_pos rfl, gA]
  have c1 : ∀ o : DVec, KData.checkA { s.ekf.st with ext := { s.ekf.st.ext with optU := o } } ⟨18, 18, A⟩ = true := by
    intro o
    simp [KData.checkA, hi.nt]
  simp only [Res.ok_bind, setA]
  erw [c1]
  simp only [Res.assert_true, Res.ok_bind]
  erw [gC]
  simp only [Res.ok_bind, setC]
  have c2 : KData.checkC f1.st ⟨6 + 3 * s.contacts.length, 18, C⟩ = true := by simp [KData.checkC, hf1, hi.nt, hi.mt]
  erw [c2]
  simp only [Res.assert_true, Res.ok_bind, hf1]
  rw [← hcx, ← hcy]

end StateObs.Flex
