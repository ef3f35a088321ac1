import Verif.Flex.Props
/-! # Property C83: asking for the predicted measurement -/

namespace StateObs.Flex
open StateObs KF Imu Rot Kine Matrix KFSpec EKF Obs

theorem run_append {dt : ℝ} {ops : List Op} {s : Fixed} (h : run dt ops = .ok s) (l : List Op) : run dt (ops ++ l) = l.foldlM exec s := by
  unfold run at h ⊢
  cases hc : ctor dt with
  | ok s0 =>
    rw [hc, Res.ok_bind] at h
    rw [Res.ok_bind, List.foldlM_append, h, Res.ok_bind]
  | assertFail => rw [hc] at h; simp at h
  | ub => rw [hc] at h; simp at h
  | exn => rw [hc] at h; simp at h

/-- The predicted measurement, with an input for the next time. -/
theorem getPredicted_live {s : Fixed} (hi : Inv s) (hf : Fresh s) (x : Fin 18 → ℝ) (hx : s.ekf.x = some (⟨18, x⟩, s.k)) (a u : Fin 15 → ℝ)
    (hu : s.ekf.u = ⟨s.k, [⟨15, a⟩, ⟨15, u⟩]⟩) :
    let F := fun x => nextState .fixed s.dtF (rotationVectorToQuaternion (seg 3 x iOri)) x 0
    let H := fun x => reading s.contacts x u
    exec s .getPredictedMeasurement = .ok { s with ekf := { s.ekf with st := { s.ekf.st with
      xbar := some (⟨18, F x⟩, s.k + 1)
      ybar := some (⟨_, H (F x)⟩, s.k + 1)
      ext := { s.ekf.st.ext with optU := ⟨15, u⟩ } } } } := by
  intro F H
  have hget : s.ekf.u.get (s.k + 1) = .ok ⟨15, u⟩ := by
    rw [hu]
    simp [IArr.get, IArr.checkIndex]
  have ar : Armed (n := 18) (m := 6 + 3 * s.contacts.length) (p := 15) s.ekf x s.k (functor s.dtF s.contacts) F H u :=
    ⟨hi.n, hi.nt, hi.m, hi.mt, hi.p, by norm_num, hi.arith, hx, hget, hi.f, hi.dirState, fun z => functor_state _ _ _ _ _,
      fun z => functor_measure _ _ _ _ _⟩
  have hnx : notCached s.ekf.st.xbar (s.k + 1) = true := notCached_of_lt fun v t e => by have := hf.1 v t e; omega
  have hny : notCached s.ekf.st.ybar (s.k + 1) = true := notCached_of_lt fun v t e => by have := hf.2 v t e; omega
  have := ar.both hnx hny
  simp only [exec, this, Res.ok_bind]

/-- **C83**, the part which holds: from any state reached with calls giving covariances, asking for the predicted measurement between the input
and the measurement for the next time returns the measurement predicted by the model from the current estimate, and does not change the
estimation. -/
theorem C83_partial (dt : ℝ) (ops : List Op) (ha : ∀ op ∈ ops, op.Admissible) (hp : ∀ op ∈ ops, ¬ op.Predicts) (s : Fixed)
    (h : run dt ops = .ok s) (u : Fin 15 → ℝ) (y : Fin 6 → ℝ) :
    (∃ s1 x z yb, run dt (ops ++ [.setMeasurementInput ⟨15, u⟩, .getPredictedMeasurement]) = .ok s1 ∧ s.ekf.x = some (⟨18, x⟩, s.k) ∧ Next dt x z ∧
      Reading (ops.foldl Request.after Request.start).contacts z u yb ∧ s1.ekf.st.ybar = some (⟨_, yb⟩, s.k + 1)) ∧
    run dt (ops ++ [.setMeasurementInput ⟨15, u⟩, .getPredictedMeasurement, .setMeasurement ⟨6, y⟩, .getFlexibilityVector]) =
      run dt (ops ++ [.setMeasurementInput ⟨15, u⟩, .setMeasurement ⟨6, y⟩, .getFlexibilityVector]) := by
  have hag := agrees_run h
  have hi := hag.inv
  have hc := cov_run ha h
  have hf := fresh_run hp h
  have hd := hag.dt
  subst hd
  rw [← hag.contacts]
  obtain ⟨x, hx⟩ := hi.x
  obtain ⟨P, hP, hP'⟩ := hc.pr
  obtain ⟨Q, hQ⟩ := hi.q18
  have hQ' : Q.PosSemidef := by have := hc.q; rw [hQ, isPSD_mk] at this; exact this
  obtain ⟨R0, hR0, hr⟩ := hi.r
  have hR' : (fullR (6 + 3 * s.contacts.length) R0 s.vcov).PosDef := by have := hc.r hi; rw [hr, isPD_mk] at this; exact this
  obtain ⟨a, e1⟩ := setMeasInput_live hi u
  have hr1 := run_snoc h (.setMeasurementInput ⟨15, u⟩)
  rw [e1] at hr1
  have hi1 := run_inv hr1
  have e2 := setMeas_live hi1 y
  have hr2 := run_snoc hr1 (.setMeasurement ⟨6, y⟩)
  rw [e2] at hr2
  have hi2 := run_inv hr2
  have hv := getVector_live hi2 hf x P Q _ hx hP (hi.q.trans hQ) hr hP' hQ' hR' a u rfl _ rfl
  have p1 := getPredicted_live hi1 hf x hx a u rfl
  have hrp := run_snoc hr1 .getPredictedMeasurement
  rw [p1] at hrp
  have hip := run_inv hrp
  have e2p := setMeas_live hip y
  have hrp2 := run_snoc hrp (.setMeasurement ⟨6, y⟩)
  rw [e2p] at hrp2
  have hip2 := run_inv hrp2
  have hvp := getVector_cached hip2 x P Q _ hx hP (hi.q.trans hQ) hr hP' hQ' hR' a u rfl _ rfl rfl rfl
  constructor
  · rw [List.append_assoc] at hrp
    exact ⟨_, x, _, _, hrp, hx, next_spec s.dtF x, reading_spec _ _ u, rfl⟩
  · rw [run_append h, run_append h]
    simp only [List.foldlM_cons, List.foldlM_nil, e1, Res.ok_bind, p1, e2p, hvp, e2, hv]

/-- What C83 asks: in any admissible sequence of calls in which the estimation succeeds, it also succeeds, with the same result, if the predicted
measurement has been asked for. -/
def C83_statement : Prop := ∀ (dt : ℝ) (ops ops' : List Op) (t : Fixed), (∀ op ∈ ops ++ ops', op.Admissible) →
  run dt (ops ++ ops' ++ [.getFlexibilityVector]) = .ok t → ∀ s, run dt (ops ++ [.getPredictedMeasurement]) = .ok s →
  ∃ t', run dt (ops ++ [.getPredictedMeasurement] ++ ops' ++ [.getFlexibilityVector]) = .ok t' ∧ t'.lastX = t.lastX

/-- **C83** fails whenever the number of contacts is changed in between: every call is accepted, but the estimation stops on an assertion,
because the prediction with the former number of contacts is kept. -/
theorem C83_stale (dt : ℝ) (ops : List Op) (hp : ∀ op ∈ ops, ¬ op.Predicts) (s : Fixed)
    (h : run dt ops = .ok s) (u u' : Fin 15 → ℝ) (y : Fin 6 → ℝ) (n : ℕ) (hn : n ≠ (ops.foldl Request.after Request.start).contacts.length) :
    ∃ s', run dt (ops ++ [.setMeasurementInput ⟨15, u⟩, .getPredictedMeasurement, .setContactsNumber n, .setMeasurementInput ⟨15, u'⟩,
      .setMeasurement ⟨6, y⟩]) = .ok s' ∧ exec s' .getFlexibilityVector = .assertFail := by
  have hag := agrees_run h
  have hi := hag.inv
  have hf := fresh_run hp h
  rw [← hag.contacts] at hn
  obtain ⟨x, hx⟩ := hi.x
  obtain ⟨a, e1⟩ := setMeasInput_live hi u
  have hr1 := run_snoc h (.setMeasurementInput ⟨15, u⟩)
  rw [e1] at hr1
  have hi1 := run_inv hr1
  have p1 := getPredicted_live hi1 hf x hx a u rfl
  have hrp := run_snoc hr1 .getPredictedMeasurement
  rw [p1] at hrp
  have hip := run_inv hrp
  obtain ⟨s2, h2⟩ := (C71_setters _ _ _ hrp).1 n
  have hi2 := run_inv h2
  have h2' := h2
  rw [run_snoc hrp] at h2'
  obtain ⟨R, y0, c, -, -, -, e3⟩ := setContactsNumber_eq hip h2'
  have hlen : s2.contacts.length = n := by rw [e3]; simp; omega
  obtain ⟨a', e4⟩ := setMeasInput_live hi2 u'
  have hr4 := run_snoc h2 (.setMeasurementInput ⟨15, u'⟩)
  rw [e4] at hr4
  have hi4 := run_inv hr4
  have e5 := setMeas_live hi4 y
  have hr5 := run_snoc hr4 (.setMeasurement ⟨6, y⟩)
  rw [e5] at hr5
  have hi5 := run_inv hr5
  rw [List.append_assoc, List.append_assoc, List.append_assoc, List.append_assoc] at hr5
  refine ⟨_, hr5, ?_⟩
  · set s5 : Fixed := { s2 with ekf := { s2.ekf with
      u := ⟨s2.k, [⟨15, a'⟩, ⟨15, u'⟩]⟩
      y := ⟨s2.k + 1, [⟨6 + 3 * s2.contacts.length, padded _ y⟩]⟩ } } with hs5
    have hk : s2.k = s.k := by rw [e3]
    have hx2 : s5.ekf.x = some (⟨18, x⟩, s5.k) := by rw [hs5]; simp only [hk]; rw [e3]; exact hx
    have hget : s5.ekf.u.get (s5.k + 1) = .ok ⟨15, u'⟩ := by
      simp [hs5, IArr.get, IArr.checkIndex]
    set F := fun x => nextState .fixed s5.dtF (rotationVectorToQuaternion (seg 3 x iOri)) x 0 with hF
    set H := fun x => reading s5.contacts x u' with hH
    have ar : Armed (n := 18) (m := 6 + 3 * s5.contacts.length) (p := 15) s5.ekf x s5.k (functor s5.dtF s5.contacts) F H u' :=
      ⟨hi5.n, hi5.nt, hi5.m, hi5.mt, hi5.p, by norm_num, hi5.arith, hx2, hget, hi5.f, hi5.dirState, fun z => functor_state _ _ _ _ _,
        fun z => functor_measure _ _ _ _ _⟩
    have hd : s5.dtF = s.dtF := by rw [hs5]; simp only; rw [e3]
    have hcx : s5.ekf.st.xbar = some (⟨18, F x⟩, s5.k + 1) := by
      rw [hF, hd, hs5]; simp only [hk]; rw [e3]
    have hcy : s5.ekf.st.ybar = some (⟨6 + 3 * s.contacts.length, reading s.contacts (F x) u⟩, s5.k + 1) := by
      rw [hF, hd, hs5]; simp only [hk]; rw [e3]
    have gA := ar.getA_cached hcx fdStep
    set f1 : KFilter EKF.Ext := { s5.ekf with st := { s5.ekf.st with
        a := ⟨18, 18, forwardDiff F fdStep x⟩
        ext := { s5.ekf.st.ext with optU := DVec.zero 15 } } } with hf1
    have ar1 : Armed (n := 18) (m := 6 + 3 * s5.contacts.length) (p := 15) f1 x s5.k (functor s5.dtF s5.contacts) F H u' :=
      ⟨hi5.n, hi5.nt, hi5.m, hi5.mt, hi5.p, by norm_num, hi5.arith, hx2, hget, hi5.f, hi5.dirState, fun z => functor_state _ _ _ _ _,
        fun z => functor_measure _ _ _ _ _⟩
    have gC := ar1.getC_stale (F x) hcx _ hcy (by show 6 + 3 * s2.contacts.length ≠ _; rw [hlen]; omega) (by norm_num) fdStep
    have hj : jacobians true ⟨18, defaultDx⟩ s5.ekf = .assertFail := by
      rw [fdStep_eq, jacobians, if_pos rfl, gA]
      have c1 : ∀ o : DVec, KData.checkA { s5.ekf.st with ext := { s5.ekf.st.ext with optU := o } } ⟨18, 18, forwardDiff F fdStep x⟩ = true := by
        intro o
        simp [KData.checkA, hi5.nt]
      simp only [Res.ok_bind, setA]
      erw [c1]
      simp only [Res.assert_true, Res.ok_bind]
      erw [gC]
      rfl
    have hsz : s5.ekf.y.size > 0 := by simp [hs5, IArr.size]
    have e6 : s5.ekf.getMeasurementTime = .ok (s5.k + 1) := by
      simp [Obs.getMeasurementTime, hs5, IArr.getLastIndex, IArr.size]
    have hb : s5.toBase.getFlexibilityVector = .assertFail := by
      rw [Base.getFlexibilityVector, if_pos hsz]
      simp only [e6, Res.ok_bind, getCurrentTime, hx2, show (s5.k + 1 - s5.k).toNat = 1 by omega, estimate, hi5.fd, hi5.dx, hj]
      rfl
    show s5.getFlexibilityVector = _
    rw [Fixed.getFlexibilityVector, if_pos hsz, hb]
    rfl

/-- **C83** is false: a new estimator, input, (predicted measurement,) two contacts, input, measurement, estimation. -/
theorem C83_false : ¬ C83_statement := by
  intro hC
  obtain ⟨s0, hc, hi0, -, hcs, -, -, -, -, hx0, -, hk0, -⟩ := ctor_eq 0.005
  have h0 : run 0.005 [] = .ok s0 := by simp [run, hc]
  obtain ⟨a, e1⟩ := setMeasInput_live hi0 0
  have hr1 := run_snoc h0 (.setMeasurementInput ⟨15, 0⟩)
  rw [e1] at hr1
  have hi1 := run_inv hr1
  obtain ⟨s2, h2⟩ := (C71_setters _ _ _ hr1).1 2
  have hx1 : s2.ekf.x = some (DVec.zero 18, 0) ∧ s2.k = 0 := by
    have := h2
    rw [run_snoc hr1] at this
    obtain ⟨R, y, c, -, -, -, rfl⟩ := setContactsNumber_eq hi1 this
    exact ⟨hx0, hk0⟩
  obtain ⟨s3, t, h3, h4, -⟩ := rest_estimation _ _ (by simp [Op.Admissible]) (by simp [Op.Predicts]) s2 h2
    (by simp [Request.after, Request.start, List.range_succ]) hx1
  obtain ⟨s', h5, h6⟩ := C83_stale 0.005 [] (by simp) s0 h0 0 0 ![0, 0, 9.8, 0, 0, 0] 2 (by simp [Request.start])
  obtain ⟨-, hf⟩ := (⟨trivial, fresh_run (by simp) h0⟩ : True ∧ Fresh s0)
  have p1 := getPredicted_live hi1 hf 0 (by show s0.ekf.x = _; rw [hx0, hk0]; rfl) a 0 rfl
  have hrp := run_snoc hr1 .getPredictedMeasurement
  rw [p1] at hrp
  have h7 := run_snoc h3 .getFlexibilityVector
  rw [h4] at h7
  obtain ⟨t', h8, -⟩ := hC 0.005 [.setMeasurementInput ⟨15, 0⟩] [.setContactsNumber 2, .setMeasurementInput ⟨15, 0⟩, .setMeasurement ⟨6, ![0, 0, 9.8, 0, 0, 0]⟩]
    t (by simp [Op.Admissible]) h7 _ hrp
  have h9 := run_snoc h5 .getFlexibilityVector
  rw [h6] at h9
  have : Res.assertFail = Res.ok t' := h9.symm.trans h8
  cases this

end StateObs.Flex
