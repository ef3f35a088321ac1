import Verif.Flex.StepProps
/-! # Properties C71, C80, C81, C82 of the flexibility estimator with fixed contacts -/

namespace StateObs.Flex
open StateObs KF Imu Rot Kine Matrix KFSpec EKF Obs

theorem run_inv {dt : ℝ} {ops : List Op} {s : Fixed} (h : run dt ops = .ok s) : Inv s := (agrees_run h).inv

theorem run_snoc {dt : ℝ} {ops : List Op} {s : Fixed} (h : run dt ops = .ok s) (op : Op) : run dt (ops ++ [op]) = exec s op := by
  unfold run at h ⊢
  cases hc : ctor dt with
  | ok s0 =>
    rw [hc, Res.ok_bind] at h
    rw [Res.ok_bind, List.foldlM_append, h, Res.ok_bind]
    simp only [List.foldlM_cons, List.foldlM_nil]
    cases exec s op <;> rfl
  | assertFail => rw [hc] at h; simp at h
  | ub => rw [hc] at h; simp at h
  | exn => rw [hc] at h; simp at h

/-! ## C71: the setters always work -/

/-- **C71** After any calls the number of contacts, the variances and the positions of the contacts can be changed. -/
theorem C71_setters (dt : ℝ) (ops : List Op) (s : Fixed) (h : run dt ops = .ok s) :
    (∀ n, ∃ t, run dt (ops ++ [.setContactsNumber n]) = .ok t) ∧ (∀ c, ∃ t, run dt (ops ++ [.setVirtualMeasurementsCovariance c]) = .ok t) ∧
    (∀ R : Matrix (Fin 6) (Fin 6) ℝ, ∃ t, run dt (ops ++ [.setMeasurementNoiseCovariance ⟨6, 6, R⟩]) = .ok t) ∧
    (∃ t, run dt (ops ++ [.resetCovarianceMatrices]) = .ok t) ∧
    (∀ i p, i < (ops.foldl Request.after Request.start).contacts.length → ∃ t, run dt (ops ++ [.setContactPosition i p]) = .ok t) := by
  have hi := run_inv h
  obtain ⟨R, hR, -⟩ := hi.r
  have hm : 6 ≤ s.ekf.st.mt := by rw [hi.mt]; omega
  refine ⟨fun n => ?_, fun c => ?_, fun R => ?_, ?_, fun i p hl => ?_⟩
  · rw [run_snoc h]
    obtain ⟨y, c, r, e, -⟩ := setMeasureSize_eq
      (EKF.setFunctor s.ekf (functor s.dtF (s.contacts.take n ++ List.replicate (n - s.contacts.length) 0))) hi.m hi.mt (6 + 3 * n)
    simp only [exec, Fixed.setContactsNumber, Fixed.sync, e]
    exact ⟨_, updateCov_live _ R hR (Nat.le_add_right 6 (3 * n))⟩
  · rw [run_snoc h]
    exact ⟨_, updateCov_live { s with vcov := c } R hR hm⟩
  · rw [run_snoc h]
    simp only [exec, Fixed.setMeasurementNoiseCovariance]
    rw [(DMat.hasSize_iff _ _ _).2 ⟨R, rfl⟩]
    simp only [Res.assert_true, Res.ok_bind]
    exact ⟨_, updateCov_live { s with R := ⟨6, 6, R⟩ } R rfl hm⟩
  · rw [run_snoc h]
    exact resetCov_live s hm hi.nt
  · rw [run_snoc h]
    have : decide (i < s.contacts.length) = true := by rw [(agrees_run h).contacts]; simpa using hl
    simp only [exec, Fixed.setContactPosition, this, Res.assert_true, Res.ok_bind]
    exact ⟨_, rfl⟩

/-- Non-vacuity of C71: two contacts, the second at (1,2,3), variance 2 for the virtual measurements, 3 for the others. -/
example : ∃ s, run 0.005 [.setContactsNumber 2, .setContactPosition 1 ![1, 2, 3], .setVirtualMeasurementsCovariance 2,
    .setMeasurementNoiseCovariance ⟨6, 6, (3 : ℝ) • 1⟩] = .ok s ∧ entry s.ekf.st.r 11 11 = 2 ∧ entry s.ekf.st.r 5 5 = 3 ∧ entry s.ekf.st.r 5 11 = 0 := by
  have h0 : ∃ s, run 0.005 [] = .ok s := by
    obtain ⟨s, h, -⟩ := ctor_eq 0.005
    exact ⟨s, by simp [run, h]⟩
  obtain ⟨s0, h0⟩ := h0
  obtain ⟨s1, h1⟩ := (C71_setters _ _ s0 h0).1 2
  obtain ⟨s2, h2⟩ := (C71_setters _ _ s1 h1).2.2.2.2 1 ![1, 2, 3] (by simp [Request.after, Request.start])
  obtain ⟨s3, h3⟩ := (C71_setters _ _ s2 h2).2.1 2
  obtain ⟨s4, h4⟩ := (C71_setters _ _ s3 h3).2.2.1 ((3 : ℝ) • 1)
  obtain ⟨-, -, -, -, h⟩ := C71_covariance _ _ _ h4
  refine ⟨s4, h4, ?_, ?_, ?_⟩
  · rw [h 11 11 (by simp [Request.after, Request.start]) (by simp [Request.after, Request.start])]
    simp [Request.covariance, Request.after]
  · rw [h 5 5 (by simp [Request.after, Request.start]) (by simp [Request.after, Request.start])]
    simp [Request.covariance, Request.after, entry]
  · rw [h 5 11 (by simp [Request.after, Request.start]) (by simp [Request.after, Request.start])]
    simp [Request.covariance]

/-! ## C82: the estimation -/

/-- **C82** From any state reached with calls giving covariances, without predictions asked in advance: the input and the measurement for the next
time are accepted; then `getFlexibilityVector` is one step of the extended Kalman filter (forward differences with the documented steps, at
the current estimate for the dynamics and at the predicted one for the measurement), after which the orientation is replaced by one of norm at
most 3π/2 with the same rotation, in the estimate and in the filter. Time advances by one, the measurement is consumed, asking again gives the same.
If the orientation vector after the correction is longer than π(2³³-1) the call is undefined behaviour. -/
theorem C82_estimation (dt : ℝ) (ops : List Op) (ha : ∀ op ∈ ops, op.Admissible) (hp : ∀ op ∈ ops, ¬ op.Predicts) (s : Fixed)
    (h : run dt ops = .ok s) (u : Fin 15 → ℝ) (y : Fin 6 → ℝ) :
    let c := (ops.foldl Request.after Request.start).contacts
    let m := 6 + 3 * c.length
    ∃ (s' : Fixed) (F : (Fin 18 → ℝ) → Fin 18 → ℝ) (H : (Fin 18 → ℝ) → Fin m → ℝ) (x : Fin 18 → ℝ) (P Q : Matrix (Fin 18) (Fin 18) ℝ)
      (R : Matrix (Fin m) (Fin m) ℝ),
      run dt (ops ++ [.setMeasurementInput ⟨15, u⟩, .setMeasurement ⟨6, y⟩]) = .ok s' ∧ (∀ x, Next dt x (F x)) ∧ (∀ x, Reading c x u (H x)) ∧
      s.ekf.x = some (⟨18, x⟩, s.k) ∧ s.ekf.st.pr = ⟨18, 18, P⟩ ∧ s.Q = ⟨18, 18, Q⟩ ∧ s.ekf.st.r = ⟨m, m, R⟩ ∧
      let A := forwardDiff F fdStep x
      let C := forwardDiff H fdStep (F x)
      let z := F x + gain C R (predCov A Q P) *ᵥ (padded m y - H (F x))
      (nrm (seg 3 z 3) ≤ Real.pi * (2 ^ 33 - 1) → ∃ (t : Fixed) (v : Fin 18 → ℝ), exec s' .getFlexibilityVector = .ok t ∧
        t.lastX = ⟨18, v⟩ ∧ t.ekf.x = some (⟨18, v⟩, s.k + 1) ∧ t.k = s.k + 1 ∧ t.ekf.st.pr = ⟨18, 18, posterior C R (predCov A Q P)⟩ ∧
        (∀ i : Fin 18, i.val < 3 ∨ 6 ≤ i.val → v i = z i) ∧ NormedSpace.exp (hat (seg 3 v 3)) = NormedSpace.exp (hat (seg 3 z 3)) ∧
        nrm (seg 3 v 3) ≤ 3 / 2 * Real.pi ∧ t.ekf.y.v = [] ∧ exec t .getFlexibilityVector = .ok t) ∧
      (Real.pi * (2 ^ 33 - 1) < nrm (seg 3 z 3) → exec s' .getFlexibilityVector = .ub) := by
  have hag := agrees_run h
  have hi := hag.inv
  have hc := cov_run ha h
  have hf := fresh_run hp h
  have hd := hag.dt
  subst hd
  rw [← hag.contacts]
  intro c m
  obtain ⟨x, hx⟩ := hi.x
  obtain ⟨P, hP, hP'⟩ := hc.pr
  obtain ⟨Q, hQ⟩ := hi.q18
  have hQ' : Q.PosSemidef := by have := hc.q; rw [hQ, isPSD_mk] at this; exact this
  obtain ⟨R0, hR0, hr⟩ := hi.r
  have hR' : (fullR (6 + 3 * s.contacts.length) R0 s.vcov).PosDef := by have := hc.r hi; rw [hr, isPD_mk] at this; exact this
  obtain ⟨a, e1⟩ := setMeasInput_live hi u
  have hr1 := run_snoc h (.setMeasurementInput ⟨15, u⟩)
  rw [e1] at hr1
  have hi1 := run_inv hr1
  have e2 := setMeas_live hi1 y
  have hr2 := run_snoc hr1 (.setMeasurement ⟨6, y⟩)
  rw [e2, List.append_assoc] at hr2
  have hi2 := run_inv hr2
  have hv := getVector_live hi2 hf x P Q _ hx hP (hi.q.trans hQ) hr hP' hQ' hR' a u rfl _ rfl
  refine ⟨_, fun x => nextState .fixed s.dtF (rotationVectorToQuaternion (seg 3 x iOri)) x 0, fun x => reading s.contacts x u, x, P, Q, _, hr2,
    next_spec s.dtF, fun x => reading_spec _ x u, hx, hP, hQ, hr, ?_⟩
  intro A C z
  rw [hv]
  refine ⟨fun hz => ?_, fun hz => ?_⟩
  · obtain ⟨o, ho, h1, h2, -⟩ := C42_partial _ hz
    have ho' : regulateOrientationVector (seg 3 z iOri) = .ok o := ho
    refine ⟨_, setSeg z iOri o, by erw [ho']; rw [Res.ok_bind], rfl, rfl, rfl, rfl, ?_, ?_, ?_, rfl, getVector_idle rfl⟩
    · intro i hi
      simp only [setSeg]
      rw [dif_neg]
      show ¬ (3 ≤ i.val ∧ i.val < 3 + 3)
      omega
    · rw [seg_setSeg_same _ _ _ (by decide)]; exact h1
    · rw [seg_setSeg_same _ _ _ (by decide)]; exact h2
  · have ho' : regulateOrientationVector (seg 3 z iOri) = .ub := C42_false _ hz
    erw [ho']
    rfl

/-- An estimator still in its initial state, with two contacts at the origin, and the measurement of rest: the estimation succeeds. -/
theorem rest_estimation (dt : ℝ) (ops : List Op) (ha : ∀ op ∈ ops, op.Admissible) (hp : ∀ op ∈ ops, ¬ op.Predicts) (s1 : Fixed)
    (h1 : run dt ops = .ok s1) (hc : (ops.foldl Request.after Request.start).contacts = [0, 0]) (hx1 : s1.ekf.x = some (DVec.zero 18, 0) ∧ s1.k = 0) :
    ∃ s' t, run dt (ops ++ [.setMeasurementInput ⟨15, 0⟩, .setMeasurement ⟨6, ![0, 0, 9.8, 0, 0, 0]⟩]) = .ok s' ∧
      exec s' .getFlexibilityVector = .ok t ∧ t.k = 1 := by
  obtain ⟨s', F, H, x, P, Q, R, h2, hF, hH, hx, -, -, -, h3, -⟩ :=
    C82_estimation _ _ ha hp s1 h1 0 ![0, 0, 9.8, 0, 0, 0]
  have hx : x = 0 := by
    rw [hx1.1, Option.some_inj, Prod.mk.injEq] at hx
    exact (DVec.mk_eq.1 hx.1).symm
  subst hx
  have t0 : turn 0 = 1 := if_pos (by rw [nrm_zero]; norm_num)
  have z3 : ∀ {N : ℕ} i, seg 3 (0 : Fin N → ℝ) i = 0 := by
    intro N i
    funext j
    simp [seg]
  have hF0 := hF 0
  have hH0 := hH (F 0)
  have e1 : turn (seg 3 (F 0) 3) = 1 := by
    have := hF0.ori
    simp only [z3, smul_zero, add_zero, t0, Matrix.one_mul] at this
    unfold turn
    split_ifs
    · rfl
    · exact this
  have e2 : ∀ i, i = 0 ∨ i = 6 ∨ i = 9 ∨ i = 12 ∨ i = 15 → seg 3 (F 0) i = 0 := by
    rintro i (rfl | rfl | rfl | rfl | rfl)
    · rw [hF0.pos]; simp [z3]
    · rw [hF0.linVel]; simp [z3]
    · rw [hF0.angVel]; simp [z3]
    · rw [hF0.linAcc]; simp [z3]
    · rw [hF0.angAcc]; simp [z3]
  have hm : ∀ c (hc : c = [0, 0]) (y : Fin (6 + 3 * c.length) → ℝ), Reading c (F 0) 0 y → padded _ ![0, 0, 9.8, 0, 0, 0] - y = 0 := by
    intro c hc y hy
    subst hc
    have a := hy.acc
    have g := hy.gyro
    have c0 := hy.contact 0 (by decide)
    have c1 := hy.contact 1 (by decide)
    simp only [e1, e2, z3, t0, pointAcceleration, Matrix.one_mul, Matrix.one_mulVec, true_or, or_true, LinearMap.map_zero, add_zero,
      LinearMap.zero_apply, smul_zero, zero_add] at a g c0 c1
    simp only [List.getElem_cons_zero, List.getElem_cons_succ, _root_.sub_zero] at c0 c1
    funext i
    rw [Pi.sub_apply, Pi.zero_apply, sub_eq_zero]
    have a' : ∀ j : Fin 3, y ⟨0 + j.val, by simp; omega⟩ = ![0, 0, 9.8] j := fun j => by
      have := congrFun a j
      rw [seg, dif_pos (by simp; omega)] at this
      exact this
    have g' : ∀ j : Fin 3, y ⟨3 + j.val, by simp; omega⟩ = 0 := fun j => by
      have := congrFun g j
      rw [seg, dif_pos (by simp; omega)] at this
      exact this
    have d0 : ∀ j : Fin 3, y ⟨6 + 3 * 0 + j.val, by simp; omega⟩ = 0 := fun j => by
      have := congrFun c0 j
      rw [seg, dif_pos (by simp; omega)] at this
      exact this
    have d1 : ∀ j : Fin 3, y ⟨6 + 3 * 1 + j.val, by simp; omega⟩ = 0 := fun j => by
      have := congrFun c1 j
      rw [seg, dif_pos (by simp; omega)] at this
      exact this
    change Fin 12 at i
    fin_cases i
    · exact (a' 0).symm
    · exact (a' 1).symm
    · exact (a' 2).symm
    · exact (g' 0).symm
    · exact (g' 1).symm
    · exact (g' 2).symm
    · exact (d0 0).symm
    · exact (d0 1).symm
    · exact (d0 2).symm
    · exact (d1 0).symm
    · exact (d1 1).symm
    · exact (d1 2).symm
  rw [hm _ hc _ hH0, Matrix.mulVec_zero, add_zero] at h3
  obtain ⟨t, v, ht, -, -, hk, -⟩ := h3 (hF0.short.trans (by have := Real.pi_pos; nlinarith))
  exact ⟨s', t, h2, ht, by rw [hk, hx1.2]; rfl⟩

/-- Non-vacuity of C82: a new estimator, two contacts, no motion, the measurement of rest. The estimation succeeds. -/
example : ∃ s' t, run 0.005 [.setContactsNumber 2, .setMeasurementInput ⟨15, 0⟩, .setMeasurement ⟨6, ![0, 0, 9.8, 0, 0, 0]⟩] = .ok s' ∧
    exec s' .getFlexibilityVector = .ok t ∧ t.k = 1 := by
  obtain ⟨s0, hc, hi0, -, hcs, -, -, -, -, hx0, -, hk0, -⟩ := ctor_eq 0.005
  have h0 : run 0.005 [] = .ok s0 := by simp [run, hc]
  obtain ⟨s1, h1⟩ := (C71_setters _ _ s0 h0).1 2
  have hx1 : s1.ekf.x = some (DVec.zero 18, 0) ∧ s1.k = 0 := by
    have := h1
    rw [run_snoc h0] at this
    obtain ⟨R, y, c, -, -, -, rfl⟩ := setContactsNumber_eq hi0 this
    exact ⟨hx0, hk0⟩
  have h := rest_estimation _ _ (by simp [Op.Admissible]) (by simp [Op.Predicts]) s1 h1 (by simp [Request.after, Request.start, List.range_succ]) hx1
  exact h

/-! ## C80: the sampling period -/

/-- The call. -/
def Op.isSampling : Op → Bool
  | .setSamplingPeriod _ => true
  | _ => false

/-- The result with another value of the member `dt_`. -/
def withDt (d : Option ℝ) (s : Fixed) : Fixed := { s with dt := d }

theorem updateCov_dt (d : Option ℝ) (s : Fixed) : (withDt d s).updateCovarianceMatrix = (s.updateCovarianceMatrix >>= fun t => .ok (withDt d t)) := by
  simp only [Fixed.updateCovarianceMatrix]
  by_cases h : (s.R.rows = 6 ∧ s.R.cols = 6) ∧ 6 ≤ s.ekf.st.mt
  · have h' : ((withDt d s).R.rows = 6 ∧ (withDt d s).R.cols = 6) ∧ 6 ≤ (withDt d s).ekf.st.mt := h
    rw [dif_pos h, dif_pos h', Res.bind_assoc]
    rfl
  · have h' : ¬ (((withDt d s).R.rows = 6 ∧ (withDt d s).R.cols = 6) ∧ 6 ≤ (withDt d s).ekf.st.mt) := h
    rw [dif_neg h, dif_neg h']
    rfl

theorem getVector_dt (d : Option ℝ) (s : Fixed) : (withDt d s).getFlexibilityVector = (s.getFlexibilityVector >>= fun t => .ok (withDt d t)) := by
  simp only [Fixed.getFlexibilityVector]
  by_cases h : s.ekf.y.size > 0
  · rw [if_pos h, if_pos (show (withDt d s).ekf.y.size > 0 from h)]
    show (s.toBase.getFlexibilityVector >>= _) = _
    rw [Res.bind_assoc]
    congr 1
    funext b
    by_cases h : b.lastX.size = 18
    · simp only [h, dif_pos, Res.bind_assoc]
      rfl
    · simp only [h, dif_neg, not_false_eq_true]
      rfl
  · rw [if_neg h, if_neg (show ¬ (withDt d s).ekf.y.size > 0 from h)]
    rfl

theorem exec_dt (d : Option ℝ) (s : Fixed) (op : Op) (hop : op.isSampling = false) :
    exec (withDt d s) op = (exec s op >>= fun t => .ok (withDt d t)) := by
  cases op with
  | setContactsNumber n =>
    let s0 : Fixed := ({ s with contacts := s.contacts.take n ++ List.replicate (n - s.contacts.length) 0 } : Fixed).sync
    exact updateCov_dt d { s0 with ekf := setMeasureSize s0.ekf (6 + 3 * n) }
  | setContactPosition i p => simp only [exec, Fixed.setContactPosition, Res.bind_assoc]; rfl
  | setMeasurement y =>
    simp only [exec, Fixed.setMeasurement]
    by_cases h : y.size = 6 ∧ 6 ≤ s.ekf.st.m
    · rw [dif_pos h, dif_pos (show y.size = 6 ∧ 6 ≤ (withDt d s).ekf.st.m from h), Res.bind_assoc]; rfl
    · rw [dif_neg h, dif_neg (show ¬ (y.size = 6 ∧ 6 ≤ (withDt d s).ekf.st.m) from h)]; rfl
  | setVirtualMeasurementsCovariance c => exact updateCov_dt d { s with vcov := c }
  | setMeasurementNoiseCovariance M =>
    simp only [exec, Fixed.setMeasurementNoiseCovariance, Res.bind_assoc]
    congr 1
    funext _
    exact updateCov_dt d { s with R := M }
  | setProcessNoiseCovariance Q => simp only [exec, Fixed.setProcessNoiseCovariance, Res.bind_assoc]; rfl
  | setFlexibilityGuess x =>
    simp only [exec, Fixed.setFlexibilityGuess, Res.bind_assoc]
    show (Res.assert (x.hasSize s.ekf.st.n 1 || x.hasSize 6 1 || x.hasSize 4 4) >>= _) = _
    congr 1
    funext _
    congr 1
    funext _
    by_cases h : x.cols = 1
    · simp only [h, dif_pos]
      by_cases h2 : x.hasSize s.ekf.st.n 1 = true
      · rw [if_pos h2, if_pos (show x.hasSize (withDt d s).ekf.st.n 1 = true from h2), Res.bind_assoc]; rfl
      · rw [if_neg h2, if_neg (show ¬ x.hasSize (withDt d s).ekf.st.n 1 = true from h2)]
        simp only [Res.bind_assoc]; rfl
    · simp only [h, dif_neg, not_false_eq_true]; rfl
  | setFlexibilityCovariance P => simp only [exec, Res.bind_assoc]; rfl
  | setInput u => simp only [exec, Res.bind_assoc]; rfl
  | setMeasurementInput u => simp only [exec, Res.bind_assoc]; rfl
  | resetCovarianceMatrices =>
    simp only [exec, Fixed.resetCovarianceMatrices, Res.bind_assoc]
    rw [show ({ withDt d s with R := ⟨6, 6, defaultR⟩ } : Fixed) = withDt d { s with R := ⟨6, 6, defaultR⟩ } from rfl, updateCov_dt]
    simp only [Res.bind_assoc]
    rfl
  | setSamplingPeriod dt => cases hop
  | getFlexibilityVector => exact getVector_dt d s
  | getFlexibility =>
    simp only [exec, Fixed.getFlexibility, getVector_dt, Res.bind_assoc]
    congr 1
    funext t
    simp only [Res.ok_bind]
    by_cases h : t.lastX.size = 18
    · rw [dif_pos h, dif_pos (show (withDt d t).lastX.size = 18 from h)]; rfl
    · rw [dif_neg h, dif_neg (show ¬ (withDt d t).lastX.size = 18 from h)]; rfl
  | getSimulatedMeasurement =>
    simp only [exec, Fixed.getSimulatedMeasurement, getVector_dt, Res.bind_assoc]
    rfl
  | getPrediction => simp only [exec, Res.bind_assoc]; rfl
  | getPredictedMeasurement => simp only [exec, Res.bind_assoc]; rfl

theorem foldl_dt : ∀ (ops : List Op) (d : Option ℝ) (s t : Fixed), ops.foldlM exec s = .ok t →
    ∃ t', (ops.filter fun op => !op.isSampling).foldlM exec (withDt d s) = .ok t' ∧ ∃ e, t = withDt e t'
  | [], d, s, t, h => by cases h; exact ⟨_, rfl, s.dt, rfl⟩
  | op :: ops, d, s, t, h => by
    simp only [List.foldlM_cons, Res.bind_eq_ok] at h
    obtain ⟨s1, h1, h2⟩ := h
    cases hop : op.isSampling with
    | true =>
      cases op <;> simp only [Op.isSampling, Bool.false_eq_true] at hop
      cases h1
      rw [List.filter_cons_of_neg (by simp [Op.isSampling])]
      exact foldl_dt ops d (s.setSamplingPeriod _) t h2
    | false =>
      rw [List.filter_cons_of_pos (by simp [hop]), List.foldlM_cons, exec_dt d s op hop, h1]
      exact foldl_dt ops d s1 t h2

/-- **C80** The calls of `setSamplingPeriod` have no effect: without them the estimator is the same, apart from a member which is never read. -/
theorem C80_ignored (dt : ℝ) (ops : List Op) (s : Fixed) (h : run dt ops = .ok s) :
    ∃ s', run dt (ops.filter fun op => !op.isSampling) = .ok s' ∧ s = { s' with dt := s.dt } := by
  unfold run at h ⊢
  rw [Res.bind_eq_ok] at h
  obtain ⟨s0, h0, h⟩ := h
  obtain ⟨t', h1, e, rfl⟩ := foldl_dt ops s0.dt s0 s h
  exact ⟨t', by rw [h0]; exact h1, rfl⟩

/-- What C80 asks. -/
def C80_statement : Prop := ∀ (dt dt' : ℝ) (ops : List Op) (s : Fixed), run dt (ops ++ [.setSamplingPeriod dt']) = .ok s →
  ∀ f, s.ekf.st.ext.f = some f → ∀ x u k z, f.stateDynamics ⟨18, x⟩ u k = .ok ⟨18, z⟩ → Next dt' x z

/-- **C80** is false: with a sampling period of two set on an estimator made with one, the predicted state is that after one. -/
theorem C80_false : ¬ C80_statement := by
  intro h
  obtain ⟨s, h0, hi, hd, hcs, -⟩ := ctor_eq 1
  have hr : run 1 ([] ++ [.setSamplingPeriod 2]) = .ok (s.setSamplingPeriod 2) := by
    rw [run_snoc (s := s) (by rw [run, h0]; rfl)]
    rfl
  have h1 := h 1 2 [] _ hr _ hi.f (setSeg 0 6 ![1, 0, 0]) (DVec.zero 15) 0 _ (functor_state _ _ _ _ _)
  have h2 := next_spec s.dtF (setSeg (0 : Fin 18 → ℝ) 6 ![1, 0, 0])
  have e := h1.pos.symm.trans h2.pos
  rw [hd] at e
  have := congrFun e 0
  rw [seg_setSeg_same _ _ _ (by decide), seg_setSeg_ne _ _ _ _ (by decide), seg_setSeg_ne _ _ _ _ (by decide)] at this
  norm_num [seg] at this

/-! ## C81: the guess -/

/-- **C81**, the part which holds: a full state becomes the state of the filter; six numbers become position and orientation, the rest zero. Nothing
else changes. -/
theorem C81_partial (dt : ℝ) (ops : List Op) (s t : Fixed) (h : run dt ops = .ok s) (x : DMat) (ht : exec s (.setFlexibilityGuess x) = .ok t) :
    ∃ w : Fin 18 → ℝ, t = { s with ekf := { s.ekf with x := some (⟨18, w⟩, s.k) } } ∧
      ((∃ v : Fin 18 → ℝ, x = ⟨18, 1, fun i _ => v i⟩ ∧ w = v) ∨
       (∃ v : Fin 6 → ℝ, x = ⟨6, 1, fun i _ => v i⟩ ∧ (∀ i : Fin 6, w (Fin.castLE (by decide) i) = v i) ∧ ∀ i : Fin 18, 6 ≤ i.val → w i = 0)) := by
  obtain ⟨w, e, hw⟩ := setGuess_eq (run_inv h) ht
  refine ⟨w, e, hw.imp id ?_⟩
  rintro ⟨v, hx, rfl⟩
  refine ⟨v, hx, fun i => ?_, fun i hi => ?_⟩
  · fin_cases i <;> simp [setSeg, seg, iPos, iOri]
  · simp only [setSeg, iPos, iOri]
    rw [dif_neg (by omega), dif_neg (by omega)]
    rfl

/-- **C81** Both kinds of guesses are accepted at any moment. -/
theorem C81_accepted (dt : ℝ) (ops : List Op) (s : Fixed) (h : run dt ops = .ok s) :
    (∀ v : Fin 18 → ℝ, ∃ t, exec s (.setFlexibilityGuess ⟨18, 1, fun i _ => v i⟩) = .ok t) ∧
    (∀ v : Fin 6 → ℝ, ∃ t, exec s (.setFlexibilityGuess ⟨6, 1, fun i _ => v i⟩) = .ok t) := by
  have hi := run_inv h
  obtain ⟨Q, hQ⟩ := hi.q18
  refine ⟨fun v => ?_, fun v => ?_⟩
  · have h1 : (⟨18, 1, fun i _ => v i⟩ : DMat).hasSize s.ekf.st.n 1 = true := by rw [hi.n]; exact (DMat.hasSize_iff _ _ _).2 ⟨_, rfl⟩
    simp only [exec, Fixed.setFlexibilityGuess, h1, Bool.true_or, Res.assert_true, Res.ok_bind, or_true, decide_true, dif_pos, if_true]
    rw [obsSetState_live _ _ _ hi.n hi.p]
    exact ⟨_, rfl⟩
  · have h1 : (⟨6, 1, fun i _ => v i⟩ : DMat).hasSize s.ekf.st.n 1 = false := by rw [hi.n]; simp [DMat.hasSize]
    have h2 : (⟨6, 1, fun i _ => v i⟩ : DMat).hasSize 6 1 = true := (DMat.hasSize_iff _ _ _).2 ⟨_, rfl⟩
    have h3 : ∀ (n : ℕ) (hn : n = 18) (w : Fin n → ℝ), ∃ g, Obs.setState (cfg s.ekf) s.ekf ⟨n, w⟩ s.k = .ok g ∧ g.st = s.ekf.st := by
      intro n hn w
      subst hn
      rw [obsSetState_live _ _ _ hi.n hi.p]
      exact ⟨_, rfl, rfl⟩
    simp only [exec, Fixed.setFlexibilityGuess, h1, h2, Bool.false_or, Bool.true_or, Res.assert_true, Res.ok_bind, or_true, decide_true, dif_pos,
      Bool.false_eq_true, if_false]
    obtain ⟨g, hg, hs⟩ := h3 s.ekf.st.n hi.n (setSeg (setSeg 0 iPos (seg 3 v 0)) iOri (seg 3 v 3))
    rw [hg, Res.ok_bind, setQ]
    have : KData.checkQ g.st s.Q = true := by
      rw [hs, KData.checkQ, hi.nt, hQ]; exact (DMat.hasSize_iff _ _ _).2 ⟨_, rfl⟩
    rw [this]
    exact ⟨_, rfl⟩

/-- **C81** is false for the vector returned: until a measurement is given, `getFlexibilityVector` ignores the guess. -/
theorem C81_unseen_false (dt : ℝ) (ops : List Op) (s t : Fixed) (h : run dt ops = .ok s) (hy : s.ekf.y.v = []) (x : DMat)
    (ht : exec s (.setFlexibilityGuess x) = .ok t) : exec t .getFlexibilityVector = .ok t ∧ t.lastX = s.lastX := by
  obtain ⟨w, rfl, -⟩ := setGuess_eq (run_inv h) ht
  exact ⟨getVector_idle hy, rfl⟩

/-- A new estimator with the guess (1, ..., 1) returns zero. -/
theorem C81_negation : ∃ (s t t' : Fixed), run 1 [] = .ok s ∧ exec s (.setFlexibilityGuess ⟨18, 1, fun _ _ => 1⟩) = .ok t ∧
    exec t .getFlexibilityVector = .ok t' ∧ t'.lastX = ⟨18, 0⟩ := by
  obtain ⟨s, h0, -, -, -, -, -, -, -, -, hl, -, -, hy, -⟩ := ctor_eq 1
  have hr : run 1 [] = .ok s := by simp [run, h0]
  obtain ⟨t, ht⟩ := (C81_accepted 1 [] s hr).1 fun _ => 1
  obtain ⟨h1, h2⟩ := C81_unseen_false 1 [] s t hr hy _ ht
  exact ⟨s, t, t, hr, ht, h1, h2.trans hl⟩

/-- **C81** is false for homogeneous matrices: though they pass the check at the start of the function, they always fail an assertion. -/
theorem C81_homogeneous_false (s : Fixed) (M : Matrix (Fin 4) (Fin 4) ℝ) : exec s (.setFlexibilityGuess ⟨4, 4, M⟩) = .assertFail := by
  simp only [exec, Fixed.setFlexibilityGuess]
  have : (⟨4, 4, M⟩ : DMat).hasSize 4 4 = true := (DMat.hasSize_iff _ _ _).2 ⟨_, rfl⟩
  rw [this]
  simp

end StateObs.Flex
