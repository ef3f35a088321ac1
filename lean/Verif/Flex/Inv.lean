import Verif.Flex.Lemmas
/-! # Invariant of the estimator with fixed contacts -/

namespace StateObs.Flex
open StateObs KF Imu Rot Kine Matrix Obs

/-- At most one measurement waits, for the next time. -/
def YB (m : ℕ) (k : Int) (y : IArr DVec) : Prop := y.v = [] ∨ ∃ w, y = ⟨k + 1, [⟨m, w⟩]⟩

/-- The inputs stored are those of the current time and possibly of the next one. -/
def UB (k : Int) (u : IArr DVec) : Prop := u.v = [] ∨ (∃ a, u = ⟨k, [⟨15, a⟩]⟩) ∨ ∃ a b, u = ⟨k, [⟨15, a⟩, ⟨15, b⟩]⟩

/-- The invariant. -/
structure Inv (s : Fixed) : Prop where
  n : s.ekf.st.n = 18
  nt : s.ekf.st.nt = 18
  m : s.ekf.st.m = 6 + 3 * s.contacts.length
  mt : s.ekf.st.mt = 6 + 3 * s.contacts.length
  p : s.ekf.st.p = 15
  arith : s.ekf.st.arith = Arith.default
  f : s.ekf.st.ext.f = some (functor s.dtF s.contacts)
  dirOut : s.ekf.st.ext.dirOut = true
  dirState : s.ekf.st.ext.dirState = false
  fd : s.fd = true
  dx : s.dx = ⟨18, defaultDx⟩
  r : ∃ R, s.R = ⟨6, 6, R⟩ ∧ s.ekf.st.r = ⟨6 + 3 * s.contacts.length, 6 + 3 * s.contacts.length, fullR _ R s.vcov⟩
  q : s.ekf.st.q = s.Q
  q18 : ∃ Q, s.Q = ⟨18, 18, Q⟩
  x : ∃ x, s.ekf.x = some (⟨18, x⟩, s.k)
  lastX : ∃ x, s.lastX = ⟨18, x⟩
  y : YB (6 + 3 * s.contacts.length) s.k s.ekf.y
  u : UB s.k s.ekf.u

theorem asserted {b : Bool} {a : Unit} (h : Res.assert b = .ok a) : b = true := by cases b <;> simp_all

theorem updateCov_eq {s t : Fixed} (h : s.updateCovarianceMatrix = .ok t) :
    ∃ R, s.R = ⟨6, 6, R⟩ ∧ 6 ≤ s.ekf.st.mt ∧
      t = { s with ekf := { s.ekf with st := { s.ekf.st with r := ⟨s.ekf.st.mt, s.ekf.st.mt, fullR s.ekf.st.mt R s.vcov⟩ } } } := by
  unfold Fixed.updateCovarianceMatrix at h
  split_ifs at h with h1
  simp only [setR, Res.bind_eq_ok] at h
  obtain ⟨f, ⟨_, -, hf⟩, h⟩ := h
  cases hf; cases h
  obtain ⟨⟨h2, h3⟩, h4⟩ := h1
  obtain ⟨⟨ekf, fd, dx, lx, k⟩, dtF, c, vc, ⟨r, cl, M⟩, Q, dt⟩ := s
  simp only at h2 h3
  subst h2 h3
  exact ⟨M, rfl, h4, rfl⟩

theorem updateCov_live (s : Fixed) (R : Matrix (Fin 6) (Fin 6) ℝ) (hR : s.R = ⟨6, 6, R⟩) (hm : 6 ≤ s.ekf.st.mt) :
    s.updateCovarianceMatrix = .ok { s with ekf := { s.ekf with st := { s.ekf.st with r := ⟨s.ekf.st.mt, s.ekf.st.mt, fullR s.ekf.st.mt R s.vcov⟩ } } } := by
  unfold Fixed.updateCovarianceMatrix
  obtain ⟨⟨ekf, fd, dx, lx, k⟩, dtF, c, vc, R', Q, dt⟩ := s
  simp only at hR
  subst hR
  rw [dif_pos ⟨⟨rfl, rfl⟩, hm⟩]
  simp only [setR, KData.checkR, DMat.hasSize_mk, Res.assert_true, Res.ok_bind]
  rfl

theorem resetCov_eq {s t : Fixed} (h : s.resetCovarianceMatrices = .ok t) : 6 ≤ s.ekf.st.mt ∧
    t = { s with
      R := ⟨6, 6, defaultR⟩
      Q := ⟨18, 18, defaultQ⟩
      ekf := { s.ekf with st := { s.ekf.st with
        r := ⟨s.ekf.st.mt, s.ekf.st.mt, fullR s.ekf.st.mt defaultR s.vcov⟩
        q := ⟨18, 18, defaultQ⟩
        pr := ⟨18, 18, defaultP⟩ } } } := by
  simp only [Fixed.resetCovarianceMatrices, Res.bind_eq_ok, setQ, setStateCovariance] at h
  obtain ⟨s1, h1, f1, ⟨_, -, hf1⟩, f2, ⟨_, -, hf2⟩, h2⟩ := h
  obtain ⟨R, hR, hm, rfl⟩ := updateCov_eq h1
  simp only [DMat.mk_eq] at hR
  subst hR
  cases hf1; cases hf2; cases h2
  exact ⟨hm, rfl⟩

theorem resetCov_live (s : Fixed) (hm : 6 ≤ s.ekf.st.mt) (hnt : s.ekf.st.nt = 18) : ∃ t, s.resetCovarianceMatrices = .ok t := by
  rw [Fixed.resetCovarianceMatrices, updateCov_live { s with R := ⟨6, 6, defaultR⟩ } defaultR rfl hm]
  simp only [Res.ok_bind, setQ, setStateCovariance, KData.checkQ, KData.checkP, hnt, DMat.hasSize_mk, Res.assert_true]
  exact ⟨_, rfl⟩

theorem setValue_y {m : ℕ} {k : Int} {y y' : IArr DVec} {w : Fin m → ℝ} (hy : YB m k y) (h : y.setValue ⟨m, w⟩ (k + 1) = .ok y') :
    y' = ⟨k + 1, [⟨m, w⟩]⟩ := by
  rcases hy with hy | ⟨z, rfl⟩
  · obtain ⟨i, v⟩ := y
    simp only at hy
    subst hy
    simp [IArr.setValue, IArr.checkIndex, IArr.checkNext] at h
    exact h.symm
  · simp [IArr.setValue, IArr.checkIndex] at h
    exact h.symm

theorem setValue_u0 {k : Int} {u u' : IArr DVec} {w : Fin 15 → ℝ} (hu : UB k u) (h : u.setValue ⟨15, w⟩ k = .ok u') :
    u' = ⟨k, [⟨15, w⟩]⟩ ∨ ∃ b, u' = ⟨k, [⟨15, w⟩, ⟨15, b⟩]⟩ := by
  rcases hu with hu | ⟨z, rfl⟩ | ⟨a, b, rfl⟩
  · obtain ⟨i, v⟩ := u
    simp only at hu
    subst hu
    simp [IArr.setValue, IArr.checkIndex, IArr.checkNext] at h
    exact Or.inl h.symm
  · simp [IArr.setValue, IArr.checkIndex] at h
    exact Or.inl h.symm
  · simp [IArr.setValue, IArr.checkIndex] at h
    exact Or.inr ⟨b, h.symm⟩

theorem setValue_u1 {k : Int} {u u' : IArr DVec} {w : Fin 15 → ℝ} (hu : (∃ a, u = ⟨k, [⟨15, a⟩]⟩) ∨ ∃ a b, u = ⟨k, [⟨15, a⟩, ⟨15, b⟩]⟩)
    (h : u.setValue ⟨15, w⟩ (k + 1) = .ok u') : ∃ a, (∃ b, u = ⟨k, [⟨15, a⟩]⟩ ∨ u = ⟨k, [⟨15, a⟩, ⟨15, b⟩]⟩) ∧ u' = ⟨k, [⟨15, a⟩, ⟨15, w⟩]⟩ := by
  rcases hu with ⟨a, rfl⟩ | ⟨a, b, rfl⟩
  · simp [IArr.setValue, IArr.checkIndex, IArr.checkNext] at h
    exact ⟨a, ⟨0, Or.inl rfl⟩, h.symm⟩
  · simp [IArr.setValue, IArr.checkIndex] at h
    exact ⟨a, ⟨b, Or.inr rfl⟩, h.symm⟩

/-- `setInput` of the filter. -/
theorem obsSetInput_ok {f g : KFilter EKF.Ext} {u : DVec} {t : Int} (hp : f.st.p = 15) (h : Obs.setInput (cfg f) f u t = .ok g) :
    ∃ w u', u = ⟨15, w⟩ ∧ f.u.setValue ⟨15, w⟩ t = .ok u' ∧ g = { f with u := u' } := by
  have hp' : (cfg f).p > 0 := by show f.st.p > 0; omega
  rw [Obs.setInput, if_pos hp'] at h
  rw [Res.bind_eq_ok] at h
  obtain ⟨_, h1, h⟩ := h
  have h : ∃ u', f.u.setValue u t = .ok u' ∧ Res.ok { f with u := u' } = Res.ok g := by
    split_ifs at h <;> simp only [Res.bind_eq_ok] at h <;> obtain ⟨_, -, h⟩ := h <;> exact h
  obtain ⟨u', h3, h4⟩ := h
  have h1 := asserted h1
  have h1 : u.hasSize f.st.p = true := h1
  rw [hp, DVec.hasSize_iff] at h1
  obtain ⟨w, rfl⟩ := h1
  cases h4
  exact ⟨w, u', rfl, h3, rfl⟩

theorem obsSetMeas_ok {f g : KFilter EKF.Ext} {y : DVec} {t : Int} (h : Obs.setMeasurement (cfg f) f y t = .ok g) :
    ∃ y', f.y.setValue y t = .ok y' ∧ g = { f with y := y' } := by
  simp only [Obs.setMeasurement, Res.bind_eq_ok] at h
  obtain ⟨_, h1, h⟩ := h
  have h : ∃ y', f.y.setValue y t = .ok y' ∧ Res.ok { f with y := y' } = Res.ok g := by
    split_ifs at h <;> simp only [Res.bind_eq_ok] at h <;> obtain ⟨_, -, h⟩ := h <;> exact h
  obtain ⟨y', h3, h4⟩ := h
  cases h4
  exact ⟨y', h3, rfl⟩

theorem obsSetState_ok {f g : KFilter EKF.Ext} {x : DVec} {t : Int} (hn : f.st.n = 18) (hp : f.st.p = 15)
    (h : Obs.setState (cfg f) f x t = .ok g) : ∃ w, x = ⟨18, w⟩ ∧
    g = { f with x := some (⟨18, w⟩, t), y := dropUpTo t f.y.k f.y.v, u := dropUpTo (t - 1) f.u.k f.u.v } := by
  have hp' : (cfg f).p > 0 := by show f.st.p > 0; omega
  simp only [Obs.setState, Res.bind_eq_ok, getCurrentTime, Res.ok.injEq, exists_eq_left', lt_irrefl, if_false, hp', if_true] at h
  obtain ⟨_, h1, h2⟩ := h
  have h1 := asserted h1
  have h1 : x.hasSize f.st.n = true := h1
  rw [hn, DVec.hasSize_iff] at h1
  obtain ⟨w, rfl⟩ := h1
  exact ⟨w, rfl, h2.symm⟩

theorem obsSetState_live (f : KFilter EKF.Ext) (w : Fin 18 → ℝ) (t : Int) (hn : f.st.n = 18) (hp : f.st.p = 15) :
    Obs.setState (cfg f) f ⟨18, w⟩ t =
      .ok { f with x := some (⟨18, w⟩, t), y := dropUpTo t f.y.k f.y.v, u := dropUpTo (t - 1) f.u.k f.u.v } := by
  have hp' : (cfg f).p > 0 := by show f.st.p > 0; omega
  have h1 : (cfg f).okX ⟨18, w⟩ = true := by show DVec.hasSize ⟨18, w⟩ f.st.n = true; rw [hn, DVec.hasSize_mk]
  simp only [Obs.setState, h1, Res.assert_true, Res.ok_bind, getCurrentTime, lt_irrefl, if_false, hp', if_true]

theorem drop_y_now {m : ℕ} {k : Int} {y : IArr DVec} (hy : YB m k y) : dropUpTo k y.k y.v = y := by
  rcases hy with hy | ⟨w, rfl⟩
  · obtain ⟨i, v⟩ := y; simp only at hy; subst hy; rfl
  · simp [dropUpTo]

theorem drop_u_now {k : Int} {u : IArr DVec} (hu : UB k u) : dropUpTo (k - 1) u.k u.v = u := by
  rcases hu with hu | ⟨w, rfl⟩ | ⟨a, b, rfl⟩
  · obtain ⟨i, v⟩ := u; simp only at hu; subst hu; rfl
  · simp [dropUpTo]
  · simp [dropUpTo]

theorem fullR_congr {a b : ℕ} (h : a = b) (R : Matrix (Fin 6) (Fin 6) ℝ) (c : ℝ) :
    (⟨a, a, fullR a R c⟩ : DMat) = ⟨b, b, fullR b R c⟩ := by subst h; rfl

/-- The state after the constructor. -/
theorem ctor_eq (dt : ℝ) : ∃ s, ctor dt = .ok s ∧ Inv s ∧ s.dtF = dt ∧ s.contacts = [] ∧ s.vcov = 1e-10 ∧ s.R = ⟨6, 6, defaultR⟩ ∧
    s.Q = ⟨18, 18, defaultQ⟩ ∧ s.ekf.st.pr = ⟨18, 18, defaultQ⟩ ∧ s.ekf.x = some (DVec.zero 18, 0) ∧ s.lastX = DVec.zero 18 ∧ s.k = 0 ∧ s.dt = none ∧
    s.ekf.y.v = [] ∧ s.ekf.u.v = [] ∧ s.ekf.st.xbar = none ∧ s.ekf.st.ybar = none := by
  unfold ctor
  set f0 := setMeasureSize (EKF.setDirectInputStateFeedthrough (EKF.mk 18 18 6 6 15 true true) false) 6 with hf0
  have e0 : f0 = { EKF.mk 18 18 6 6 15 true false with st := { (EKF.mk 18 18 6 6 15 true false).st with ext := ⟨none, true, false, ⟨0, 0⟩⟩ } } := by
    rw [hf0]
    simp [setMeasureSize, setMeasureSize2, EKF.setDirectInputStateFeedthrough, EKF.mk, KF.mk]
  obtain ⟨s1, h1⟩ := resetCov_live ⟨⟨f0, true, ⟨18, fun _ => 1e-8⟩, ⟨0, 0⟩, 0⟩, dt, [], 1e-10, .empty, .empty, none⟩ (by rw [e0]; exact le_refl 6) (by rw [e0]; rfl)
  have h2 := (resetCov_eq h1).2
  show ∃ s, (Fixed.resetCovarianceMatrices _ >>= _) = .ok s ∧ _
  rw [h1, Res.ok_bind]
  have hn : s1.ekf.st.n = 18 := by rw [h2, e0]; rfl
  have hnt : s1.ekf.st.nt = 18 := by rw [h2, e0]; rfl
  have hp : s1.ekf.st.p = 15 := by rw [h2, e0]; rfl
  have hQ : s1.Q = ⟨18, 18, defaultQ⟩ := by rw [h2]
  simp only [show DVec.zero 18 = ⟨18, 0⟩ from rfl]
  rw [obsSetState_live _ 0 0 hn hp]
  have hr : s1.ekf.st.r = ⟨6 + 3 * s1.contacts.length, 6 + 3 * s1.contacts.length, fullR _ defaultR s1.vcov⟩ := by
    have hr : s1.ekf.st.r = ⟨f0.st.mt, f0.st.mt, fullR f0.st.mt defaultR 1e-10⟩ := by rw [h2]
    have hv : s1.vcov = 1e-10 := by rw [h2]
    have hc : s1.contacts = [] := by rw [h2]
    rw [hr, hv]
    exact fullR_congr (by rw [hc, e0]; rfl) _ _
  have hch : s1.ekf.st.checkP s1.Q = true := by rw [KData.checkP, hnt, hQ, DMat.hasSize_mk]
  simp only [Res.ok_bind, setStateCovariance, hch, Res.assert_true]
  refine ⟨_, rfl, ⟨hn, hnt, ?_, ?_, hp, ?_, ?_, ?_, ?_, rfl, rfl, ⟨defaultR, ?_, hr⟩, ?_, ⟨defaultQ, hQ⟩, ?_, ⟨0, rfl⟩, Or.inl ?_, Or.inl ?_⟩, ?_⟩
  all_goals simp [h2, e0, Fixed.sync, EKF.setFunctor, EKF.mk, KF.mk, dropUpTo, IArr.empty]

theorem getFlexibility_of {s t : Fixed} {M} (h : s.getFlexibility = .ok (M, t)) : s.getFlexibilityVector = .ok t := by
  simp only [Fixed.getFlexibility, Res.bind_eq_ok] at h
  obtain ⟨t', h1, h2⟩ := h
  split_ifs at h2
  simp only [Res.ok.injEq, Prod.mk.injEq] at h2
  rw [h1, h2.2]

/-- What a successful `getFlexibilityVector` with a waiting measurement does. -/
theorem getVector_ok {s t : Fixed} (hi : Inv s) (hy : s.ekf.y.v ≠ []) (h : s.getFlexibilityVector = .ok t) :
    ∃ (f1 f : KFilter EKF.Ext) (z : Fin 18 → ℝ) (o : V3), jacobians true ⟨18, defaultDx⟩ s.ekf = .ok f1 ∧
      EKF.getEstimatedState f1 (s.k + 1) = .ok f ∧ f.x = some (⟨18, z⟩, s.k + 1) ∧ regulateOrientationVector (seg 3 z iOri) = .ok o ∧
      f.y = s.ekf.y ∧ f.u = from_ (s.k + 1) s.ekf.u ∧ Same s.ekf.st f.st ∧ (CovInv s.ekf → CovInv f) ∧
      t = { s with
        k := s.k + 1
        lastX := ⟨18, setSeg z iOri o⟩
        ekf := { f with
          x := some (⟨18, setSeg z iOri o⟩, s.k + 1)
          y := ⟨s.k + 2, []⟩ } } := by
  obtain ⟨x, hx⟩ := hi.x
  rcases hi.y with hy0 | ⟨w, hy1⟩
  · exact absurd hy0 hy
  have hsz : s.ekf.y.size > 0 := by rw [hy1]; simp [IArr.size]
  rw [Fixed.getFlexibilityVector, if_pos hsz] at h
  simp only [Res.bind_eq_ok] at h
  obtain ⟨b, hb, h⟩ := h
  rw [Base.getFlexibilityVector, if_pos hsz] at hb
  simp only [Res.bind_eq_ok, Obs.getMeasurementTime] at hb
  obtain ⟨k, ⟨_, -, hk⟩, t0, ht0, f, hf, f2, hf2, xx, hxx, hb⟩ := hb
  have hk : k = s.k + 1 := by
    simp only [Res.ok.injEq] at hk
    rw [← hk, hy1]; simp [IArr.getLastIndex]
  subst hk
  have ht0 : t0 = s.k := by
    simp only [getCurrentTime, hx, Res.ok.injEq] at ht0
    exact ht0.symm
  subst ht0
  rw [hi.fd, hi.dx, show (s.k + 1 - s.k).toNat = 1 by omega] at hf
  simp only [estimate, Res.bind_eq_ok] at hf
  obtain ⟨f1, hf1, f', hf', hf⟩ := hf
  cases hf
  have k1 := jacobians_keeps hf1
  have hx1 : f1.x = some (⟨18, x⟩, s.k) := by rw [k1.x, hx]
  have hg : f.y = from_ (s.k + 1) f1.y ∧ f.u = (if (cfg f1).p = 0 then f1.u else from_ (s.k + 1) f1.u) ∧ ∃ x', f.x = some (x', s.k + 1) := by
    have h' : loop (cfg f1) (oneStep EKF.virt) (s.k + (1 : ℕ)) 1 ⟨some (⟨18, x⟩, s.k), f1.y, f1.u, f1.st⟩ = .ok f := by
      have := hf'
      simp only [EKF.getEstimatedState, KF.getEstimatedState, Obs.getEstimatedState, getCurrentTime, hx1, Res.ok_bind,
        show decide (s.k ≤ s.k + 1) = true by simp, Res.assert_true, show (s.k + 1 - s.k).toNat = 1 by omega] at this
      rw [show f1 = ⟨some (⟨18, x⟩, s.k), f1.y, f1.u, f1.st⟩ by rw [← hx1]] at this
      exact this
    refine loop_ok (cfg f1) (oneStep EKF.virt) (oneStep_keepsBuffers EKF.ekf_keeps) 1 _ _ _ _ _ _ ?_ (fun _ => ?_) h'
    · intro _; rw [k1.y, hy1]; show s.k ≤ s.k + 1; omega
    · intro hne; rw [k1.u] at hne ⊢
      rcases hi.u with hu | ⟨a, hu⟩ | ⟨a, b, hu⟩
      · exact absurd hu hne
      · rw [hu]
      · rw [hu]
  obtain ⟨g1, g2, x', g3⟩ := hg
  have hp1 : (cfg f1).p = 15 := by show f1.st.p = 15; rw [k1.same.p, hi.p]
  rw [if_neg (by omega), k1.u] at g2
  rw [k1.y] at g1
  have g1 : f.y = s.ekf.y := by
    rw [g1, from_notOlder]
    intro _; rw [hy1]
  have sm : Same s.ekf.st f.st := k1.same.trans (getEstimated_same hf')
  have hf2 : f2 = f := by
    simp only [EKF.getEstimatedState, KF.getEstimatedState, Obs.getEstimatedState, getCurrentTime, g3, Res.ok_bind,
      show decide (s.k + 1 ≤ s.k + 1) = true by simp, Res.assert_true, show (s.k + 1 - (s.k + 1)).toNat = 0 by omega, loop] at hf2
    cases hf2; rfl
  subst hf2
  simp only [g3, val, Res.ok.injEq] at hxx
  subst hxx
  cases hb
  obtain ⟨d, v⟩ := x'
  simp only at h
  split_ifs at h with hd
  · subst hd
    simp only [Res.bind_eq_ok] at h
    obtain ⟨o, ho, t0, ht0, g, hg, h⟩ := h
    simp only [getCurrentTime, g3, Res.ok.injEq] at ht0
    subst ht0
    obtain ⟨w', hw', rfl⟩ := obsSetState_ok (by rw [sm.n, hi.n]) (by rw [sm.p, hi.p]) hg
    simp only [DVec.mk_eq] at hw'
    subst hw'
    refine ⟨f1, f2, v, o, hf1, hf', g3, ho, g1, g2, sm, fun hc => getEstimated_cov hf' (k1.cov hc), ?_⟩
    cases h
    congr 2
    congr 1
    · rw [g1, hy1]; simp [dropUpTo]; omega
    · show dropUpTo _ _ _ = f2.u
      have : dropUpTo (s.k + 1 - 1) f2.u.k f2.u.v = from_ (s.k + 1) f2.u := rfl
      rw [this, g2, from_from _ _ (le_refl _)]

theorem from_u {k : Int} {u : IArr DVec} (hu : UB k u) : UB (k + 1) (from_ (k + 1) u) := by
  rcases hu with hu | ⟨w, rfl⟩ | ⟨a, b, rfl⟩
  · obtain ⟨i, v⟩ := u; simp only at hu; subst hu; exact Or.inl rfl
  · left; simp [from_, dropUpTo]
  · right; left; exact ⟨b, by simp [from_, dropUpTo]⟩

theorem getVector_idle {s : Fixed} (hy : s.ekf.y.v = []) : s.getFlexibilityVector = .ok s := by
  rw [Fixed.getFlexibilityVector, if_neg (by simp [IArr.size, hy])]

/-- Invariant from unchanged members. -/
theorem Inv.of_ekf {s : Fixed} (hi : Inv s) (f : KFilter EKF.Ext) (hs : Same s.ekf.st f.st) (hx : ∃ x, f.x = some (⟨18, x⟩, s.k))
    (hy : YB (6 + 3 * s.contacts.length) s.k f.y) (hu : UB s.k f.u) : Inv { s with ekf := f } where
  n := hs.n.trans hi.n
  nt := hs.nt.trans hi.nt
  m := hs.m.trans hi.m
  mt := hs.mt.trans hi.mt
  p := hs.p.trans hi.p
  arith := hs.arith.trans hi.arith
  f := hs.f.trans hi.f
  dirOut := hs.dirOut.trans hi.dirOut
  dirState := hs.dirState.trans hi.dirState
  fd := hi.fd
  dx := hi.dx
  r := by obtain ⟨R, h1, h2⟩ := hi.r; exact ⟨R, h1, hs.r.trans h2⟩
  q := hs.q.trans hi.q
  q18 := hi.q18
  x := hx
  lastX := hi.lastX
  y := hy
  u := hu

theorem inv_getVector {s t : Fixed} (hi : Inv s) (h : s.getFlexibilityVector = .ok t) : Inv t := by
  by_cases hy : s.ekf.y.v = []
  · rw [getVector_idle hy] at h; cases h; exact hi
  · obtain ⟨f1, f, z, o, -, -, hx, -, hfy, hfu, hs, -, rfl⟩ := getVector_ok hi hy h
    exact ⟨hs.n.trans hi.n, hs.nt.trans hi.nt, hs.m.trans hi.m, hs.mt.trans hi.mt, hs.p.trans hi.p, hs.arith.trans hi.arith,
      hs.f.trans hi.f, hs.dirOut.trans hi.dirOut, hs.dirState.trans hi.dirState, hi.fd, hi.dx,
      by obtain ⟨R, h1, h2⟩ := hi.r; exact ⟨R, h1, hs.r.trans h2⟩, hs.q.trans hi.q, hi.q18, ⟨_, rfl⟩, ⟨_, rfl⟩, Or.inl rfl,
      by show UB (s.k + 1) f.u; rw [hfu]; exact from_u hi.u⟩

theorem setMeasureSize_eq (f : KFilter EKF.Ext) {m : ℕ} (h1 : f.st.m = m) (h2 : f.st.mt = m) (m' : ℕ) :
    ∃ y c r, setMeasureSize f m' = { f with y := y, st := { f.st with m := m', mt := m', c := c, r := r } } ∧ (y = f.y ∨ y.v = []) ∧ (m' = m ∨ y.v = []) := by
  by_cases h : m' = m
  · subst h
    refine ⟨f.y, f.st.c, f.st.r, ?_, Or.inl rfl, Or.inl rfl⟩
    rw [setMeasureSize, setMeasureSize2, if_neg (by rw [h1, h2]; simp)]
    obtain ⟨sx, sy, su, ⟨sn, snt, sm, smt, sp, sa, sc, sq, sr, spr, sxb, syb, sin, skg, sar, se⟩⟩ := f
    simp only at h1 h2
    subst h1 h2
    rfl
  · refine ⟨⟨0, []⟩, .empty, .empty, ?_, Or.inr rfl, Or.inr rfl⟩
    rw [setMeasureSize, setMeasureSize2, if_pos (Or.inl (by rw [h1]; exact h))]
    simp only
    rw [if_pos (by rw [h1]; exact h)]
    rfl

theorem setContactsNumber_eq {s t : Fixed} (hi : Inv s) {n : ℕ} (h : s.setContactsNumber n = .ok t) :
    ∃ R y c, s.R = ⟨6, 6, R⟩ ∧ (y = s.ekf.y ∨ y.v = []) ∧ (n = s.contacts.length ∨ y.v = []) ∧
      t = { s with
        contacts := s.contacts.take n ++ List.replicate (n - s.contacts.length) 0
        ekf := { s.ekf with
          y := y
          st := { s.ekf.st with
            m := 6 + 3 * n
            mt := 6 + 3 * n
            c := c
            r := ⟨6 + 3 * n, 6 + 3 * n, fullR (6 + 3 * n) R s.vcov⟩
            ext := { s.ekf.st.ext with f := some (functor s.dtF (s.contacts.take n ++ List.replicate (n - s.contacts.length) 0)) } } } } := by
  have hm0 := hi.m
  have hmt0 := hi.mt
  unfold Fixed.setContactsNumber at h
  obtain ⟨y, c, r, e, hy1, hy2⟩ := setMeasureSize_eq
    (EKF.setFunctor s.ekf (functor s.dtF (s.contacts.take n ++ List.replicate (n - s.contacts.length) 0))) hm0 hmt0 (6 + 3 * n)
  simp only [Fixed.sync] at h
  rw [e] at h
  obtain ⟨R, hR, hm, rfl⟩ := updateCov_eq h
  exact ⟨R, y, c, hR, hy1, by rcases hy2 with h | h; exact Or.inl (by omega); exact Or.inr h, rfl⟩

theorem resize_length {α : Type} (l : List α) (n : ℕ) (d : α) : (l.take n ++ List.replicate (n - l.length) d).length = n := by
  simp; omega

theorem setGuess_eq {s t : Fixed} (hi : Inv s) {x : DMat} (h : s.setFlexibilityGuess x = .ok t) :
    ∃ w, t = { s with ekf := { s.ekf with x := some (⟨18, w⟩, s.k) } } ∧
      ((∃ v : Fin 18 → ℝ, x = ⟨18, 1, fun i _ => v i⟩ ∧ w = v) ∨
       (∃ v : Fin 6 → ℝ, x = ⟨6, 1, fun i _ => v i⟩ ∧ w = setSeg (setSeg (0 : Fin 18 → ℝ) iPos (seg 3 v 0)) iOri (seg 3 v 3))) := by
  simp only [Fixed.setFlexibilityGuess, Res.bind_eq_ok, hi.n] at h
  obtain ⟨_, h1, _, h2, h⟩ := h
  have h1 := asserted h1
  have h2 := asserted h2
  simp only [Bool.or_eq_true] at h1
  obtain ⟨rows, cols, M⟩ := x
  simp only at h2
  split_ifs at h with h3 h4
  · simp only [Res.bind_eq_ok] at h
    obtain ⟨f, hf, h⟩ := h
    obtain ⟨w, hw, rfl⟩ := obsSetState_ok hi.n hi.p hf
    simp only at h3
    subst h3
    simp only [DMat.hasSize, decide_eq_true_eq, and_true] at h4
    subst h4
    simp only [DVec.mk_eq] at hw
    cases h
    refine ⟨w, ?_, Or.inl ⟨w, ?_, rfl⟩⟩
    · rw [drop_y_now hi.y, drop_u_now hi.u]
    · refine (DMat.mk_eq (r := 18) (c := 1)).2 ?_
      funext i j
      rw [← hw, Subsingleton.elim j 0]
      rfl
  · simp only [Res.bind_eq_ok, setQ] at h
    obtain ⟨f, hf, f', ⟨_, -, hf'⟩, h⟩ := h
    simp only at h3
    subst h3
    have h6 : rows = 6 := by
      simp only [DMat.hasSize, decide_eq_true_eq, and_true] at h1 h4
      omega
    subst h6
    obtain ⟨w, hw, rfl⟩ := obsSetState_ok hi.n hi.p hf
    cases hf'; cases h
    refine ⟨w, ?_, Or.inr ⟨fun i => M i 0, ?_, ?_⟩⟩
    · rw [drop_y_now hi.y, drop_u_now hi.u]
      show _ = { s with ekf := _ }
      rw [← hi.q]
    · refine (DMat.mk_eq (r := 6) (c := 1)).2 ?_
      funext i j
      rw [Subsingleton.elim j 0]
    · obtain ⟨⟨⟨ex, ey, eu, ⟨sn, snt, sm, smt, sp, sa, sc, sq, sr, spr, sxb, syb, sin, skg, sar, ⟨sf, sdo, sds, sou⟩⟩⟩, fd, dx, lx, k⟩, dtF, cs, vc, R', Q, dt⟩ := s
      have hn := hi.n
      simp only at hn
      subst hn
      simp only [DVec.mk_eq] at hw
      exact hw.symm

theorem setMeasInput_eq {s : Fixed} {b : Base} (hi : Inv s) {u : DVec} (h : s.toBase.setMeasurementInput u = .ok b) :
    ∃ w a, u = ⟨15, w⟩ ∧ b = { s.toBase with ekf := { s.ekf with u := ⟨s.k, [⟨15, a⟩, ⟨15, w⟩]⟩ } } ∧
      ((s.ekf.u.v = [] ∧ a = w) ∨ ∃ l, s.ekf.u = ⟨s.k, ⟨15, a⟩ :: l⟩) := by
  simp only [Base.setMeasurementInput, Res.bind_eq_ok] at h
  obtain ⟨f, hf, g, hg, h⟩ := h
  cases h
  unfold Base.firstInput at hf
  split_ifs at hf with h0
  · have hu0 : s.ekf.u.v = [] := by simpa [IArr.size] using h0
    obtain ⟨w, u', rfl, h1, rfl⟩ := obsSetInput_ok hi.p hf
    obtain ⟨w2, u2, e, h2, rfl⟩ := obsSetInput_ok (f := { s.ekf with u := u' }) hi.p hg
    simp only [DVec.mk_eq] at e
    subst e
    have hu' : u' = ⟨s.k, [⟨15, w⟩]⟩ := by
      simp [IArr.setValue, IArr.checkIndex, IArr.checkNext, hu0] at h1
      exact h1.symm
    obtain ⟨a, ⟨b, hb⟩, rfl⟩ := setValue_u1 (Or.inl ⟨w, hu'⟩) h2
    simp only [hu', IArr.mk.injEq, List.cons.injEq, true_and, DVec.mk_eq, and_true] at hb
    have : w = a := by
      rcases hb with hb | hb
      · exact hb
      · exact hb.1
    subst this
    exact ⟨w, w, rfl, rfl, Or.inl ⟨hu0, rfl⟩⟩
  · cases hf
    have hu0 : s.ekf.u.v ≠ [] := by simpa [IArr.size] using h0
    obtain ⟨w, u', rfl, h1, rfl⟩ := obsSetInput_ok hi.p hg
    obtain ⟨a, ⟨b, hb⟩, rfl⟩ := setValue_u1 (hi.u.resolve_left hu0) h1
    refine ⟨w, a, rfl, rfl, Or.inr ?_⟩
    rcases hb with hb | hb
    · exact ⟨_, hb⟩
    · exact ⟨_, hb⟩

theorem mk_cast {a b : ℕ} (h : a = b) (v : Fin a → ℝ) : ∃ w : Fin b → ℝ, (⟨a, v⟩ : DVec) = ⟨b, w⟩ := by subst h; exact ⟨v, rfl⟩

theorem inv_exec {s t : Fixed} (hi : Inv s) (op : Op) (h : exec s op = .ok t) : Inv t := by
  cases op with
  | setContactsNumber n =>
    obtain ⟨R, y, c, hR, hy1, hy2, rfl⟩ := setContactsNumber_eq hi h
    have hl := resize_length s.contacts n (0 : V3)
    refine ⟨hi.n, hi.nt, by rw [hl], by rw [hl], hi.p, hi.arith, rfl, hi.dirOut, hi.dirState, hi.fd, hi.dx, ⟨R, hR, by rw [hl]⟩, hi.q, hi.q18, hi.x, hi.lastX, ?_, hi.u⟩
    rw [hl]
    rcases hy2 with rfl | hy2
    · rcases hy1 with rfl | hy1
      · exact hi.y
      · exact Or.inl hy1
    · exact Or.inl hy2
  | setContactPosition i p =>
    simp only [exec, Fixed.setContactPosition, Res.bind_eq_ok] at h
    obtain ⟨_, -, h⟩ := h
    cases h
    have hl : (s.contacts.set i p).length = s.contacts.length := List.length_set
    refine ⟨hi.n, hi.nt, by simp [Fixed.sync, EKF.setFunctor, hi.m], ?_, hi.p, hi.arith, rfl, hi.dirOut, hi.dirState, hi.fd, hi.dx, ?_, hi.q, hi.q18, hi.x, hi.lastX, ?_, hi.u⟩
    · simp [Fixed.sync, EKF.setFunctor, hi.mt]
    · obtain ⟨R, h1, h2⟩ := hi.r
      exact ⟨R, h1, h2.trans (fullR_congr (by rw [← hl]; rfl) _ _)⟩
    · simpa [Fixed.sync, EKF.setFunctor] using hi.y
  | setMeasurement y =>
    simp only [exec, Fixed.setMeasurement] at h
    split_ifs at h with h1
    simp only [Res.bind_eq_ok] at h
    obtain ⟨f, hf, h⟩ := h
    cases h
    obtain ⟨y', hy', rfl⟩ := obsSetMeas_ok hf
    have := setValue_y (by rw [hi.m]; exact hi.y) hy'
    refine hi.of_ekf _ (Same.refl _) hi.x (Or.inr ?_) hi.u
    obtain ⟨w, hw⟩ := mk_cast hi.m (setSeg (0 : Fin s.ekf.st.m → ℝ) 0 fun i : Fin 6 => y.val (Fin.cast h1.1.symm i))
    exact ⟨w, by rw [this, hw]⟩
  | setVirtualMeasurementsCovariance c =>
    obtain ⟨R, hR, hm, rfl⟩ := updateCov_eq h
    exact ⟨hi.n, hi.nt, hi.m, hi.mt, hi.p, hi.arith, hi.f, hi.dirOut, hi.dirState, hi.fd, hi.dx, ⟨R, hR, fullR_congr hi.mt _ _⟩, hi.q, hi.q18, hi.x, hi.lastX, hi.y, hi.u⟩
  | setMeasurementNoiseCovariance M =>
    simp only [exec, Fixed.setMeasurementNoiseCovariance, Res.bind_eq_ok] at h
    obtain ⟨_, -, h⟩ := h
    obtain ⟨R, hR, hm, rfl⟩ := updateCov_eq h
    exact ⟨hi.n, hi.nt, hi.m, hi.mt, hi.p, hi.arith, hi.f, hi.dirOut, hi.dirState, hi.fd, hi.dx, ⟨R, hR, fullR_congr hi.mt _ _⟩, hi.q, hi.q18, hi.x, hi.lastX, hi.y, hi.u⟩
  | setProcessNoiseCovariance Q =>
    simp only [exec, Fixed.setProcessNoiseCovariance, setQ, Res.bind_eq_ok] at h
    obtain ⟨f, ⟨_, h1, hf⟩, h⟩ := h
    cases hf; cases h
    have h1 := asserted h1
    simp only [KData.checkQ, hi.nt, DMat.hasSize_iff] at h1
    exact ⟨hi.n, hi.nt, hi.m, hi.mt, hi.p, hi.arith, hi.f, hi.dirOut, hi.dirState, hi.fd, hi.dx, hi.r, rfl, h1, hi.x, hi.lastX, hi.y, hi.u⟩
  | setFlexibilityGuess x =>
    obtain ⟨w, rfl, -⟩ := setGuess_eq hi h
    exact hi.of_ekf _ (Same.refl _) ⟨w, rfl⟩ hi.y hi.u
  | setFlexibilityCovariance P =>
    simp only [exec, Base.setFlexibilityCovariance, setStateCovariance, Res.bind_eq_ok] at h
    obtain ⟨b, ⟨f, ⟨_, h1, hf⟩, hb⟩, h⟩ := h
    cases hf; cases hb; cases h
    exact hi.of_ekf _ ⟨rfl, rfl, rfl, rfl, rfl, rfl, rfl, rfl, rfl, rfl, rfl⟩ hi.x hi.y hi.u
  | setInput u =>
    simp only [exec, Base.setInput, Res.bind_eq_ok] at h
    obtain ⟨b, ⟨f, hf, hb⟩, h⟩ := h
    obtain ⟨w, u', rfl, h1, rfl⟩ := obsSetInput_ok hi.p hf
    cases hb; cases h
    refine hi.of_ekf _ (Same.refl _) hi.x hi.y ?_
    rcases setValue_u0 hi.u h1 with rfl | ⟨b, rfl⟩
    · exact Or.inr (Or.inl ⟨_, rfl⟩)
    · exact Or.inr (Or.inr ⟨_, _, rfl⟩)
  | setMeasurementInput u =>
    simp only [exec, Res.bind_eq_ok] at h
    obtain ⟨b, hb, h⟩ := h
    obtain ⟨w, a, rfl, rfl, -⟩ := setMeasInput_eq hi hb
    cases h
    exact hi.of_ekf _ (Same.refl _) hi.x hi.y (Or.inr (Or.inr ⟨_, _, rfl⟩))
  | resetCovarianceMatrices =>
    obtain ⟨hm, rfl⟩ := resetCov_eq h
    exact ⟨hi.n, hi.nt, hi.m, hi.mt, hi.p, hi.arith, hi.f, hi.dirOut, hi.dirState, hi.fd, hi.dx, ⟨_, rfl, fullR_congr hi.mt _ _⟩, rfl, ⟨_, rfl⟩, hi.x, hi.lastX, hi.y, hi.u⟩
  | setSamplingPeriod dt =>
    cases h
    exact ⟨hi.n, hi.nt, hi.m, hi.mt, hi.p, hi.arith, hi.f, hi.dirOut, hi.dirState, hi.fd, hi.dx, hi.r, hi.q, hi.q18, hi.x, hi.lastX, hi.y, hi.u⟩
  | getFlexibilityVector => exact inv_getVector hi h
  | getFlexibility =>
    simp only [exec, Res.bind_eq_ok] at h
    obtain ⟨⟨M, t'⟩, h1, h2⟩ := h
    cases h2
    exact inv_getVector hi (getFlexibility_of h1)
  | getSimulatedMeasurement =>
    simp only [exec, Fixed.getSimulatedMeasurement, Res.bind_eq_ok] at h
    obtain ⟨_, ⟨t', h1, _, -, _, -, ⟨y, u⟩, -, h2⟩, h3⟩ := h
    cases h2; cases h3
    have hi' := inv_getVector hi h1
    exact hi'.of_ekf _ (optU_keeps _ _).same hi'.x hi'.y hi'.u
  | getPrediction =>
    simp only [exec, Res.bind_eq_ok] at h
    obtain ⟨f, hf, h⟩ := h
    cases h
    have k := updateStatePrediction_keeps hf
    exact hi.of_ekf _ k.same (by rw [k.x]; exact hi.x) (by rw [k.y]; exact hi.y) (by rw [k.u]; exact hi.u)
  | getPredictedMeasurement =>
    simp only [exec, Res.bind_eq_ok] at h
    obtain ⟨f, hf, h⟩ := h
    cases h
    have k := updateBoth_keeps hf
    exact hi.of_ekf _ k.same (by rw [k.x]; exact hi.x) (by rw [k.y]; exact hi.y) (by rw [k.u]; exact hi.u)

/-- States reachable by calls. -/
theorem inv_run : ∀ (ops : List Op) {s t : Fixed}, Inv s → ops.foldlM exec s = .ok t → Inv t
  | [], s, t, hi, h => by cases h; exact hi
  | op :: ops, s, t, hi, h => by
    simp only [List.foldlM_cons, Res.bind_eq_ok] at h
    obtain ⟨s1, h1, h2⟩ := h
    exact inv_run ops (inv_exec hi op h1) h2

end StateObs.Flex
