import Verif.ModelFlex.Step
/-! # The invariant in every reachable state -/

namespace StateObs.ModelFlex
open StateObs KF Imu Rot Kine Matrix Obs

theorem updateR_eq {s t : Est} (h : s.updateR = .ok t) : ∃ (R : Matrix (Fin s.ekf.st.mt) (Fin s.ekf.st.mt) ℝ) (n : ℕ), s.resizedR = .ok (⟨_, _, R⟩, n) ∧
    t = { s with ekf := { s.ekf with st := { s.ekf.st with r := ⟨_, _, R⟩ } }, R := ⟨_, _, R⟩, allocs := n } := by
  simp only [Est.updateR, setR, Res.bind_eq_ok] at h
  obtain ⟨⟨R, n⟩, h1, f, ⟨_, h2, h3⟩, h4⟩ := h
  obtain ⟨R', rfl⟩ := (DMat.hasSize_iff _ _ _).1 (asserted h2)
  cases h3; cases h4
  exact ⟨R', n, h1, rfl⟩

theorem square_cast {a b : ℕ} (h : a = b) (R : Matrix (Fin a) (Fin a) ℝ) : ∃ R' : Matrix (Fin b) (Fin b) ℝ, (⟨a, a, R⟩ : DMat) = ⟨b, b, R'⟩ := by subst h; exact ⟨R, rfl⟩

theorem updateR_inv {s t : Est} (hi : Inv0 s) (h : s.updateR = .ok t) : Inv t := by
  obtain ⟨R, n, -, rfl⟩ := updateR_eq h
  have := hi.f
  exact ⟨⟨⟨this.n, this.nt, this.m, this.mt, this.p, this.arith, this.reach, this.noise, this.snoise, this.dx, this.pr, this.x, this.y, this.u⟩, hi.q, hi.qSize, hi.force,
    hi.abs, hi.bias, hi.unmodeled, hi.lastX⟩, rfl, square_cast hi.f.mt R⟩

theorem setMeasureSize_eq (f : Filter) {m : ℕ} (h1 : f.st.m = m) (h2 : f.st.mt = m) (m' : ℕ) :
    ∃ y c r, setMeasureSize f m' = { f with y := y, st := { f.st with m := m', mt := m', c := c, r := r } } ∧ (y = f.y ∨ y.v = []) ∧ (m' = m ∨ y.v = []) := by
  by_cases h : m' = m
  · subst h
    refine ⟨f.y, f.st.c, f.st.r, ?_, Or.inl rfl, Or.inl rfl⟩
    rw [setMeasureSize, setMeasureSize2, if_neg (by rw [h1, h2]; simp)]
    obtain ⟨sx, sy, su, ⟨sn, snt, sm, smt, sp, sa, sc, sq, sr, spr, sxb, syb, sin, skg, sar, se⟩⟩ := f
    simp only at h1 h2
    subst h1 h2
    rfl
  · refine ⟨⟨0, []⟩, .empty, .empty, ?_, Or.inr rfl, Or.inr rfl⟩
    rw [setMeasureSize, setMeasureSize2, if_pos (Or.inl (by rw [h1]; exact h))]
    simp only
    rw [if_pos (by rw [h1]; exact h)]
    rfl

theorem setInputSize_eq (f : Filter) {p : ℕ} (h : f.st.p = p) (p' : ℕ) :
    ∃ u, setInputSize f p' = { f with u := u, st := { f.st with p := p' } } ∧ (u = f.u ∨ u.v = []) ∧ (p' = p ∨ u.v = []) := by
  unfold setInputSize
  subst h
  split_ifs with h1
  · exact ⟨_, rfl, Or.inr rfl, Or.inr rfl⟩
  · rw [not_not] at h1
    subst h1
    exact ⟨f.u, rfl, Or.inl rfl, Or.inl rfl⟩

/-- The filter with another functor and other sizes. -/
theorem FInv.resize {k : Int} {f : Filter} (hf : FInv k f) {sys : Elastic.Sys Unit} {m p : ℕ} (hr : Reach sys) (h1 : sys.noise = none) (h2 : sys.sensor.noise = none)
    (h3 : sys.dx = ⟨35, defaultDx⟩) (hm : m = sys.measSize) (hp : p = 48 + 12 * sys.nb) {y u : IArr DVec} {c r : DMat}
    (hy1 : y = f.y ∨ y.v = []) (hy2 : m = f.st.ext.sys.measSize ∨ y.v = []) (hu1 : u = f.u ∨ u.v = []) (hu2 : p = 48 + 12 * f.st.ext.sys.nb ∨ u.v = []) :
    FInv k { f with y := y, u := u, st := { f.st with m := m, mt := m, p := p, c := c, r := r, ext := ⟨sys, f.st.ext.optU⟩ } } where
  n := hf.n
  nt := hf.nt
  m := hm
  mt := hm
  p := hp
  arith := hf.arith
  reach := hr
  noise := h1
  snoise := h2
  dx := h3
  pr := hf.pr
  x := hf.x
  y := by
    show YB sys.measSize k y
    rcases hy1 with rfl | hy1
    · rcases hy2 with hy2 | hy2
      · rw [← hm, hy2]; exact hf.y
      · exact Or.inl hy2
    · exact Or.inl hy1
  u := by
    show UB (48 + 12 * sys.nb) k u
    rcases hu1 with rfl | hu1
    · rcases hu2 with hu2 | hu2
      · rw [← hp, hu2]; exact hf.u
      · exact Or.inl hu2
    · exact Or.inl hu1

theorem setSys_inv {s : Est} (hi : Inv s) {sys : Elastic.Sys Unit} (hr : Reach sys) (h1 : sys.noise = none) (h2 : sys.sensor.noise = none)
    (h3 : sys.dx = s.sys.dx) (hm : sys.measSize = s.sys.measSize) (hp : sys.nb = s.sys.nb)
    (h4 : sys.withForce = s.sys.withForce) (h5 : sys.withAbs = s.sys.withAbs) (h6 : sys.withBias = s.sys.withBias) (h7 : sys.withUnmodeled = s.sys.withUnmodeled) :
    Inv (s.setSys sys) where
  f := ⟨hi.f.n, hi.f.nt, by rw [show (s.setSys sys).ekf.st.m = s.ekf.st.m from rfl, hi.f.m]; exact hm.symm,
    by rw [show (s.setSys sys).ekf.st.mt = s.ekf.st.mt from rfl, hi.f.mt]; exact hm.symm,
    by rw [show (s.setSys sys).ekf.st.p = s.ekf.st.p from rfl, hi.f.p]; show _ = 48 + 12 * sys.nb; rw [hp]; rfl,
    hi.f.arith, hr, h1, h2, h3.trans hi.f.dx, hi.f.pr, hi.f.x,
    by show YB sys.measSize _ _; rw [hm]; exact hi.f.y, by show UB (48 + 12 * sys.nb) _ _; rw [hp]; exact hi.f.u⟩
  q := hi.q
  qSize := hi.qSize
  force := h4.trans hi.force
  abs := h5.trans hi.abs
  bias := h6.trans hi.bias
  unmodeled := h7.trans hi.unmodeled
  lastX := hi.lastX
  r := hi.r
  rSize := by
    show ∃ R, s.R = ⟨sys.measSize, sys.measSize, R⟩
    rw [hm]; exact hi.rSize

theorem setSys_same {s : Est} (hi : Inv s) {sys : Elastic.Sys Unit} (hr : Reach sys) (h : Elastic.Same sys s.sys) : Inv (s.setSys sys) :=
  setSys_inv hi hr (h.noise.trans hi.f.noise) (h.snoise.trans hi.f.snoise) h.dx h.measSize h.nb h.withForce h.withAbs h.withBias h.withUnmodeled

/-- Another filter with the same data. -/
theorem Upd.est {s : Est} (hi : Inv s) {f : Filter} (u : Upd s.ekf f) : Inv { s with ekf := f } :=
  ⟨⟨u.inv hi.f, u.q.trans hi.q, hi.qSize, u.same.withForce.trans hi.force, u.same.withAbs.trans hi.abs, u.same.withBias.trans hi.bias,
    u.same.withUnmodeled.trans hi.unmodeled, hi.lastX⟩, u.r.trans hi.r, by
    show ∃ R, s.R = ⟨f.st.ext.sys.measSize, f.st.ext.sys.measSize, R⟩
    rw [u.same.measSize]; exact hi.rSize⟩

theorem inv_getVector {s t : Est} (hi : Inv s) (h : s.getFlexibilityVector = .ok t) : Inv t := by
  by_cases hon : s.on = true
  · by_cases hy : s.ekf.y.v = []
    · rw [getVector_idle hon hy] at h; cases h; exact hi
    · obtain ⟨f1, f, z, o, hj, hs, hx, -, rfl⟩ := getVector_ok hi hon hy h
      have u := jacobians_upd hi.f.reach hj
      obtain ⟨i2, q2, r2, s2⟩ := oneStep_inv (u.inv hi.f) hs
      have hs := s2.trans u.same
      rw [u.u] at i2
      exact ⟨⟨⟨i2.n, i2.nt, i2.m, i2.mt, i2.p, i2.arith, i2.reach, i2.noise, i2.snoise, i2.dx, i2.pr, ⟨_, rfl⟩, i2.y, i2.u⟩, q2.trans (u.q.trans hi.q), hi.qSize,
        hs.withForce.trans hi.force, hs.withAbs.trans hi.abs, hs.withBias.trans hi.bias, hs.withUnmodeled.trans hi.unmodeled, ⟨_, rfl⟩⟩, r2.trans (u.r.trans hi.r), by
        show ∃ R, s.R = ⟨f.st.ext.sys.measSize, f.st.ext.sys.measSize, R⟩
        rw [hs.measSize]; exact hi.rSize⟩
  · obtain ⟨x, hx⟩ := hi.f.x
    obtain ⟨l, hl⟩ := hi.lastX
    rw [Est.getFlexibilityVector, if_neg hon] at h
    simp only [Res.bind_eq_ok, getCurrentTime, hx, Res.ok.injEq, exists_eq_left'] at h
    obtain ⟨f, hf, h⟩ := h
    obtain ⟨w, hw, rfl, hf'⟩ := hi.f.setState hf
    split_ifs at h
    · simp only [Est.resetStateCovarianceMatrix, setStateCovariance, Res.bind_eq_ok] at h
      obtain ⟨g, ⟨_, h1, h2⟩, h3⟩ := h
      cases h2; cases h3
      exact ⟨⟨⟨hf'.n, hf'.nt, hf'.m, hf'.mt, hf'.p, hf'.arith, hf'.reach, hf'.noise, hf'.snoise, hf'.dx, hi.qSize, ⟨_, rfl⟩, Or.inl rfl, Or.inl rfl⟩, hi.q, hi.qSize, hi.force,
        hi.abs, hi.bias, hi.unmodeled, ⟨_, hw⟩⟩, hi.r, hi.rSize⟩
    · cases h
      exact ⟨⟨hf', hi.q, hi.qSize, hi.force, hi.abs, hi.bias, hi.unmodeled, ⟨_, hw⟩⟩, hi.r, hi.rSize⟩

/-- The filter with another functor and its sizes. -/
noncomputable def resizeF (f : Filter) (sys : Elastic.Sys Unit) : Filter :=
  setMeasureSize (setInputSize { f with st := { f.st with ext := ⟨sys, f.st.ext.optU⟩ } } (48 + 12 * sys.nb)) sys.measSize

theorem resizeF_eq {k : Int} {f : Filter} (hf : FInv k f) (sys : Elastic.Sys Unit) : ∃ y u c r, resizeF f sys =
    { f with y := y, u := u, st := { f.st with m := sys.measSize, mt := sys.measSize, p := 48 + 12 * sys.nb, c := c, r := r, ext := ⟨sys, f.st.ext.optU⟩ } } ∧
    (y = f.y ∨ y.v = []) ∧ (sys.measSize = f.st.ext.sys.measSize ∨ y.v = []) ∧ (u = f.u ∨ u.v = []) ∧ (48 + 12 * sys.nb = 48 + 12 * f.st.ext.sys.nb ∨ u.v = []) := by
  obtain ⟨u, eu, hu1, hu2⟩ := setInputSize_eq { f with st := { f.st with ext := ⟨sys, f.st.ext.optU⟩ } } hf.p (48 + 12 * sys.nb)
  unfold resizeF
  rw [eu]
  obtain ⟨y, c, r, ey, hy1, hy2⟩ := setMeasureSize_eq { f with u := u, st := { f.st with p := 48 + 12 * sys.nb, ext := ⟨sys, f.st.ext.optU⟩ } } hf.m hf.mt sys.measSize
  exact ⟨y, u, c, r, ey, hy1, hy2, hu1, hu2⟩

/-- The invariant with another functor. -/
theorem resize_inv {s t : Est} (hi : Inv s) {sys : Elastic.Sys Unit} (hr : Reach sys) (h1 : sys.noise = none) (h2 : sys.sensor.noise = none) (h3 : sys.dx = ⟨35, defaultDx⟩)
    (hk : t.k = s.k) (ht : t.ekf = resizeF s.ekf sys) (hQ : t.Q = s.Q) (hx : t.lastX = s.lastX) (h4 : sys.withForce = t.useFT) (h5 : sys.withAbs = t.withAbs)
    (h6 : sys.withBias = t.withBias) (h7 : sys.withUnmodeled = t.withUnmodeled) : Inv0 t := by
  obtain ⟨y, u, c, r, e, hy1, hy2, hu1, hu2⟩ := resizeF_eq hi.f sys
  have := hi.f.resize (c := c) (r := r) hr h1 h2 h3 rfl rfl hy1 hy2 hu1 hu2
  have e' := ht.trans e
  have es : t.sys = sys := by rw [Est.sys, e']
  refine ⟨?_, ?_, ?_, ?_, ?_, ?_, ?_, ?_⟩
  · rw [hk, e']; exact this
  · rw [e', hQ]; exact hi.q
  · rw [hQ]; exact hi.qSize
  · rw [es, h4]
  · rw [es, h5]
  · rw [es, h6]
  · rw [es, h7]
  · rw [hx]; exact hi.lastX

/-- Sizes that do not change. -/
theorem setInputSize_same (f : Filter) {p : ℕ} (h : f.st.p = p) : setInputSize f p = f := by
  rw [setInputSize, if_neg (by simpa using h.symm)]

theorem setMeasureSize_same (f : Filter) {m : ℕ} (h : f.st.m = m) (h' : f.st.mt = m) : setMeasureSize f m = f := by
  rw [setMeasureSize, setMeasureSize2, if_neg (by rw [h, h']; simp)]

theorem setInputSize_ext (f : Filter) (p : ℕ) : (setInputSize f p).st.ext = f.st.ext ∧ (setInputSize f p).st.r = f.st.r ∧ (setInputSize f p).st.m = f.st.m ∧
    (setInputSize f p).st.mt = f.st.mt := by
  unfold setInputSize
  split_ifs <;> exact ⟨rfl, rfl, rfl, rfl⟩

theorem setContactsNumber_eq {s t : Est} (hi : Inv s) {n : ℕ} (h : s.setContactsNumber n = .ok t) {sys : Elastic.Sys Unit} (hs : { s.sys with nb := n }.updateMeasurementSize = sys) :
    ({ s with ekf := resizeF s.ekf sys } : Est).updateR = .ok t ∧ s.useFT = true ∨
      t = { s with ekf := resizeF s.ekf sys } ∧ s.useFT = false ∧ sys.measSize = s.sys.measSize ∧ t.ekf.st.r = s.R := by
  unfold Est.setContactsNumber at h
  have hm : s.useFT = false → sys.measSize = s.sys.measSize := by
    intro hf
    have h1 : s.sys.measSize = _ := hi.f.reach.inv.meas
    rw [h1, ← hs]
    have hf : s.sys.withForce = false := by rw [hi.force, hf]
    have hf' : s.ekf.st.ext.sys.withForce = false := hf
    simp only [Elastic.Sys.updateMeasurementSize]
    simp [hf, hf']
    rfl
  simp only [hs] at h
  have e1 := setInputSize_ext (s.setSys sys).ekf (48 + 12 * (s.setSys sys).sys.nb)
  by_cases hft : s.useFT = true
  · rw [if_pos (show (s.setSys sys).useFT = true from hft)] at h
    refine Or.inl ⟨?_, hft⟩
    rw [← h]
    congr 2
    unfold resizeF
    congr 1
    exact (congrArg (fun e : Ext => e.sys.measSize) e1.1).symm
  · rw [if_neg (show ¬ (s.setSys sys).useFT = true from hft)] at h
    have hft : s.useFT = false := by simpa using hft
    have e2 : resizeF s.ekf sys = setInputSize (s.setSys sys).ekf (48 + 12 * (s.setSys sys).sys.nb) := by
      unfold resizeF
      refine setMeasureSize_same _ ?_ ?_
      · exact (e1.2.2.1.trans hi.f.m).trans (hm hft).symm
      · exact (e1.2.2.2.trans hi.f.mt).trans (hm hft).symm
    cases h
    refine Or.inr ⟨?_, hft, hm hft, e1.2.1.trans hi.r⟩
    rw [e2]
    rfl

theorem inv_setContactsNumber {s t : Est} (hi : Inv s) {n : ℕ} (h : s.setContactsNumber n = .ok t) : Inv t := by
  obtain ⟨sys, hs⟩ : ∃ x, { s.sys with nb := n }.updateMeasurementSize = x := ⟨_, rfl⟩
  have hr : Reach sys := hi.f.reach.exec (.setContactsNumber n) (by rw [← hs]; rfl)
  have h0 : ∀ t : Est, t = { s with ekf := resizeF s.ekf sys } → Inv0 t := by
    rintro t rfl
    refine resize_inv hi hr ?_ ?_ ?_ rfl rfl rfl rfl ?_ ?_ ?_ ?_ <;> rw [← hs]
    · exact hi.f.noise
    · exact hi.f.snoise
    · exact hi.f.dx
    · exact hi.force
    · exact hi.abs
    · exact hi.bias
    · exact hi.unmodeled
  rcases setContactsNumber_eq hi h hs with ⟨h, -⟩ | ⟨rfl, -, hm, hR⟩
  · exact updateR_inv (h0 _ rfl) h
  · refine ⟨h0 _ rfl, hR, ?_⟩
    have : (Est.sys { s with ekf := resizeF s.ekf sys }) = sys := by
      obtain ⟨y, u, c, r, e, -⟩ := resizeF_eq hi.f sys
      show (resizeF s.ekf sys).st.ext.sys = sys
      rw [e]
    rw [this, hm]
    exact hi.rSize

/-- The invariant after an option is changed. -/
theorem option_inv {s t0 t : Est} (hi : Inv s) (h : t0.updateR = .ok t) {sys : Elastic.Sys Unit} (hr : Reach sys) (h1 : sys.noise = none) (h2 : sys.sensor.noise = none) (h3 : sys.dx = ⟨35, defaultDx⟩)
    (hk : t0.k = s.k) (ht : t0.ekf = resizeF s.ekf sys) (hQ : t0.Q = s.Q) (hx : t0.lastX = s.lastX) (h4 : sys.withForce = t0.useFT) (h5 : sys.withAbs = t0.withAbs)
    (h6 : sys.withBias = t0.withBias) (h7 : sys.withUnmodeled = t0.withUnmodeled) : Inv t :=
  updateR_inv (resize_inv hi hr h1 h2 h3 hk ht hQ hx h4 h5 h6 h7) h

theorem setWithForces_eq {s t : Est} (hi : Inv s) {b : Bool} (hb : s.useFT ≠ b) (h : s.setWithForcesMeasurements b = .ok t) :
    ({ s with useFT := b, ekf := resizeF s.ekf { s.sys with withForce := b }.updateMeasurementSize } : Est).updateR = .ok t := by
  rw [Est.setWithForcesMeasurements, if_pos hb] at h
  rw [← h]
  congr 2
  unfold resizeF
  congr 1
  exact setInputSize_same _ hi.f.p

theorem setWithAbs_eq {s t : Est} (hi : Inv s) {b : Bool} (hb : s.withAbs ≠ b) (h : s.setWithAbsolutePos b = .ok t) :
    ({ s with withAbs := b, ekf := resizeF s.ekf { s.sys with withAbs := b }.updateMeasurementSize } : Est).updateR = .ok t := by
  rw [Est.setWithAbsolutePos, if_pos hb] at h
  rw [← h]
  congr 2
  unfold resizeF
  congr 1
  exact setInputSize_same _ hi.f.p

theorem setWithUnmodeled_eq {s t : Est} (hi : Inv s) {b : Bool} (hb : s.withUnmodeled ≠ b) (h : s.setWithUnmodeledForces b = .ok t) :
    ({ s with withUnmodeled := b, ekf := resizeF s.ekf { s.sys with withUnmodeled := b } } : Est).updateR = .ok t := by
  rw [Est.setWithUnmodeledForces, if_pos hb] at h
  rw [← h]
  congr 2
  unfold resizeF
  have e1 : setInputSize (s.setSys { s.sys with withUnmodeled := b }).ekf (48 + 12 * s.sys.nb) = (s.setSys { s.sys with withUnmodeled := b }).ekf := setInputSize_same _ hi.f.p
  have e2 : setMeasureSize (s.setSys { s.sys with withUnmodeled := b }).ekf s.sys.measSize = (s.setSys { s.sys with withUnmodeled := b }).ekf :=
    setMeasureSize_same _ hi.f.m hi.f.mt
  refine (congrArg (fun g : Filter => setMeasureSize g s.sys.measSize) e1).trans (e2.trans ?_)
  exact (e1.symm.trans (congrArg (fun g : Filter => setInputSize g (48 + 12 * s.sys.nb)) e2.symm))

theorem inv_setWithUnmodeled {s t : Est} (hi : Inv s) {b : Bool} (h : s.setWithUnmodeledForces b = .ok t) : Inv t := by
  by_cases hb : s.withUnmodeled = b
  · rw [Est.setWithUnmodeledForces, if_neg (by simpa using hb)] at h
    cases h; exact hi
  · exact option_inv hi (setWithUnmodeled_eq hi hb h) (hi.f.reach.exec (.setWithUnmodeledForces b) rfl) hi.f.noise hi.f.snoise hi.f.dx rfl rfl rfl rfl hi.force hi.abs hi.bias rfl

theorem inv_setWithForces {s t : Est} (hi : Inv s) {b : Bool} (h : s.setWithForcesMeasurements b = .ok t) : Inv t := by
  by_cases hb : s.useFT = b
  · rw [Est.setWithForcesMeasurements, if_neg (by simpa using hb)] at h
    cases h; exact hi
  · exact option_inv hi (setWithForces_eq hi hb h) (hi.f.reach.exec (.setWithForceMeasurements b) rfl) hi.f.noise hi.f.snoise hi.f.dx rfl rfl rfl rfl rfl hi.abs hi.bias hi.unmodeled

theorem inv_setWithAbs {s t : Est} (hi : Inv s) {b : Bool} (h : s.setWithAbsolutePos b = .ok t) : Inv t := by
  by_cases hb : s.withAbs = b
  · rw [Est.setWithAbsolutePos, if_neg (by simpa using hb)] at h
    cases h; exact hi
  · exact option_inv hi (setWithAbs_eq hi hb h) (hi.f.reach.exec (.setWithAbsolutePosition b) rfl) hi.f.noise hi.f.snoise hi.f.dx rfl rfl rfl rfl hi.force rfl hi.bias hi.unmodeled

theorem inv_setWithComBias {s : Est} (hi : Inv s) (b : Bool) : Inv (s.setWithComBias b) := by
  unfold Est.setWithComBias
  split_ifs
  · have hr : Reach { s.sys with withBias := b } := hi.f.reach.exec (.setWithComBias b) rfl
    have := hi.f
    exact ⟨⟨⟨this.n, this.nt, this.m, this.mt, this.p, this.arith, hr, this.noise, this.snoise, this.dx, this.pr, this.x, this.y, this.u⟩, hi.q, hi.qSize, hi.force, hi.abs, rfl,
      hi.unmodeled, hi.lastX⟩, hi.r, hi.rSize⟩
  · exact hi

/-- Another covariance of the state. -/
theorem inv_setP {s : Est} (hi : Inv s) {P : Matrix (Fin 35) (Fin 35) ℝ} {P' : DMat} :
    Inv { s with P := P', ekf := { s.ekf with st := { s.ekf.st with pr := ⟨35, 35, P⟩ } } } := by
  have := hi.f
  exact ⟨⟨⟨this.n, this.nt, this.m, this.mt, this.p, this.arith, this.reach, this.noise, this.snoise, this.dx, ⟨P, rfl⟩, this.x, this.y, this.u⟩, hi.q, hi.qSize, hi.force, hi.abs, hi.bias,
    hi.unmodeled, hi.lastX⟩, hi.r, hi.rSize⟩

theorem inv0_setQ {s : Est} (hi : Inv0 s) {Q : Matrix (Fin 35) (Fin 35) ℝ} : Inv0 { s with Q := ⟨35, 35, Q⟩, ekf := { s.ekf with st := { s.ekf.st with q := ⟨35, 35, Q⟩ } } } := by
  have := hi.f
  exact ⟨⟨this.n, this.nt, this.m, this.mt, this.p, this.arith, this.reach, this.noise, this.snoise, this.dx, this.pr, this.x, this.y, this.u⟩, rfl, ⟨Q, rfl⟩, hi.force, hi.abs, hi.bias,
    hi.unmodeled, hi.lastX⟩

theorem setCov_eq {f g : Filter} {P : DMat} (hn : f.st.nt = 35) (h : setStateCovariance f P = .ok g) :
    ∃ P', P = ⟨35, 35, P'⟩ ∧ g = { f with st := { f.st with pr := ⟨35, 35, P'⟩ } } := by
  simp only [setStateCovariance, Res.bind_eq_ok] at h
  obtain ⟨_, h1, h2⟩ := h
  have h1 := asserted h1
  rw [KData.checkP, hn] at h1
  obtain ⟨P', rfl⟩ := (DMat.hasSize_iff _ _ _).1 h1
  cases h2
  exact ⟨P', rfl, rfl⟩

theorem setQ_eq {f g : Filter} {P : DMat} (hn : f.st.nt = 35) (h : setQ f P = .ok g) :
    ∃ P', P = ⟨35, 35, P'⟩ ∧ g = { f with st := { f.st with q := ⟨35, 35, P'⟩ } } := by
  simp only [setQ, Res.bind_eq_ok] at h
  obtain ⟨_, h1, h2⟩ := h
  have h1 := asserted h1
  rw [KData.checkQ, hn] at h1
  obtain ⟨P', rfl⟩ := (DMat.hasSize_iff _ _ _).1 h1
  cases h2
  exact ⟨P', rfl, rfl⟩

theorem inv_resetP {s t : Est} (hi : Inv s) (h : s.resetStateCovarianceMatrix = .ok t) : Inv t := by
  simp only [Est.resetStateCovarianceMatrix, Res.bind_eq_ok] at h
  obtain ⟨f, h1, h2⟩ := h
  obtain ⟨P', -, rfl⟩ := setCov_eq hi.f.nt h1
  cases h2
  exact inv_setP hi

theorem inv_resetAll {s t : Est} (hi : Inv s) (h : s.resetCovarianceMatrices = .ok t) : Inv t := by
  simp only [Est.resetCovarianceMatrices, Res.bind_eq_ok] at h
  obtain ⟨_, -, s1, h1, f, h2, h3⟩ := h
  have i1 : Inv s1 := updateR_inv (by have := hi.toInv0; cases this; constructor <;> assumption) h1
  obtain ⟨Q', hQ, rfl⟩ := setQ_eq i1.f.nt h2
  rw [hQ] at h3
  have i2 := inv0_setQ (Q := Q') i1.toInv0
  exact inv_resetP ⟨i2, i1.r, i1.rSize⟩ h3

/-- Setters that only call `updateMeasurementCovarianceMatrix_`. -/
theorem inv_var {s t : Est} (hi : Inv s) {V : DMat} {a u : ℝ} {R : DMat} (h : Est.updateR { s with forceVar := V, absVar := a, R := R, unmodeledVar := u } = .ok t) : Inv t :=
  updateR_inv (by have := hi.toInv0; cases this; constructor <;> assumption) h

theorem inv_setUnmodeledVar {s t : Est} (hi : Inv s) {d : ℝ} (h : s.setUnmodeledForceVariance d = .ok t) : Inv t := by
  simp only [Est.setUnmodeledForceVariance, Res.bind_eq_ok] at h
  obtain ⟨s1, h1, P, h2, f, h3, h4⟩ := h
  have i0 : Inv { s with unmodeledVar := d } := by have := hi.toInv0; exact ⟨by cases this; constructor <;> assumption, hi.r, hi.rSize⟩
  have i1 : Inv s1 := by
    split_ifs at h1
    · exact inv_setWithUnmodeled i0 h1
    · cases h1; exact i0
  obtain ⟨P', -, rfl⟩ := setCov_eq i1.f.nt h3
  cases h4
  exact inv_setP i1

theorem inv_setUnmodeledProc {s t : Est} (hi : Inv s) {d : ℝ} (h : s.setUnmodeledForceProcessVariance d = .ok t) : Inv t := by
  simp only [Est.setUnmodeledForceProcessVariance, Res.bind_eq_ok] at h
  obtain ⟨Q, h2, f, h3, h4⟩ := h
  obtain ⟨P', rfl, rfl⟩ := setQ_eq hi.f.nt h3
  have i1 := inv0_setQ (Q := P') hi.toInv0
  have i1 : Inv { s with Q := ⟨35, 35, P'⟩, ekf := { s.ekf with st := { s.ekf.st with q := ⟨35, 35, P'⟩ } } } := ⟨i1, hi.r, hi.rSize⟩
  split_ifs at h4
  · exact inv_setWithUnmodeled i1 h4
  · cases h4; exact i1

theorem setGuess_eq {s t : Est} (hi : Inv s) {x : DMat} (h : s.setFlexibilityGuess x = .ok t) :
    ∃ w, t = { s with ekf := { s.ekf with x := some (⟨35, w⟩, s.k) } } ∧
      ((∃ v : Fin 35 → ℝ, x = ⟨35, 1, fun i _ => v i⟩ ∧ w = v) ∨
       (∃ v : Fin 6 → ℝ, x = ⟨6, 1, fun i _ => v i⟩ ∧ w = setSeg (setSeg (0 : Fin 35 → ℝ) Elastic.iPos (seg 3 v 0)) Elastic.iOri (seg 3 v 3))) := by
  simp only [Est.setFlexibilityGuess, Res.bind_eq_ok, hi.f.n] at h
  obtain ⟨_, h1, _, h2, h⟩ := h
  have h1 := asserted h1
  have h2 := asserted h2
  simp only [Bool.or_eq_true] at h1
  obtain ⟨rows, cols, M⟩ := x
  simp only at h2
  split_ifs at h with h3 h4
  · simp only [Res.bind_eq_ok] at h
    obtain ⟨f, hf, h⟩ := h
    obtain ⟨w, hw, rfl, -⟩ := hi.f.setState hf
    simp only at h3
    subst h3
    simp only [DMat.hasSize, decide_eq_true_eq, and_true] at h4
    subst h4
    simp only [DVec.mk_eq] at hw
    cases h
    refine ⟨w, rfl, Or.inl ⟨w, ?_, rfl⟩⟩
    refine (DMat.mk_eq (r := 35) (c := 1)).2 ?_
    funext i j
    rw [← hw, Subsingleton.elim j 0]
    rfl
  · simp only [Res.bind_eq_ok, setQ] at h
    obtain ⟨f, hf, f', ⟨_, -, hf'⟩, h⟩ := h
    simp only at h3
    subst h3
    have h6 : rows = 6 := by
      simp only [DMat.hasSize, decide_eq_true_eq, and_true] at h1 h4
      omega
    subst h6
    obtain ⟨w, hw, rfl, -⟩ := hi.f.setState hf
    cases hf'; cases h
    refine ⟨w, ?_, Or.inr ⟨fun i => M i 0, ?_, ?_⟩⟩
    · show _ = { s with ekf := _ }
      rw [← hi.q]
    · refine (DMat.mk_eq (r := 6) (c := 1)).2 ?_
      funext i j
      rw [Subsingleton.elim j 0]
    · have key : ∀ n, n = 35 → (⟨n, setSeg (setSeg (0 : Fin n → ℝ) Elastic.iPos (seg 3 (fun i => M i 0) 0)) Elastic.iOri (seg 3 (fun i => M i 0) 3)⟩ : DVec) = ⟨35, w⟩ →
        w = setSeg (setSeg (0 : Fin 35 → ℝ) Elastic.iPos (seg 3 (fun i => M i 0) 0)) Elastic.iOri (seg 3 (fun i => M i 0) 3) := by
        rintro n rfl h
        simp only [DVec.mk_eq] at h
        exact h.symm
      exact key _ hi.f.n hw

theorem inv_x {s : Est} (hi : Inv s) {w l : Fin 35 → ℝ} {d : DVec} (hd : d = ⟨35, l⟩) : Inv { s with lastX := d, ekf := { s.ekf with x := some (⟨35, w⟩, s.k) } } := by
  have := hi.f
  exact ⟨⟨⟨this.n, this.nt, this.m, this.mt, this.p, this.arith, this.reach, this.noise, this.snoise, this.dx, this.pr, ⟨w, rfl⟩, this.y, this.u⟩, hi.q, hi.qSize, hi.force, hi.abs, hi.bias,
    hi.unmodeled, ⟨l, hd⟩⟩, hi.r, hi.rSize⟩

theorem setComBias_eq {s t : Est} (hi : Inv s) {b : DVec} (h : s.setComBiasGuess b = .ok t) :
    ∃ l : Fin 35 → ℝ, s.lastX = ⟨35, l⟩ ∧ 2 ≤ b.size ∧ t = { s with
      lastX := ⟨35, setSeg l Elastic.iBias (seg 2 b.val 0)⟩
      ekf := { s.ekf with x := some (⟨35, setSeg l Elastic.iBias (seg 2 b.val 0)⟩, s.k) } } := by
  obtain ⟨l, hl⟩ := hi.lastX
  unfold Est.setComBiasGuess at h
  split_ifs at h with h1
  simp only at h
  have e : (⟨s.lastX.size, setSeg s.lastX.val Elastic.iBias (seg 2 b.val 0)⟩ : DVec) = ⟨35, setSeg l Elastic.iBias (seg 2 b.val 0)⟩ := by rw [hl]
  rw [e] at h
  have i0 : Inv { s with lastX := ⟨35, setSeg l Elastic.iBias (seg 2 b.val 0)⟩ } := by
    have := hi.toInv0
    exact ⟨⟨this.f, this.q, this.qSize, this.force, this.abs, this.bias, this.unmodeled, ⟨_, rfl⟩⟩, hi.r, hi.rSize⟩
  obtain ⟨w, rfl, hw⟩ := setGuess_eq i0 h
  refine ⟨l, hl, h1.1, ?_⟩
  have : w = setSeg l Elastic.iBias (seg 2 b.val 0) := by
    rcases hw with ⟨v, e, rfl⟩ | ⟨v, e, -⟩
    · have := (DMat.mk_eq (r := 35) (c := 1)).1 e
      funext i
      exact (congrFun (congrFun this i) 0).symm
    · have := congrArg DMat.rows e
      simp [column] at this
  rw [this]

theorem setMeasInput_eq {s t : Est} (hi : Inv s) {u : DVec} (h : s.setMeasurementInput u = .ok t) :
    ∃ w a, u = ⟨48 + 12 * s.sys.nb, w⟩ ∧ t = { s with ekf := { s.ekf with u := ⟨s.k, [⟨48 + 12 * s.sys.nb, a⟩, ⟨48 + 12 * s.sys.nb, w⟩]⟩ } } ∧
      ((s.ekf.u.v = [] ∧ a = w) ∨ ∃ l, s.ekf.u = ⟨s.k, ⟨48 + 12 * s.sys.nb, a⟩ :: l⟩) := by
  simp only [Est.setMeasurementInput, Res.bind_eq_ok] at h
  obtain ⟨f, hf, g, hg, h⟩ := h
  cases h
  unfold Est.firstInput at hf
  have h0' : 0 < 48 + 12 * s.sys.nb := by omega
  split_ifs at hf with h0
  · have hu0 : s.ekf.u.v = [] := by simpa [IArr.size] using h0
    obtain ⟨w, u', rfl, h1, rfl⟩ := obsSetInput_ok hi.f.p h0' hf
    obtain ⟨w2, u2, e, h2, rfl⟩ := obsSetInput_ok (f := { s.ekf with u := u' }) hi.f.p h0' hg
    simp only [DVec.mk_eq] at e
    subst e
    have hu' : u' = ⟨s.k, [⟨_, w⟩]⟩ := by
      simp [IArr.setValue, IArr.checkIndex, IArr.checkNext, hu0] at h1
      exact h1.symm
    obtain ⟨a, ⟨b, hb⟩, rfl⟩ := setValue_u1 (Or.inl ⟨w, hu'⟩) h2
    simp only [hu', IArr.mk.injEq, List.cons.injEq, true_and, DVec.mk_eq, and_true] at hb
    have : w = a := by
      rcases hb with hb | hb
      · exact hb
      · exact hb.1
    subst this
    exact ⟨w, w, rfl, rfl, Or.inl ⟨hu0, rfl⟩⟩
  · cases hf
    have hu0 : s.ekf.u.v ≠ [] := by simpa [IArr.size] using h0
    obtain ⟨w, u', rfl, h1, rfl⟩ := obsSetInput_ok hi.f.p h0' hg
    obtain ⟨a, ⟨b, hb⟩, rfl⟩ := setValue_u1 (hi.f.u.resolve_left hu0) h1
    refine ⟨w, a, rfl, rfl, Or.inr ?_⟩
    rcases hb with hb | hb
    · exact ⟨_, hb⟩
    · exact ⟨_, hb⟩

theorem setMeas_eq {s t : Est} (hi : Inv s) {y : DVec} (h : s.setMeasurement y = .ok t) :
    ∃ w, y = ⟨s.sys.measSize, w⟩ ∧ t = { s with ekf := { s.ekf with y := ⟨s.k + 1, [⟨s.sys.measSize, w⟩]⟩ } } := by
  simp only [Est.setMeasurement, Res.bind_eq_ok] at h
  obtain ⟨_, h1, f, hf, h⟩ := h
  have h1 := asserted h1
  simp only [decide_eq_true_eq] at h1
  obtain ⟨y', -, hy', rfl⟩ := obsSetMeas_ok hf
  have := setValue_y hi.f.y hy'
  obtain ⟨d, v⟩ := y
  simp only at h1
  subst h1
  cases h
  exact ⟨v, rfl, by rw [this]⟩

theorem setInput_eq {s t : Est} (hi : Inv s) {u : DVec} (h : s.setInput u = .ok t) :
    ∃ w u', u = ⟨48 + 12 * s.sys.nb, w⟩ ∧ t = { s with ekf := { s.ekf with u := u' } } ∧ (u' = ⟨s.k, [⟨_, w⟩]⟩ ∨ ∃ b, u' = ⟨s.k, [⟨_, w⟩, ⟨48 + 12 * s.sys.nb, b⟩]⟩) := by
  simp only [Est.setInput, Res.bind_eq_ok] at h
  obtain ⟨f, hf, h⟩ := h
  obtain ⟨w, u', rfl, h1, rfl⟩ := obsSetInput_ok hi.f.p (by omega) hf
  cases h
  exact ⟨w, u', rfl, rfl, setValue_u0 hi.f.u h1⟩

theorem inv_yu {s : Est} (hi : Inv s) {y u : IArr DVec} (hy : YB s.sys.measSize s.k y) (hu : UB (48 + 12 * s.sys.nb) s.k u) :
    Inv { s with ekf := { s.ekf with y := y, u := u } } := by
  have := hi.f
  exact ⟨⟨⟨this.n, this.nt, this.m, this.mt, this.p, this.arith, this.reach, this.noise, this.snoise, this.dx, this.pr, this.x, hy, hu⟩, hi.q, hi.qSize, hi.force, hi.abs, hi.bias,
    hi.unmodeled, hi.lastX⟩, hi.r, hi.rSize⟩

theorem arguments_inv {s t : Est} {u : DVec} {b : Bool} (hi : Inv s) (h : s.arguments b = .ok (u, t)) : Inv t := by
  unfold Est.arguments at h
  split_ifs at h <;> simp only [Res.bind_eq_ok] at h
  · obtain ⟨_, -, t', h1, h2⟩ := h
    cases h2
    exact inv_getVector hi h1
  · obtain ⟨t', h1, _, -, h2⟩ := h
    cases h2
    exact inv_getVector hi h1

theorem param_inv {s : Est} {f : Elastic.Sys Unit} (hi : Inv s) (p : Param) (h : Elastic.exec s.sys () p.op = .ok (f, ())) : Inv (s.setSys f) := by
  have hr : Reach f := hi.f.reach.exec _ h
  refine setSys_inv hi hr ?_ ?_ ?_ ?_ ?_ ?_ ?_ ?_ ?_ <;> cases p <;> cases h <;> first | rfl | exact hi.f.noise | exact hi.f.snoise

theorem acc_same {s f : Elastic.Sys Unit} {x u : DVec} {w} (h : Elastic.Inv s) (e1 : s.computeAccelerations x u = .ok (w, f)) : Elastic.Same f s := by
  obtain ⟨hx, hu⟩ := Elastic.computeAccelerations_sizes e1
  obtain ⟨rt, hr, e2⟩ := Elastic.computeAccelerations_eq h.rot x u hx hu
  rw [e2] at e1
  obtain ⟨a, -, e1⟩ := Res.bind_eq_ok.1 e1
  cases e1
  constructor <;> rfl

theorem momF_same {s f : Elastic.Sys Unit} {x u : DVec} {w} (h : Elastic.Inv s) (e1 : s.momentaDotFromForces x u = .ok (w, f)) : Elastic.Same f s := by
  obtain ⟨hx, hu⟩ := Elastic.momentaForces_sizes e1
  obtain ⟨rt, hr, e2⟩ := Elastic.momentaForces_eq h.rot x u hx hu
  rw [e2] at e1
  obtain ⟨a, -, e1⟩ := Res.bind_eq_ok.1 e1
  cases e1
  constructor <;> rfl

theorem momK_same {s f : Elastic.Sys Unit} {x u : DVec} {w} (h : Elastic.Inv s) (e1 : s.momentaDotFromKinematics x u = .ok (w, f)) : Elastic.Same f s := by
  obtain ⟨hx, hu⟩ := Elastic.momentaKine_sizes e1
  obtain ⟨rt, hr, e2⟩ := Elastic.momentaKine_eq h.rot x u hx hu
  rw [e2] at e1
  obtain ⟨a, -, e1⟩ := Res.bind_eq_ok.1 e1
  cases e1
  constructor <;> rfl

theorem inv_exec {s t : Est} (hi : Inv s) (op : Op) (h : exec s op = .ok t) : Inv t := by
  cases op with
  | param p =>
    simp only [exec, Res.bind_eq_ok] at h
    obtain ⟨⟨f, _⟩, h1, h2⟩ := h
    cases h2
    exact param_inv hi p h1
  | setContactsNumber n => exact inv_setContactsNumber hi h
  | setWithForcesMeasurements b => exact inv_setWithForces hi h
  | setWithAbsolutePos b => exact inv_setWithAbs hi h
  | setWithUnmodeledForces b => exact inv_setWithUnmodeled hi h
  | setWithComBias b => cases h; exact inv_setWithComBias hi b
  | setUnmodeledForceVariance d => exact inv_setUnmodeledVar hi h
  | setUnmodeledForceProcessVariance d => exact inv_setUnmodeledProc hi h
  | setForceVariance d => exact inv_var hi (a := s.absVar) (u := s.unmodeledVar) (R := s.R) h
  | setForceVariance3 V => exact inv_var hi (a := s.absVar) (u := s.unmodeledVar) (R := s.R) h
  | setAbsolutePosVariance d => exact inv_var hi (V := s.forceVar) (u := s.unmodeledVar) (R := s.R) h
  | setMeasurementNoiseCovariance R =>
    simp only [exec, Est.setMeasurementNoiseCovariance, Res.bind_eq_ok] at h
    obtain ⟨_, -, h⟩ := h
    exact inv_var hi (V := s.forceVar) (a := s.absVar) (u := s.unmodeledVar) h
  | setProcessNoiseCovariance Q =>
    simp only [exec, Est.setProcessNoiseCovariance, Res.bind_eq_ok] at h
    obtain ⟨f, h1, h2⟩ := h
    obtain ⟨P', rfl, rfl⟩ := setQ_eq hi.f.nt h1
    cases h2
    exact ⟨inv0_setQ hi.toInv0, hi.r, hi.rSize⟩
  | setFlexibilityCovariance P =>
    simp only [exec, Est.setFlexibilityCovariance, Res.bind_eq_ok] at h
    obtain ⟨f, h1, h2⟩ := h
    obtain ⟨P', rfl, rfl⟩ := setCov_eq hi.f.nt h1
    cases h2
    exact inv_setP hi (P' := s.P)
  | resetCovarianceMatrices => exact inv_resetAll hi h
  | resetStateCovarianceMatrix => exact inv_resetP hi h
  | setTorquesLimit v => cases h; have := hi.toInv0; exact ⟨by cases this; constructor <;> assumption, hi.r, hi.rSize⟩
  | setForcesLimit v => cases h; have := hi.toInv0; exact ⟨by cases this; constructor <;> assumption, hi.r, hi.rSize⟩
  | setLimitOn v => cases h; have := hi.toInv0; exact ⟨by cases this; constructor <;> assumption, hi.r, hi.rSize⟩
  | setOn v => cases h; have := hi.toInv0; exact ⟨by cases this; constructor <;> assumption, hi.r, hi.rSize⟩
  | useFiniteDifferencesJacobians v => cases h; have := hi.toInv0; exact ⟨by cases this; constructor <;> assumption, hi.r, hi.rSize⟩
  | setJacobians A C =>
    simp only [exec, setA, setC, Res.bind_eq_ok] at h
    obtain ⟨f, ⟨_, -, h1⟩, g, ⟨_, -, h2⟩, h3⟩ := h
    cases h1; cases h2; cases h3
    have := hi.f
    exact ⟨⟨⟨this.n, this.nt, this.m, this.mt, this.p, this.arith, this.reach, this.noise, this.snoise, this.dx, this.pr, this.x, this.y, this.u⟩, hi.q, hi.qSize, hi.force, hi.abs, hi.bias,
      hi.unmodeled, hi.lastX⟩, hi.r, hi.rSize⟩
  | setMeasurement y =>
    obtain ⟨w, rfl, rfl⟩ := setMeas_eq hi h
    exact inv_yu hi (Or.inr ⟨w, rfl⟩) hi.f.u
  | setInput u =>
    obtain ⟨w, u', rfl, rfl, hu⟩ := setInput_eq hi h
    refine inv_yu hi hi.f.y ?_
    rcases hu with rfl | ⟨b, rfl⟩
    · exact Or.inr (Or.inl ⟨_, rfl⟩)
    · exact Or.inr (Or.inr ⟨_, _, rfl⟩)
  | setMeasurementInput u =>
    obtain ⟨w, a, rfl, rfl, -⟩ := setMeasInput_eq hi h
    exact inv_yu hi hi.f.y (Or.inr (Or.inr ⟨_, _, rfl⟩))
  | setFlexibilityGuess x =>
    obtain ⟨w, rfl, -⟩ := setGuess_eq hi h
    obtain ⟨l, hl⟩ := hi.lastX
    exact inv_x hi hl
  | setComBiasGuess b =>
    obtain ⟨l, hl, -, rfl⟩ := setComBias_eq hi h
    exact inv_x hi rfl
  | getFlexibilityVector => exact inv_getVector hi h
  | getFlexibility =>
    simp only [exec, Est.getFlexibility, Res.bind_eq_ok] at h
    obtain ⟨⟨M, t'⟩, ⟨t1, h1, h2⟩, h3⟩ := h
    split_ifs at h2
    cases h2; cases h3
    exact inv_getVector hi h1
  | getForcesAndMoments =>
    simp only [exec, Est.getForcesAndMoments, Res.bind_eq_ok] at h
    obtain ⟨⟨M, t'⟩, ⟨t1, h1, h2⟩, h3⟩ := h
    split_ifs at h2
    cases h2; cases h3
    exact inv_getVector hi h1
  | getMomentaDotFromForces b =>
    simp only [exec, Est.getMomentaDotFromForces, Res.bind_eq_ok] at h
    obtain ⟨⟨M, t'⟩, h, h3⟩ := h
    cases h3
    split_ifs at h
    · simp only [Res.bind_eq_ok] at h
      obtain ⟨⟨u, s1⟩, h1, ⟨w, f⟩, h2, h3⟩ := h
      have i1 := arguments_inv hi h1
      have h2 : s1.sys.momentaDotFromForces s1.lastX u = .ok (w, f) := h2
      have hr : Reach f := i1.f.reach.exec (.momentaDotFromForces s1.lastX u) (by
        have h2 : s1.ekf.st.ext.sys.momentaDotFromForces s1.lastX u = .ok (w, f) := h2
        simp only [Elastic.exec, h2, Res.ok_bind])
      have := setSys_same i1 hr (momF_same i1.f.reach.inv h2)
      rw [← (Prod.mk.inj (Res.ok.inj h3)).2]
      exact this
    · cases h; exact hi
  | getMomentaDotFromKinematics b =>
    simp only [exec, Est.getMomentaDotFromKinematics, Res.bind_eq_ok] at h
    obtain ⟨⟨M, t'⟩, h, h3⟩ := h
    cases h3
    split_ifs at h
    · simp only [Res.bind_eq_ok] at h
      obtain ⟨⟨u, s1⟩, h1, ⟨w, f⟩, h2, h3⟩ := h
      have i1 := arguments_inv hi h1
      have h2 : s1.sys.momentaDotFromKinematics s1.lastX u = .ok (w, f) := h2
      have hr : Reach f := i1.f.reach.exec (.momentaDotFromKinematics s1.lastX u) (by
        have h2 : s1.ekf.st.ext.sys.momentaDotFromKinematics s1.lastX u = .ok (w, f) := h2
        simp only [Elastic.exec, h2, Res.ok_bind])
      have := setSys_same i1 hr (momK_same i1.f.reach.inv h2)
      rw [← (Prod.mk.inj (Res.ok.inj h3)).2]
      exact this
    · cases h; exact hi
  | computeAccelerations b =>
    simp only [exec, Est.computeAccelerations, Res.bind_eq_ok] at h
    obtain ⟨⟨M, t'⟩, ⟨⟨u, s1⟩, h1, ⟨w, f⟩, h2, h3⟩, h4⟩ := h
    cases h4
    have i1 := arguments_inv hi h1
    have h2 : s1.sys.computeAccelerations s1.lastX u = .ok (w, f) := h2
    have hr : Reach f := i1.f.reach.exec (.computeAccelerations s1.lastX u) (by
      have h2 : s1.ekf.st.ext.sys.computeAccelerations s1.lastX u = .ok (w, f) := h2
      simp only [Elastic.exec, h2, Res.ok_bind])
    have := setSys_same i1 hr (acc_same i1.f.reach.inv h2)
    rw [← (Prod.mk.inj (Res.ok.inj h3)).2]
    exact this
  | getSimulatedMeasurement =>
    simp only [exec, Est.getSimulatedMeasurement, Res.bind_eq_ok] at h
    obtain ⟨⟨y, t'⟩, ⟨t1, h1, k, -, x, -, ⟨y', f⟩, h2, h4⟩, h3⟩ := h
    cases h4; cases h3
    have i1 := inv_getVector hi h1
    exact (simulateSensor_upd i1.f.reach h2).est i1
  | getPrediction =>
    simp only [exec, Res.bind_eq_ok] at h
    obtain ⟨f, hf, h⟩ := h
    cases h
    exact (updateState_upd hi.f.reach hf).est hi
  | getPredictedMeasurement =>
    simp only [exec, Res.bind_eq_ok] at h
    obtain ⟨f, hf, h⟩ := h
    cases h
    exact (updateBoth_upd hi.f.reach hf).est hi

/-- The measurement covariance after a reset. -/
noncomputable def Est.newR (s : Est) : DMat := square s.sys.measSize (setBlk (scalar 1) 0 0 6 6 (defaultRIMU (s.mem s.allocs)))

/-- `resetCovarianceMatrices` returns. -/
theorem resetAll_live {s : Est} (hm : s.ekf.st.mt = s.sys.measSize) (h6 : 6 ≤ s.sys.measSize) (hn : s.ekf.st.nt = 35) :
    s.resetCovarianceMatrices = .ok { s with
      R := s.newR
      Q := square 35 s.resetQ
      P := square 35 s.resetQ
      allocs := s.allocs + 1
      ekf := { s.ekf with st := { s.ekf.st with r := s.newR, q := square 35 s.resetQ, pr := square 35 s.resetQ } } } := by
  have h1 : Est.updateR { s with R := s.newR, allocs := s.allocs + 1 } = .ok { s with R := s.newR, allocs := s.allocs + 1, ekf := { s.ekf with st := { s.ekf.st with r := s.newR } } } := by
    have e : Est.resizedR { s with R := s.newR, allocs := s.allocs + 1 } = .ok (s.newR, s.allocs + 1) := by
      rw [Est.resizedR, if_neg (by simp [Est.newR, square, Est.sys])]
    have hc : s.ekf.st.checkR s.newR = true := by rw [KData.checkR, hm]; exact DMat.hasSize_mk ..
    simp only [Est.updateR, e, Res.ok_bind, setR, hc, Res.assert_true]
  have hq : ∀ st : KData Ext, st.nt = 35 → st.checkQ (square 35 s.resetQ) = true := by
    intro st h; rw [KData.checkQ, h]; exact DMat.hasSize_mk ..
  have hp : ∀ st : KData Ext, st.nt = 35 → st.checkP (square 35 s.resetQ) = true := by
    intro st h; rw [KData.checkP, h]; exact DMat.hasSize_mk ..
  unfold Est.resetCovarianceMatrices
  show (Res.assert (decide (6 ≤ s.sys.measSize)) >>= fun _ => Est.updateR { s with R := s.newR, allocs := s.allocs + 1 } >>= _) = _
  rw [show decide (6 ≤ s.sys.measSize) = true by simpa using h6, Res.assert_true, Res.ok_bind, h1, Res.ok_bind]
  simp only
  have e2 : Est.resetQ { s with R := s.newR, allocs := s.allocs + 1, ekf := { s.ekf with st := { s.ekf.st with r := s.newR } } } = s.resetQ := rfl
  rw [e2]
  simp only [setQ, Est.resetStateCovarianceMatrix, setStateCovariance]
  rw [hq _ (by exact hn), Res.assert_true]
  simp only [Res.ok_bind]
  rw [hp _ (by exact hn), Res.assert_true]
  rfl

/-- The state of a new estimator. -/
theorem ctor_eq (mem : ℕ → ℕ → ℕ → ℝ) (dt : ℝ) : ∃ s, ctor mem dt = .ok s ∧ Inv s ∧ s.on = true ∧ s.fd = true ∧ s.limOn = true ∧ s.mem = mem ∧ s.allocs = 1 ∧ s.k = 0 ∧
    s.lastX = DVec.zero 35 ∧ s.ekf.x = some (DVec.zero 35, 0) ∧ s.ekf.y.v = [] ∧ s.ekf.u.v = [] ∧ s.ekf.st.xbar = none ∧ s.ekf.st.ybar = none ∧
    s.Q = square 35 s.resetQ ∧ s.P = s.Q ∧ s.ekf.st.pr = s.Q ∧ s.R = square 6 (defaultRIMU (mem 0)) ∧ s.useFT = false ∧ s.withAbs = false ∧ s.withBias = false ∧ s.withUnmodeled = false ∧
    s.sys = { Elastic.ctor dt with dx := ⟨35, defaultDx⟩ } ∧ s.limT = weights ![10, 10, 100] ∧ s.limF = weights ![100, 100, 1000] ∧ s.forceVar = square 6 (scalar 1e-4) ∧ s.absVar = 1e-4 ∧
    s.ekf.st.a = .empty ∧ s.ekf.st.c = .empty := by
  unfold ctor
  set f0 := setInputSize (setStateSize (setMeasureSize (KF.mk 35 35 12 12 48 (⟨Elastic.ctor dt, ⟨0, 0⟩⟩ : Ext)) (Elastic.ctor (G := Unit) dt).measSize) 35) (48 + 12 * (Elastic.ctor (G := Unit) dt).nb) with hf0
  have e0 : f0 = KF.mk 35 35 6 6 48 (⟨Elastic.ctor dt, ⟨0, 0⟩⟩ : Ext) := by
    rw [hf0]
    simp [setMeasureSize, setMeasureSize2, setInputSize, setStateSize, setStateSize2, KF.mk, Elastic.ctor, clearR, clearC, Obs.clearMeasurements, IArr.empty, IArr.reset]
  simp only [← hf0]
  rw [e0]
  have h1 := resetAll_live (s := ⟨KF.mk 35 35 6 6 48 (⟨Elastic.ctor dt, ⟨0, 0⟩⟩ : Ext), true, ⟨35, fun _ => 1e-8⟩, ⟨0, 0⟩, 0, .empty, .empty, .empty, true, 1e-6, square 6 (scalar 1e-4), 1e-4, false, false, false, false,
    weights ![10, 10, 100], weights ![100, 100, 1000], true, mem, 0⟩) rfl (le_refl 6) rfl
  rw [h1]
  simp only [Res.ok_bind, show DVec.zero 35 = ⟨35, 0⟩ from rfl]
  rw [obsSetState_live _ 0 0 rfl (by show 0 < 48; omega)]
  have hp : ∀ (st : KData Ext) (q : ℕ → ℕ → ℝ), st.nt = 35 → st.checkP (square 35 q) = true := by
    intro st q h; rw [KData.checkP, h]; exact DMat.hasSize_mk ..
  simp only [Res.ok_bind, setStateCovariance]
  rw [hp _ _ rfl]
  simp only [Res.assert_true, Res.ok_bind]
  have hR : ∀ J : ℕ → ℕ → ℝ, square 6 (setBlk (scalar 1) 0 0 6 6 (defaultRIMU J)) = square 6 (defaultRIMU J) := by
    intro J
    unfold square
    congr 1
    funext i j
    simp [setBlk, i.2, j.2]
  refine ⟨_, rfl, ⟨⟨⟨rfl, rfl, rfl, rfl, rfl, rfl, ?_, rfl, rfl, rfl, ⟨_, rfl⟩, ⟨_, rfl⟩, Or.inl rfl, Or.inl rfl⟩, rfl, ⟨_, rfl⟩, rfl, rfl, rfl, rfl, ⟨_, rfl⟩⟩, rfl, ⟨_, rfl⟩⟩,
    rfl, rfl, rfl, rfl, rfl, rfl, rfl, rfl, rfl, rfl, rfl, rfl, rfl, rfl, rfl, hR _, rfl, rfl, rfl, rfl, rfl, rfl, rfl, rfl, rfl, rfl, rfl⟩
  exact (reach_ctor dt).exec (.setFDstep ⟨35, defaultDx⟩) rfl

theorem inv_fold : ∀ (ops : List Op) {s t : Est}, Inv s → ops.foldlM exec s = .ok t → Inv t
  | [], s, t, hi, h => by cases h; exact hi
  | op :: ops, s, t, hi, h => by
    simp only [List.foldlM_cons, Res.bind_eq_ok] at h
    obtain ⟨s1, h1, h2⟩ := h
    exact inv_fold ops (inv_exec hi op h1) h2

theorem inv_run {mem : ℕ → ℕ → ℕ → ℝ} {dt : ℝ} {ops : List Op} {s : Est} (h : run mem dt ops = .ok s) : Inv s := by
  obtain ⟨s0, e, hi, -⟩ := ctor_eq mem dt
  rw [run, e, Res.ok_bind] at h
  exact inv_fold ops hi h

end StateObs.ModelFlex
