import Verif.ModelFlex.Inv
import Verif.KO.UpdLemmas
/-! # One estimation, and the invariant in every reachable state -/

namespace StateObs.ModelFlex
open StateObs KF Imu Rot Kine Matrix Obs

/-- A successful step of the filter: `g` is the filter after the predictions. -/
theorem oneStep_ok' {f h : Filter} {x : DVec} {k : Int} (hr : Reach f.st.ext.sys) (hx : f.x = some (x, k)) (e : oneStep virt f = .ok h) :
    ∃ (g1 g : Filter) (xb yb y xhat : DVec) (P : DMat) (inn : DVec) (K : DMat), prediction f (k + 1) = .ok g1 ∧ predictSensor g1 (k + 1) = .ok g ∧ Upd f g ∧
      g.st.a = f.st.a ∧ g.st.c = f.st.c ∧
      (f.st.checkA f.st.a = true ∧ f.st.checkC f.st.c = true ∧ f.st.checkQ f.st.q = true ∧ f.st.checkR f.st.r = true ∧ f.st.checkP f.st.pr = true) ∧
      f.y.get (k + 1) = .ok y ∧ val g.st.xbar = .ok xb ∧ val g.st.ybar = .ok yb ∧ correct g.st xb yb y = .ok (xhat, P, inn, K) ∧
      h = { g with x := some (xhat, k + 1), st := { g.st with pr := P, innovation := inn, kGain := K } } := by
  unfold oneStep at e
  simp only [hx, Res.bind_eq_ok] at e
  obtain ⟨_, h0, _, h1, _, h2, _, h3, _, h4, _, h5, s1, h6, s2, h7, yb, h8, y, h9, xb, h10, ⟨xhat, P, inn, K⟩, h11, h12⟩ := e
  have u1 : Upd f s1 := prediction_upd hr h6
  have u2 : Upd s1 s2 := predictSensor_upd u1.reach h7
  have a1 : s1.st.a = f.st.a ∧ s1.st.c = f.st.c := by
    simp only [virt, prediction] at h6
    split_ifs at h6
    · simp only [Res.bind_eq_ok, hx] at h6
      obtain ⟨_, -, u, -, ⟨v, sys, g'⟩, -, h⟩ := h6
      cases h
      exact ⟨rfl, rfl⟩
    · cases h6; exact ⟨rfl, rfl⟩
  have a2 : s2.st.a = s1.st.a ∧ s2.st.c = s1.st.c := by
    simp only [virt, predictSensor, simulateSensor] at h7
    split_ifs at h7
    · simp only [Res.bind_eq_ok] at h7
      obtain ⟨_, -, ⟨y', g'⟩, ⟨_, -, u, -, ⟨v, sys, g''⟩, -, h⟩, h'⟩ := h7
      cases h; cases h'
      exact ⟨rfl, rfl⟩
    · cases h7; exact ⟨rfl, rfl⟩
  have u := u1.trans u2
  rw [u.y] at h9
  cases h12
  exact ⟨s1, s2, xb, yb, y, xhat, P, inn, K, h6, h7, u, a2.1.trans a1.1, a2.2.trans a1.2, ⟨asserted h1, asserted h2, asserted h3, asserted h4, asserted h5⟩, h9, h10, h8, h11, rfl⟩

/-- The estimation at the next time. -/
theorem getEst_ok {f g : Filter} {x w : DVec} {k : Int} {p : ℕ} (hx : f.x = some (x, k)) (hp : 0 < f.st.p) (hr : Reach f.st.ext.sys) (hy : f.y = ⟨k + 1, [w]⟩) (hu : UB p k f.u)
    (h : KF.getEstimatedState virt f (k + 1) = .ok g) : ∃ g', oneStep virt f = .ok g' ∧ g = { g' with u := from_ (k + 1) f.u } := by
  simp only [KF.getEstimatedState, Obs.getEstimatedState, getCurrentTime, hx, Res.ok_bind, show decide (k ≤ k + 1) = true by simp, Res.assert_true,
    show (k + 1 - k).toNat = 1 by omega, loop, loopBody, show (cfg f).p > 0 from hp, if_true, Res.bind_eq_ok] at h
  obtain ⟨_, ⟨g', h1, y', h2, u', h3, h5⟩, h4⟩ := h
  cases h5; cases h4
  refine ⟨g', h1, ?_⟩
  obtain ⟨g1, g2, xb, yb, y, xhat, P, inn, K, -, -, up, -, -, -, -, -, -, -, e⟩ := oneStep_ok' hr hx h1
  have ey : g'.y = f.y := by rw [e]; exact up.y
  have eu : g'.u = f.u := by rw [e]; exact up.u
  rw [ey, hy] at h2
  simp only [popIf, IArr.getFirstIndex, lt_irrefl, if_false, Res.ok.injEq] at h2
  rw [eu] at h3
  have : u' = from_ (k + 1) f.u := by
    rcases hu with hu | ⟨a, hu⟩ | ⟨a, b, hu⟩
    · generalize f.u = a at h3 hu
      obtain ⟨i, v⟩ := a
      simp only at hu
      subst hu
      unfold popIf at h3
      split_ifs at h3
      · simp [IArr.popFront] at h3
      · cases h3; rfl
    · rw [hu] at h3 ⊢
      simp [popIf, IArr.getFirstIndex, IArr.popFront] at h3
      rw [← h3]; simp [from_, dropUpTo]
    · rw [hu] at h3 ⊢
      simp [popIf, IArr.getFirstIndex, IArr.popFront] at h3
      rw [← h3]; simp [from_, dropUpTo]
  rw [this, ← h2, ← hy, ← ey]

theorem from_u {p : ℕ} {k : Int} {u : IArr DVec} (hu : UB p k u) : UB p (k + 1) (from_ (k + 1) u) := by
  rcases hu with hu | ⟨w, rfl⟩ | ⟨a, b, rfl⟩
  · obtain ⟨i, v⟩ := u; simp only at hu; subst hu; exact Or.inl rfl
  · left; simp [from_, dropUpTo]
  · right; left; exact ⟨b, by simp [from_, dropUpTo]⟩

/-- What `getFlexibilityVector` does when a measurement waits. -/
theorem getVector_ok {s t : Est} (hi : Inv s) (hon : s.on = true) (hy : s.ekf.y.v ≠ []) (h : s.getFlexibilityVector = .ok t) :
    ∃ (f1 f : Filter) (z : Fin 35 → ℝ) (o : V3), jacobians s.fd s.ekf = .ok f1 ∧ oneStep virt f1 = .ok f ∧ f.x = some (⟨35, z⟩, s.k + 1) ∧
      regulateOrientationVector (seg 3 z Elastic.iOri) = .ok o ∧
      t = { s with
        k := s.k + 1
        lastX := ⟨35, s.saturate (setSeg z Elastic.iOri o)⟩
        ekf := { f with
          x := some (⟨35, s.saturate (setSeg z Elastic.iOri o)⟩, s.k + 1)
          y := ⟨s.k + 2, []⟩
          u := from_ (s.k + 1) s.ekf.u } } := by
  obtain ⟨x, hx⟩ := hi.f.x
  rcases hi.f.y with hy0 | ⟨w, hy1⟩
  · exact absurd hy0 hy
  have hsz : s.ekf.y.size > 0 := by rw [hy1]; simp [IArr.size]
  rw [Est.getFlexibilityVector, if_pos hon, if_pos hsz] at h
  simp only [Res.bind_eq_ok, Obs.getMeasurementTime] at h
  obtain ⟨k, ⟨_, -, hk⟩, t0, ht0, f, hf, f2, hf2, xx, hxx, hb⟩ := h
  have hk : k = s.k + 1 := by
    simp only [Res.ok.injEq] at hk
    rw [← hk, hy1]; simp [IArr.getLastIndex]
  subst hk
  have ht0 : t0 = s.k := by
    simp only [getCurrentTime, hx, Res.ok.injEq] at ht0
    exact ht0.symm
  subst ht0
  rw [show (s.k + 1 - s.k).toNat = 1 by omega] at hf
  simp only [estimate, Res.bind_eq_ok] at hf
  obtain ⟨f1, hf1, f', hf', hf⟩ := hf
  cases hf
  have u1 := jacobians_upd hi.f.reach hf1
  have i1 := u1.inv hi.f
  have hx1 : f1.x = some (⟨35, x⟩, s.k) := by rw [u1.x, hx]
  obtain ⟨g', hg', e⟩ := getEst_ok hx1 (by rw [i1.p]; omega) i1.reach (by rw [u1.y, hy1]) i1.u hf'
  obtain ⟨g1, g2, xb, yb, y, xhat, P, inn, K, -, -, up, -, -, -, -, -, -, -, e'⟩ := oneStep_ok' i1.reach hx1 hg'
  have hgx : g'.x = some (xhat, s.k + 1) := by rw [e']
  have hfx : f.x = some (xhat, s.k + 1) := by rw [e]; exact hgx
  have hf2 : f2 = f := by
    simp only [KF.getEstimatedState, Obs.getEstimatedState, getCurrentTime, hfx, Res.ok_bind,
      show decide (s.k + 1 ≤ s.k + 1) = true by simp, Res.assert_true, show (s.k + 1 - (s.k + 1)).toNat = 0 by omega, loop] at hf2
    cases hf2; rfl
  subst hf2
  simp only [hfx, val, Res.ok.injEq] at hxx
  subst hxx
  obtain ⟨d, v⟩ := xhat
  simp only at hb
  split_ifs at hb with hd
  subst hd
  simp only [Res.bind_eq_ok] at hb
  obtain ⟨o, ho, t0, ht0, g, hg, h⟩ := hb
  simp only [getCurrentTime, hfx, Res.ok.injEq] at ht0
  subst ht0
  have hn : f2.st.n = 35 := by rw [e, e']; exact up.n.trans i1.n
  have hp : 0 < f2.st.p := by rw [e, e']; show 0 < g2.st.p; rw [up.p, i1.p]; omega
  obtain ⟨w', hw', rfl⟩ := obsSetState_ok hn hp hg
  simp only [DVec.mk_eq] at hw'
  subst hw'
  refine ⟨f1, g', v, o, hf1, hg', hgx, ho, ?_⟩
  have ey : g'.y = ⟨s.k + 1, [⟨_, w⟩]⟩ := by rw [e', ← hy1, ← u1.y, ← up.y]
  cases h
  rw [e]
  congr 2
  · rw [ey]; simp [dropUpTo]; omega
  · show dropUpTo (s.k + 1 - 1) (from_ (s.k + 1) f1.u).k (from_ (s.k + 1) f1.u).v = from_ (s.k + 1) s.ekf.u
    rw [u1.u]
    exact from_from _ _ (le_refl _) _

theorem getVector_idle {s : Est} (hon : s.on = true) (hy : s.ekf.y.v = []) : s.getFlexibilityVector = .ok s := by
  rw [Est.getFlexibilityVector, if_pos hon, if_neg (by simp [IArr.size, hy])]

/-- The invariant of the filter after a step. -/
theorem oneStep_inv {k : Int} {f g : Filter} (hf : FInv k f) (e : oneStep virt f = .ok g) :
    FInv (k + 1) { g with y := ⟨k + 2, []⟩, u := from_ (k + 1) f.u } ∧ g.st.q = f.st.q ∧ g.st.r = f.st.r ∧ Elastic.Same g.st.ext.sys f.st.ext.sys := by
  obtain ⟨x, hx⟩ := hf.x
  obtain ⟨g1, g', xb, yb, y, xhat, P, inn, K, -, -, up, ea, ec, hch, -, hxb, -, hc, e'⟩ := oneStep_ok' hf.reach hx e
  subst e'
  have ig := up.inv hf
  obtain ⟨A, Q, P0, C, R, hm⟩ := hasMats_of_checks _ hch.1 hch.2.1 hch.2.2.1 hch.2.2.2.1 hch.2.2.2.2
  have hm1 : HasMats g'.st f.st.nt f.st.mt A Q P0 C R := ⟨up.nt, up.mt, ea.trans hm.a, up.q.trans hm.q, up.pr.trans hm.pr, ec.trans hm.c, up.r.trans hm.r⟩
  obtain ⟨h1, -, h3, h4⟩ := KO.correct_size hm1 hc
  rw [ig.arith] at h4
  rw [hf.nt] at h1 h3
  obtain ⟨P', rfl⟩ := (DMat.hasSize_iff _ _ _).1 h1
  have hxs : ∃ z, xhat = ⟨35, z⟩ := by
    simp only [Arith.default, DVec.add] at h4
    obtain ⟨a, va⟩ := xb
    obtain ⟨b, vb⟩ := inn
    simp only at h3 h4
    subst h3
    split_ifs at h4 with hs
    subst hs
    cases h4
    exact ⟨_, rfl⟩
  obtain ⟨z, rfl⟩ := hxs
  exact ⟨⟨ig.n, ig.nt, ig.m, ig.mt, ig.p, ig.arith, ig.reach, ig.noise, ig.snoise, ig.dx, ⟨P', rfl⟩, ⟨z, rfl⟩, Or.inl rfl, by
    show UB (48 + 12 * g'.st.ext.sys.nb) (k + 1) (from_ (k + 1) f.u)
    rw [up.same.nb]
    exact from_u hf.u⟩, up.q, up.r, up.same⟩

end StateObs.ModelFlex
