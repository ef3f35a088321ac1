import Verif.KO.Inv
/-!
# `update()`: the calls on the filter
-/

namespace StateObs.KO
open StateObs Matrix Rot Kine KF

theorem setMeasureSize2_ok {E : Type} (s : KFilter E) (m mt : ℕ) :
    ∃ c r y, setMeasureSize2 s m mt = { s with y := y, st := { s.st with m := m, mt := mt, c := c, r := r } } ∧ (y = s.y ∨ y.v = []) := by
  unfold setMeasureSize2
  split_ifs with h
  · by_cases hm : m = s.st.m
    · refine ⟨.empty, .empty, s.y, ?_, Or.inl rfl⟩
      subst hm
      simp [clearR, clearC]
    · refine ⟨.empty, .empty, s.y.reset, ?_, Or.inr rfl⟩
      simp [clearR, clearC, Obs.clearMeasurements, hm]
  · push Not at h
    obtain ⟨rfl, rfl⟩ := h
    exact ⟨s.st.c, s.st.r, s.y, rfl, Or.inl rfl⟩

/-- The buffer of the measurements in one iteration. -/
theorem setMeasurement_ok {E : Type} {s s' : KFilter E} {v y : DVec} {k : Int} (hx : s.x = some (v, k))
    (hy : s.y.v = [] ∨ s.y.k = k ∧ s.y.v.length = 1) (h : Obs.setMeasurement (KF.cfg s) s y (k + 1) = .ok s') :
    y.size = s.st.m ∧ ∃ b, s' = { s with y := b } ∧ b.get (k + 1) = .ok y ∧ Obs.popIf (k + 1) b = .ok ⟨k + 1, [y]⟩ := by
  rw [Obs.setMeasurement, Res.bind_eq_ok] at h
  obtain ⟨a, ha, h⟩ := h
  have hs : y.size = s.st.m := by simpa [cfg, DVec.hasSize] using Res.assert_ok ha
  refine ⟨hs, ?_⟩
  have key : ∃ b, s.y.setValue y (k + 1) = .ok b ∧ s' = { s with y := b } := by
    split_ifs at h <;>
    · simp only [Res.bind_eq_ok] at h
      obtain ⟨-, -, b, h1, h2⟩ := h
      cases h2
      exact ⟨b, h1, rfl⟩
  obtain ⟨b, hb, rfl⟩ := key
  refine ⟨b, rfl, ?_⟩
  rcases hy with hy | ⟨hk, hl⟩
  · have : b = ⟨k + 1, [y]⟩ := by
      simp [IArr.setValue, IArr.checkIndex, IArr.checkNext, hy] at hb
      exact hb.symm
    subst this
    simp [IArr.get, IArr.checkIndex, Obs.popIf, IArr.getFirstIndex]
  · obtain ⟨y0, hy0⟩ := List.length_eq_one_iff.1 hl
    have : b = ⟨k, [y0, y]⟩ := by
      simp [IArr.setValue, IArr.checkIndex, IArr.checkNext, hy0, hk] at hb
      exact hb.symm
    subst this
    simp [IArr.get, IArr.checkIndex, Obs.popIf, IArr.getFirstIndex, IArr.popFront]

theorem correct_size {E : Type} {st : KData E} {nt mt : ℕ} {A Q P C R} (h : HasMats st nt mt A Q P C R) {xb yb y xhat inn : DVec} {P' K : DMat}
    (e : correct st xb yb y = .ok (xhat, P', inn, K)) :
    P'.hasSize nt nt = true ∧ K.hasSize nt mt = true ∧ inn.size = nt ∧ st.arith.stateSum xb inn = .ok xhat := by
  simp only [correct, h.a, h.q, h.pr, h.c, h.r, DMat.transpose_mk, DMat.mul_mk, DMat.add_mk, Res.ok_bind, lltInv_mk, Res.bind_eq_ok] at e
  obtain ⟨ino, h1, Si, ⟨M, hM, h2⟩, K0, h3, K1, h4, inn', h5, x', h6, h7⟩ := e
  cases h2
  rw [DMat.mul_mk] at h3
  cases h3
  rw [DMat.mul_mk] at h4
  cases h4
  obtain ⟨a1, e1, a2, e2, a3, e3, e4⟩ := h7
  rw [DMat.neg_mk, DMat.mul_mk] at e1
  cases e1
  rw [DMat.addDiagOne_mk, DMat.mul_mk] at e2
  cases e2
  rw [DMat.transpose_mk, DMat.add_mk] at e3
  cases e3
  cases e4
  refine ⟨by simp, by simp, ?_, h6⟩
  obtain ⟨ni, iv⟩ := ino
  unfold DMat.mulVec at h5
  split_ifs at h5 with hs
  cases h5
  rfl

/-- The calls of `update()` on its filter, for any filter. -/
noncomputable def fdStep (s : KFilter EKF.Ext) (m mt : ℕ) (y dx : DVec) (cov : DMat) (k : Int) : Res (KFilter EKF.Ext) := do
  let e := KF.setMeasureSize2 s m mt
  let e ← Obs.setMeasurement (KF.cfg e) e y k
  let e ← KF.setR e cov
  let A ← EKF.getAMatrixFD e dx
  let e ← KF.setA A.2 A.1
  let C ← EKF.getCMatrixFD e dx
  let e ← KF.setC C.2 C.1
  EKF.getEstimatedState e k

/-- Members that a stage of `fdStep` leaves. -/
structure Keep (s s' : KFilter EKF.Ext) : Prop where
  x : s'.x = s.x
  n : s'.st.n = s.st.n
  nt : s'.st.nt = s.st.nt
  p : s'.st.p = s.st.p
  q : s'.st.q = s.st.q
  pr : s'.st.pr = s.st.pr
  arith : s'.st.arith = s.st.arith
  f : s'.st.ext.f = s.st.ext.f

theorem stageM {s s' : KFilter EKF.Ext} {m mt : ℕ} {y v : DVec} {cov : DMat} {k : Int} (hx : s.x = some (v, k))
    (hy : s.y.v = [] ∨ s.y.k = k ∧ s.y.v.length = 1)
    (h : (Obs.setMeasurement (KF.cfg (KF.setMeasureSize2 s m mt)) (KF.setMeasureSize2 s m mt) y (k + 1) >>= fun e => KF.setR e cov) = .ok s') :
    Keep s s' ∧ y.size = m ∧ s'.y.get (k + 1) = .ok y ∧ Obs.popIf (k + 1) s'.y = .ok ⟨k + 1, [y]⟩ ∧ s'.st.m = m ∧ s'.st.mt = mt ∧ s'.st.r = cov ∧
      cov.hasSize mt mt = true ∧ s'.st.xbar = s.st.xbar ∧ s'.st.ybar = s.st.ybar := by
  simp only [Res.bind_eq_ok, KF.setR] at h
  obtain ⟨e1, h1, _, hR, h2⟩ := h
  obtain ⟨c0, r0, y0, hs, hy0⟩ := setMeasureSize2_ok s m mt
  rw [hs] at h1
  obtain ⟨hsy, b, rfl, hb, hpop⟩ := setMeasurement_ok (v := v) (k := k) (by exact hx) (by
    rcases hy0 with rfl | h0
    · exact hy
    · exact Or.inl h0) h1
  cases h2
  exact ⟨⟨rfl, rfl, rfl, rfl, rfl, rfl, rfl, rfl⟩, hsy, hb, hpop, rfl, rfl, rfl, Res.assert_ok hR, rfl, rfl⟩

theorem stageA {s s' : KFilter EKF.Ext} {f : EKF.Functor} {dx v : DVec} {k : Int} (hx : s.x = some (v, k)) (hp : s.st.p = 0)
    (hf : s.st.ext.f = some f) (hc : EKF.notCached s.st.xbar (k + 1) = true)
    (h : (EKF.getAMatrixFD s dx >>= fun A => KF.setA A.2 A.1) = .ok s') :
    Keep s s' ∧ s'.y = s.y ∧ s'.st.m = s.st.m ∧ s'.st.mt = s.st.mt ∧ s'.st.r = s.st.r ∧ s'.st.ybar = s.st.ybar ∧ s'.st.ext.optU = DVec.zero 0 ∧
    ∃ (xb : DVec) (M : Matrix (Fin s.st.nt) (Fin s.st.nt) ℝ), f.stateDynamics v (DVec.zero 0) k = .ok xb ∧ s'.st.a = ⟨s.st.nt, s.st.nt, M⟩ ∧
      EKF.FDJacobian s.st.arith.stateSum (fun x => f.stateDynamics x (DVec.zero 0) k) s.st.arith.stateDifference dx v xb M ∧
      s'.st.xbar = some (xb, k + 1) := by
  simp only [Res.bind_eq_ok, KF.setA] at h
  obtain ⟨⟨A', e3⟩, h3, _, hA, h4⟩ := h
  obtain ⟨xb, A, hxb, rfl, hJA, rfl⟩ := EKF.getAMatrixFD_ok hx hp hf hc h3
  cases h4
  exact ⟨⟨rfl, rfl, rfl, rfl, rfl, rfl, rfl, rfl⟩, rfl, rfl, rfl, rfl, rfl, rfl, xb, A, hxb, rfl, hJA, rfl⟩

theorem stageC {s s' : KFilter EKF.Ext} {f : EKF.Functor} {dx v xb : DVec} {k : Int} (hx : s.x = some (v, k)) (hp : s.st.p = 0)
    (hf : s.st.ext.f = some f) (hc : s.st.xbar = some (xb, k + 1)) (hy : EKF.notCached s.st.ybar (k + 1) = true) (hu : s.st.ext.optU = DVec.zero 0)
    (h : (EKF.getCMatrixFD s dx >>= fun A => KF.setC A.2 A.1) = .ok s') :
    Keep s s' ∧ s'.y = s.y ∧ s'.st.m = s.st.m ∧ s'.st.mt = s.st.mt ∧ s'.st.r = s.st.r ∧ s'.st.a = s.st.a ∧ s'.st.xbar = s.st.xbar ∧ s.st.m = s.st.mt ∧
    ∃ (yb : DVec) (M : Matrix (Fin s.st.m) (Fin s.st.nt) ℝ), f.measureDynamics xb (DVec.zero 0) (k + 1) = .ok yb ∧ s'.st.c = ⟨s.st.m, s.st.nt, M⟩ ∧
      EKF.FDJacobian s.st.arith.stateSum (fun x => f.measureDynamics x (DVec.zero 0) (k + 1)) (fun _ => DVec.sub) dx xb yb M ∧
      s'.st.ybar = some (yb, k + 1) := by
  simp only [Res.bind_eq_ok, KF.setC] at h
  obtain ⟨⟨A', e3⟩, h3, _, hC, h4⟩ := h
  obtain ⟨yb, C, hyb, rfl, hJC, rfl⟩ := EKF.getCMatrixFD_ok hx hp hf hc hy h3
  rw [hu] at hyb hJC
  have hm : s.st.m = s.st.mt := by
    have := Res.assert_ok hC
    simp only [KData.checkC, DMat.hasSize, decide_eq_true_eq] at this
    exact this.1
  cases h4
  exact ⟨⟨rfl, rfl, rfl, rfl, rfl, rfl, rfl, rfl⟩, rfl, rfl, rfl, rfl, rfl, rfl, hm, yb, C, hyb, rfl, hJC, rfl⟩

theorem fdStep_split (s : KFilter EKF.Ext) (m mt : ℕ) (y dx : DVec) (cov : DMat) (k : Int) :
    fdStep s m mt y dx cov k =
      ((Obs.setMeasurement (KF.cfg (KF.setMeasureSize2 s m mt)) (KF.setMeasureSize2 s m mt) y k >>= fun e => KF.setR e cov) >>= fun e =>
        (EKF.getAMatrixFD e dx >>= fun A => KF.setA A.2 A.1) >>= fun e =>
        (EKF.getCMatrixFD e dx >>= fun A => KF.setC A.2 A.1) >>= fun e => EKF.getEstimatedState e k) := by
  simp only [fdStep, Res.bind_assoc]

theorem fdStep_ok {N NT : ℕ} {s : KFilter EKF.Ext} {f : EKF.Functor} {m mt : ℕ} {y dx v : DVec} {cov : DMat} {k : Int} {e : KFilter EKF.Ext}
    (he : EkfOk N NT s k) (hx : s.x = some (v, k)) (hf : s.st.ext.f = some f) (h : fdStep s m mt y dx cov (k + 1) = .ok e) :
    ∃ (xb yb xhat inn : DVec) (A : Matrix (Fin NT) (Fin NT) ℝ) (C : Matrix (Fin m) (Fin NT) ℝ)
      (Q P0 : Matrix (Fin NT) (Fin NT) ℝ) (R : Matrix (Fin m) (Fin m) ℝ) (P K : DMat) (st : KData EKF.Ext),
      f.stateDynamics v (DVec.zero 0) k = .ok xb ∧ f.measureDynamics xb (DVec.zero 0) (k + 1) = .ok yb ∧ m = mt ∧
      y.size = m ∧ cov = ⟨m, m, R⟩ ∧ s.st.q = ⟨NT, NT, Q⟩ ∧ s.st.pr = ⟨NT, NT, P0⟩ ∧
      EKF.FDJacobian s.st.arith.stateSum (fun x => f.stateDynamics x (DVec.zero 0) k) s.st.arith.stateDifference dx v xb A ∧
      EKF.FDJacobian s.st.arith.stateSum (fun x => f.measureDynamics x (DVec.zero 0) (k + 1)) (fun _ => DVec.sub) dx xb yb C ∧
      HasMats st NT m A Q P0 C R ∧ st.arith = s.st.arith ∧ correct st xb yb y = .ok (xhat, P, inn, K) ∧
      e.x = some (xhat, k + 1) ∧ e.st.pr = P ∧ e.st.q = s.st.q ∧ (e.st.n = N ∧ e.st.nt = NT ∧ e.st.p = 0) ∧
      e.st.xbar = some (xb, k + 1) ∧ e.st.ybar = some (yb, k + 1) ∧ e.y = ⟨k + 1, [y]⟩ ∧ e.st.innovation = inn ∧ e.st.kGain = K := by
  rw [fdStep_split] at h
  simp only [Res.bind_eq_ok (r := Obs.setMeasurement _ _ _ _ >>= _), Res.bind_eq_ok (r := EKF.getAMatrixFD _ _ >>= _),
    Res.bind_eq_ok (r := EKF.getCMatrixFD _ _ >>= _)] at h
  obtain ⟨s1, h1, s2, h2, s3, h3, h4⟩ := h
  have hnx : EKF.notCached s.st.xbar (k + 1) = true := EKF.notCached_of_lt fun x t hxt => by have := he.xbar x t hxt; omega
  have hny : EKF.notCached s.st.ybar (k + 1) = true := EKF.notCached_of_lt fun x t hxt => by have := he.ybar x t hxt; omega
  obtain ⟨k1, hsy, hb, hpop, m1, mt1, r1, hR, xb1, yb1⟩ := stageM hx he.y h1
  have x1 : s1.x = some (v, k) := k1.x.trans hx
  have p1 : s1.st.p = 0 := k1.p.trans he.p
  have f1 : s1.st.ext.f = some f := k1.f.trans hf
  obtain ⟨k2, y2, m2, mt2, r2, yb2, u2, xb, A, hxb, hA, hJA, xb2⟩ := stageA x1 p1 f1 (by rw [xb1]; exact hnx) h2
  have x2 : s2.x = some (v, k) := k2.x.trans x1
  have p2 : s2.st.p = 0 := k2.p.trans p1
  have f2 : s2.st.ext.f = some f := k2.f.trans f1
  obtain ⟨k3, y3, m3, mt3, r3, a3, xb3, hm, yb, C, hyb, hC, hJC, yb3⟩ := stageC x2 p2 f2 xb2 (by rw [yb2, yb1]; exact hny) u2 h3
  have x3 : s3.x = some (v, k) := k3.x.trans x2
  have p3 : s3.st.p = 0 := k3.p.trans p2
  obtain ⟨y', xhat, P, inn, K, yr, h8, h9, h10, -, rfl⟩ := EKF.step_cached x3 p3 (xb3.trans xb2) yb3 h4
  rw [y3, y2] at h8 h10
  have hyy : y' = y := Res.ok.inj (h8.symm.trans hb)
  subst hyy
  have hyr : yr = ⟨k + 1, [y']⟩ := Res.ok.inj (h10.symm.trans hpop)
  subst hyr
  have hmm : m = mt := by rw [← m1, ← mt1, ← m2, ← mt2, hm]
  subst hmm
  obtain ⟨R, rfl⟩ := (DMat.hasSize_iff _ _ _).1 hR
  obtain ⟨Q, hQ⟩ := (DMat.hasSize_iff _ _ _).1 he.q
  obtain ⟨P0, hP0⟩ := (DMat.hasSize_iff _ _ _).1 he.pr
  have nt1 : s1.st.nt = NT := k1.nt.trans he.nt
  have nt2 : s2.st.nt = NT := k2.nt.trans nt1
  have nt3 : s3.st.nt = NT := k3.nt.trans nt2
  have m2' : s2.st.m = m := m2.trans m1
  have ar1 : s1.st.arith = s.st.arith := k1.arith
  have ar2 : s2.st.arith = s.st.arith := k2.arith.trans ar1
  have ar3 : s3.st.arith = s.st.arith := k3.arith.trans ar2
  have a3' := a3.trans hA
  rw [ar1] at hJA
  rw [ar2] at hJC
  have q3 : s3.st.q = s.st.q := by rw [k3.q, k2.q, k1.q]
  have pr3 : s3.st.pr = s.st.pr := by rw [k3.pr, k2.pr, k1.pr]
  have mt3' : s3.st.mt = m := by rw [mt3, mt2, mt1]
  have r3' : s3.st.r = ⟨m, m, R⟩ := by rw [r3, r2, r1]
  have n3 : s3.st.n = N := by rw [k3.n, k2.n, k1.n, he.n]
  clear h1 h2 h3 h4 k1 k2 k3 hm r1 r2 r3 h8 h10 hb hpop y2 y3 m3 mt3 mt2 mt1 ar1 ar2 x1 x2 a3 hA f1 f2 p1 p2 m2 xb1 yb1 yb2
  generalize s1.st.nt = z1 at *
  generalize s2.st.nt = z2 at *
  generalize s2.st.m = z3 at *
  subst nt1 nt2 m2'
  exact ⟨xb, yb, xhat, inn, A, C, Q, P0, R, P, K, s3.st, hxb, hyb, rfl, hsy, rfl, hQ, hP0, hJA, hJC, ⟨nt3, mt3', a3', q3.trans hQ, pr3.trans hP0, hC, r3'⟩, ar3, h9,
    rfl, rfl, q3, ⟨n3, nt3, p3⟩, xb3.trans xb2, yb3, rfl, rfl, rfl⟩

/-- What one call of `update()` does with its filter (if it returns): prediction, Jacobians by finite differences, and the correction, at the next time. -/
theorem runFilter_ok {N NT : ℕ} {o : Observer} {y : DVec} {cov : DMat} {e : KFilter EKF.Ext} (hk : o.kData = o.kEst + 1) (he : EkfOk N NT o.ekf o.kEst)
    (h : o.runFilter y cov = .ok e) :
    ∃ (v xb yb xhat inn : DVec) (A : Matrix (Fin NT) (Fin NT) ℝ) (C : Matrix (Fin o.measSize) (Fin NT) ℝ)
      (Q P0 : Matrix (Fin NT) (Fin NT) ℝ) (R : Matrix (Fin o.measSize) (Fin o.measSize) ℝ) (P K : DMat) (st : KData EKF.Ext),
      o.ekf.x = some (v, o.kEst) ∧ o.stateDynamics v = .ok xb ∧ o.measureDynamics xb o.kData = .ok yb ∧ o.measSize = o.measTangentSize ∧
      y.size = o.measSize ∧ cov = ⟨o.measSize, o.measSize, R⟩ ∧ o.ekf.st.q = ⟨NT, NT, Q⟩ ∧ o.ekf.st.pr = ⟨NT, NT, P0⟩ ∧
      EKF.FDJacobian o.stateSum o.stateDynamics o.stateDifference o.dx v xb A ∧
      EKF.FDJacobian o.stateSum (fun x => o.measureDynamics x o.kData) (fun _ => DVec.sub) o.dx xb yb C ∧
      HasMats st NT o.measSize A Q P0 C R ∧ st.arith = o.arith ∧ correct st xb yb y = .ok (xhat, P, inn, K) ∧
      e.x = some (xhat, o.kData) ∧ e.st.pr = P ∧ e.st.q = o.ekf.st.q ∧ (e.st.n = N ∧ e.st.nt = NT ∧ e.st.p = 0) ∧
      e.st.xbar = some (xb, o.kData) ∧ e.st.ybar = some (yb, o.kData) ∧ e.y = ⟨o.kData, [y]⟩ ∧ e.st.innovation = inn ∧ e.st.kGain = K := by
  obtain ⟨v, hx, hv⟩ := he.x
  have hb : EkfOk N NT (o.bound o.ekf) o.kEst := ⟨he.n, he.nt, he.p, he.x, he.pr, he.q, he.xbar, he.ybar, he.y⟩
  have h' : fdStep (o.bound o.ekf) o.measSize o.measTangentSize y o.dx cov (o.kEst + 1) = .ok e := by rw [← hk]; exact h
  obtain ⟨xb, yb, xhat, inn, A, C, Q, P0, R, P, K, st, r1, r2, r3⟩ := fdStep_ok (f := o.functor) hb hx rfl h'
  rw [hk]
  exact ⟨v, xb, yb, xhat, inn, A, C, Q, P0, R, P, K, st, hx, r1, r2, r3⟩

end StateObs.KO
