import Verif.KO.UpdLemmas
/-!
# When the calls of `update()` on its filter return
-/

namespace StateObs.EKF
open StateObs KF

theorem cols_live {α : Type} : ∀ (n : ℕ) (f : Fin n → Res α), (∀ i, ∃ a, f i = .ok a) → ∃ g, cols n f = .ok g
  | 0, f, _ => ⟨Fin.elim0, rfl⟩
  | n + 1, f, h => by
    obtain ⟨a, ha⟩ := h 0
    obtain ⟨r, hr⟩ := cols_live n (fun i => f i.succ) (fun i => h i.succ)
    exact ⟨Fin.cons a r, by simp only [cols, ha, hr, Res.ok_bind]⟩

theorem asCol_live {m : ℕ} {v : DVec} {h : ℝ} (e : v.size = m) : ∃ c, asCol m (v.divBy h) = .ok c := by
  unfold asCol
  rw [dif_pos (by simpa [DVec.divBy] using e)]
  exact ⟨_, rfl⟩

theorem at_live {v : DVec} {i : ℕ} (h : i < v.size) : ∃ a, DVec.at v i = .ok a := by
  unfold DVec.at
  rw [dif_pos h]
  exact ⟨_, rfl⟩

theorem getAMatrixFD_live {s : KFilter Ext} {v xb dx : DVec} {k : Int} {f : Functor} (hx : s.x = some (v, k)) (hp : s.st.p = 0)
    (hf : s.st.ext.f = some f) (hc : notCached s.st.xbar (k + 1) = true) (hd : dx.size = s.st.nt) (hxb : f.stateDynamics v (DVec.zero 0) k = .ok xb)
    (hcol : ∀ w : DVec, w.size = s.st.nt → ∃ x' xp d, s.st.arith.stateSum v w = .ok x' ∧ f.stateDynamics x' (DVec.zero 0) k = .ok xp ∧
      s.st.arith.stateDifference w xp xb = .ok d ∧ d.size = s.st.nt) : ∃ r, getAMatrixFD s dx = .ok r := by
  have hk : s.getCurrentTime = .ok k := by simp [Obs.getCurrentTime, hx]
  have hp0 : ¬ s.st.p > 0 := by omega
  have ev : val s.x = .ok v := by rw [hx]; rfl
  obtain ⟨g, hg⟩ := cols_live s.st.nt (colA { s with st := { s.st with xbar := some (xb, k + 1), ext := { s.st.ext with optU := DVec.zero 0 } } } dx (DVec.zero 0) v k)
    (fun i => by
      obtain ⟨h, eh⟩ := at_live (v := dx) (i := i) (by rw [hd]; exact i.2)
      obtain ⟨x', xp, d, e1, e2, e3, e4⟩ := hcol (unitVec s.st.nt i h) rfl
      obtain ⟨c, ec⟩ := asCol_live (h := h) e4
      refine ⟨c, ?_⟩
      simp only [colA, eh, Res.ok_bind, e1, hf, val, e2, e3, ec])
  refine ⟨(⟨s.st.nt, s.st.nt, fun r c' => g c' r⟩, { s with st := { s.st with xbar := some (xb, k + 1), ext := { s.st.ext with optU := DVec.zero 0 } } }), ?_⟩
  simp only [getAMatrixFD, updateStatePrediction, hk, Res.ok_bind, prediction_fresh hx hp hf hc, hxb, ev, if_neg hp0]
  rw [hg, Res.ok_bind]

theorem getCMatrixFD_live {s : KFilter Ext} {v xb yb dx : DVec} {k : Int} {f : Functor} (hx : s.x = some (v, k)) (hp : s.st.p = 0)
    (hf : s.st.ext.f = some f) (hc : s.st.xbar = some (xb, k + 1)) (hy : notCached s.st.ybar (k + 1) = true) (hd : dx.size = s.st.nt)
    (hyb : f.measureDynamics xb s.st.ext.optU (k + 1) = .ok yb) (hybs : yb.size = s.st.m)
    (hcol : ∀ w : DVec, w.size = s.st.nt → ∃ x' yp, s.st.arith.stateSum xb w = .ok x' ∧ f.measureDynamics x' s.st.ext.optU (k + 1) = .ok yp ∧
      yp.size = s.st.m) : ∃ r, getCMatrixFD s dx = .ok r := by
  have hk : s.getCurrentTime = .ok k := by simp [Obs.getCurrentTime, hx]
  have hp0 : ¬ s.st.p > 0 := by omega
  have e1 : updateStateAndMeasurementPrediction s = predictSensor s (k + 1) := by
    simp only [updateStateAndMeasurementPrediction, updateStatePrediction, hk, Res.ok_bind, prediction_cached hc]
  obtain ⟨g, hg⟩ := cols_live s.st.nt (colC { s with st := { s.st with ybar := some (yb, k + 1) } } dx (k + 1))
    (fun i => by
      obtain ⟨h, eh⟩ := at_live (v := dx) (i := i) (by rw [hd]; exact i.2)
      obtain ⟨x', yp, e1, e2, e3⟩ := hcol (unitVec s.st.nt i h) rfl
      obtain ⟨d, ed, hds⟩ : ∃ d, yp.sub yb = .ok d ∧ d.size = s.st.m := by
        obtain ⟨n1, v1⟩ := yp
        obtain ⟨n2, v2⟩ := yb
        simp only at e3 hybs
        subst e3
        subst hybs
        rw [DVec.sub_mk]
        exact ⟨_, rfl, rfl⟩
      obtain ⟨c, ec⟩ := asCol_live (h := h) hds
      refine ⟨c, ?_⟩
      simp only [colC, eh, Res.ok_bind, hc, e1, hf, val, simulateSensor, sensorInput, if_neg hp0, e2, ed, ec])
  refine ⟨(⟨s.st.m, s.st.nt, fun r c' => g c' r⟩, { s with st := { s.st with ybar := some (yb, k + 1) } }), ?_⟩
  rw [getCMatrixFD, hk, Res.ok_bind, e1, predictSensor_form s xb (k + 1) k hc, sensE, if_pos hy, hf]
  simp only [sensU, if_neg hp0, Res.ok_bind, hyb]
  rw [prediction_cached (xb := xb) (by simpa using hc), Res.ok_bind]
  rw [hg, Res.ok_bind]
  simp only [sensorInput, if_neg hp0]
  split_ifs <;> rfl

theorem step_live {s : KFilter Ext} {v xb yb y : DVec} {k : Int} (hx : s.x = some (v, k)) (hp : s.st.p = 0)
    (hc : s.st.xbar = some (xb, k + 1)) (hy : s.st.ybar = some (yb, k + 1)) {nt mt A Q P C R} (hm : HasMats s.st nt mt A Q P C R)
    (hg : s.y.get (k + 1) = .ok y) {yr} (hpop : Obs.popIf (k + 1) s.y = .ok yr) {r} (hcor : correct s.st xb yb y = .ok r) : ∃ s', getEstimatedState s (k + 1) = .ok s' := by
  have hk : s.getCurrentTime = .ok k := by simp [Obs.getCurrentTime, hx]
  have hn : (k + 1 - k).toNat = 1 := by omega
  obtain ⟨c1, c2, c3, c4, c5⟩ := hm.checks
  rw [getEstimatedState, KF.getEstimatedState, oneStep_form, Obs.getEstimatedState, hk, Res.ok_bind, hn]
  have h1 : Res.assert (decide (k ≤ k + 1)) = .ok () := by simp [Res.assert]
  rw [h1, Res.ok_bind]
  refine ⟨{ s with x := some (r.1, k + 1), y := yr, st := { s.st with pr := r.2.1, innovation := r.2.2.1, kGain := r.2.2.2 } }, ?_⟩
  have hp0 : ¬ s.st.p > 0 := by omega
  have t : Res.assert true = .ok () := rfl
  simp only [Obs.loop, Obs.loopBody, Obs.kalmanStep, hx, hg, Res.ok_bind, stepF, c1, c2, c3, c4, c5, t, predE, hc, notCached_self, Bool.false_eq_true, if_false, sensE, hy,
    val, hcor, hpop, cfg, hp0]

end StateObs.EKF

namespace StateObs.KO
open StateObs Matrix Rot Kine KF

theorem stageM_live {s : KFilter EKF.Ext} {m mt : ℕ} {y v : DVec} {cov : DMat} {k : Int} (hx : s.x = some (v, k))
    (hy : s.y.v = [] ∨ s.y.k = k ∧ s.y.v.length = 1) (hm : y.size = m) (hc : cov.hasSize mt mt = true) :
    ∃ s', (Obs.setMeasurement (KF.cfg (KF.setMeasureSize2 s m mt)) (KF.setMeasureSize2 s m mt) y (k + 1) >>= fun e => KF.setR e cov) = .ok s' := by
  obtain ⟨c0, r0, y0, hs, hy0⟩ := setMeasureSize2_ok s m mt
  rw [hs]
  have h0 : y0.v = [] ∨ y0.k = k ∧ y0.v.length = 1 := by
    rcases hy0 with rfl | h0
    · exact hy
    · exact Or.inl h0
  have t : Res.assert true = .ok () := rfl
  have key : ∃ b, y0.setValue y (k + 1) = .ok b := by
    rcases h0 with h0 | ⟨hk, hl⟩
    · simp [IArr.setValue, IArr.checkIndex, IArr.checkNext, h0, t]
    · obtain ⟨y1, hy1⟩ := List.length_eq_one_iff.1 hl
      simp [IArr.setValue, IArr.checkIndex, IArr.checkNext, hy1, hk, t]
  obtain ⟨b, hb⟩ := key
  have h1 : (KF.cfg ({ s with y := y0, st := { s.st with m := m, mt := mt, c := c0, r := r0 } } : KFilter EKF.Ext)).okY y = true := by simp [cfg, DVec.hasSize, hm]
  have h2 : Obs.setMeasurement (KF.cfg ({ s with y := y0, st := { s.st with m := m, mt := mt, c := c0, r := r0 } } : KFilter EKF.Ext))
      ({ s with y := y0, st := { s.st with m := m, mt := mt, c := c0, r := r0 } } : KFilter EKF.Ext) y (k + 1) =
      .ok { s with y := b, st := { s.st with m := m, mt := mt, c := c0, r := r0 } } := by
    rw [Obs.setMeasurement, h1, t, Res.ok_bind]
    split_ifs with hz
    · have : (decide (y0.getNextIndex = k + 1) || y0.checkIndex (k + 1)) = true := by
        rcases h0 with h0 | ⟨hk, hl⟩
        · simp [IArr.size, h0] at hz
        · simp [IArr.getNextIndex, hk, hl]
      simp only [this, t, Res.ok_bind, hb]
    · have e : decide (k = k + 1 - 1) = true := by simp
      simp only [hx, e, t, Res.ok_bind, hb]
  rw [h2, Res.ok_bind, setR]
  have h3 : KData.checkR ({ s.st with m := m, mt := mt, c := c0, r := r0 } : KData EKF.Ext) cov = true := hc
  simp only [h3, t, Res.ok_bind]
  exact ⟨_, rfl⟩

/-- The calls of `update()` on a filter return, if the functions of the model do. -/
theorem fdStep_live {N NT : ℕ} {s : KFilter EKF.Ext} {f : EKF.Functor} {m : ℕ} {y dx v : DVec} {k : Int} {R : Matrix (Fin m) (Fin m) ℝ}
    (he : EkfOk N NT s k) (hx : s.x = some (v, k)) (hf : s.st.ext.f = some f) (Good : DVec → Prop) (hv : Good v)
    (hdyn : ∀ x, Good x → ∃ x', f.stateDynamics x (DVec.zero 0) k = .ok x' ∧ Good x')
    (hsum : ∀ x d, Good x → d.size = NT → ∃ x', s.st.arith.stateSum x d = .ok x' ∧ Good x')
    (hdiff : ∀ w x x', w.size = NT → Good x → Good x' → ∃ d, s.st.arith.stateDifference w x x' = .ok d ∧ d.size = NT)
    (hmeas : ∀ x, Good x → ∃ y, f.measureDynamics x (DVec.zero 0) (k + 1) = .ok y ∧ y.size = m)
    (hmd : ∀ y y' : DVec, y.size = m → y'.size = m → ∃ d, s.st.arith.measurementDifference y y' = .ok d ∧ d.size = m)
    (hd : dx.size = NT) (hys : y.size = m) (hR : R.PosDef) (hQ : IsPSD s.st.q) (hP : IsPSD s.st.pr) :
    ∃ e xhat, fdStep s m m y dx ⟨m, m, R⟩ (k + 1) = .ok e ∧ e.x = some (xhat, k + 1) ∧ Good xhat := by
  obtain ⟨s1, h1⟩ := stageM_live (mt := m) (cov := ⟨m, m, R⟩) hx he.y hys (by simp [DMat.hasSize])
  obtain ⟨k1, hsy, hb, hpop, m1, mt1, r1, -, xb1, yb1⟩ := stageM hx he.y h1
  have x1 : s1.x = some (v, k) := k1.x.trans hx
  have p1 : s1.st.p = 0 := k1.p.trans he.p
  have f1 : s1.st.ext.f = some f := k1.f.trans hf
  have nt1 : s1.st.nt = NT := k1.nt.trans he.nt
  have hnx : EKF.notCached s.st.xbar (k + 1) = true := EKF.notCached_of_lt fun x t hxt => by have := he.xbar x t hxt; omega
  have hny : EKF.notCached s.st.ybar (k + 1) = true := EKF.notCached_of_lt fun x t hxt => by have := he.ybar x t hxt; omega
  obtain ⟨xb, hxb, gxb⟩ := hdyn v hv
  obtain ⟨⟨A', s2'⟩, hA⟩ := EKF.getAMatrixFD_live (dx := dx) x1 p1 f1 (by rw [xb1]; exact hnx) (by rw [nt1, hd]) hxb (fun w hw => by
    rw [nt1] at hw ⊢
    rw [k1.arith]
    obtain ⟨x', e1, g1⟩ := hsum v w hv hw
    obtain ⟨xp, e2, g2⟩ := hdyn x' g1
    obtain ⟨d, e3, g3⟩ := hdiff w xp xb hw g2 gxb
    exact ⟨x', xp, d, e1, e2, e3, g3⟩)
  obtain ⟨s2, h2⟩ : ∃ s2, (EKF.getAMatrixFD s1 dx >>= fun A => KF.setA A.2 A.1) = .ok s2 := by
    obtain ⟨xb', M, -, rfl, -, rfl⟩ := EKF.getAMatrixFD_ok x1 p1 f1 (by rw [xb1]; exact hnx) hA
    rw [hA, Res.ok_bind, setA]
    have : Res.assert (KData.checkA ({ s1.st with xbar := some (xb', k + 1), ext := { s1.st.ext with optU := DVec.zero 0 } } : KData EKF.Ext) ⟨s1.st.nt, s1.st.nt, M⟩) = .ok () := by
      simp [KData.checkA, Res.assert]
    rw [this, Res.ok_bind]
    exact ⟨_, rfl⟩
  obtain ⟨k2, y2, m2, mt2, r2, yb2, u2, xb', A, hxb', hA', -, xb2⟩ := stageA x1 p1 f1 (by rw [xb1]; exact hnx) h2
  have := Res.ok.inj (hxb.symm.trans hxb')
  subst this
  have x2 : s2.x = some (v, k) := k2.x.trans x1
  have p2 : s2.st.p = 0 := k2.p.trans p1
  have f2 : s2.st.ext.f = some f := k2.f.trans f1
  have nt2 : s2.st.nt = NT := k2.nt.trans nt1
  obtain ⟨yb, hyb, gyb⟩ := hmeas xb gxb
  have hm2 : s2.st.m = m := m2.trans m1
  obtain ⟨⟨C', s3'⟩, hC⟩ := EKF.getCMatrixFD_live (dx := dx) (yb := yb) x2 p2 f2 xb2 (by rw [yb2, yb1]; exact hny) (by rw [nt2, hd]) (by rw [u2]; exact hyb) (by rw [hm2, gyb])
    (fun w hw => by
      rw [nt2] at hw
      rw [hm2, u2, k2.arith, k1.arith]
      obtain ⟨x', e1, g1⟩ := hsum xb w gxb hw
      obtain ⟨yp, e2, g2⟩ := hmeas x' g1
      exact ⟨x', yp, e1, e2, g2⟩)
  obtain ⟨s3, h3⟩ : ∃ s3, (EKF.getCMatrixFD s2 dx >>= fun A => KF.setC A.2 A.1) = .ok s3 := by
    obtain ⟨yb', M, -, rfl, -, rfl⟩ := EKF.getCMatrixFD_ok x2 p2 f2 xb2 (by rw [yb2, yb1]; exact hny) hC
    rw [hC, Res.ok_bind, setC]
    have : Res.assert (KData.checkC ({ s2.st with ybar := some (yb', k + 1) } : KData EKF.Ext) ⟨s2.st.m, s2.st.nt, M⟩) = .ok () := by
      simp [KData.checkC, DMat.hasSize, Res.assert, hm2, mt2, mt1]
    rw [this, Res.ok_bind]
    exact ⟨_, rfl⟩
  obtain ⟨k3, y3, m3, mt3, r3, a3, xb3, hmm, yb', C, hyb', hC', -, yb3⟩ := stageC x2 p2 f2 xb2 (by rw [yb2, yb1]; exact hny) u2 h3
  have := Res.ok.inj (hyb.symm.trans hyb')
  subst this
  obtain ⟨Q, hQ'⟩ := (DMat.hasSize_iff _ _ _).1 he.q
  obtain ⟨P0, hP0⟩ := (DMat.hasSize_iff _ _ _).1 he.pr
  rw [hQ'] at hQ
  rw [hP0] at hP
  have hQ := isPSD_mk.1 hQ
  have hP := isPSD_mk.1 hP
  obtain ⟨A2, hA2⟩ : ∃ A2, s3.st.a = ⟨NT, NT, A2⟩ := (DMat.hasSize_iff _ _ _).1 (by rw [a3, hA']; simp [DMat.hasSize, nt1])
  obtain ⟨C2, hC2⟩ : ∃ C2, s3.st.c = ⟨m, NT, C2⟩ := (DMat.hasSize_iff _ _ _).1 (by rw [hC']; simp [DMat.hasSize, nt2, hm2])
  have hm : HasMats s3.st NT m A2 Q P0 C2 R := ⟨k3.nt.trans nt2, by rw [mt3, mt2, mt1], hA2, by rw [k3.q, k2.q, k1.q, hQ'], by rw [k3.pr, k2.pr, k1.pr, hP0], hC2, by rw [r3, r2, r1]⟩
  obtain ⟨r, hr⟩ : ∃ r, correct s3.st xb yb y = .ok r := by
    rw [correct_eq hm hQ hP hR, k3.arith, k2.arith, k1.arith]
    obtain ⟨⟨nd, d⟩, e1, hds⟩ := hmd y yb hys gyb
    simp only at hds
    subst hds
    rw [e1, Res.ok_bind]
    obtain ⟨w, ew, hw⟩ : ∃ w, (⟨NT, nd, KFSpec.gain C2 R (KFSpec.predCov A2 Q P0)⟩ : DMat).mulVec ⟨nd, d⟩ = .ok w ∧ w.size = NT := by
      unfold DMat.mulVec
      rw [dif_pos rfl]
      exact ⟨_, rfl, rfl⟩
    rw [ew, Res.ok_bind]
    obtain ⟨x', e2, g2⟩ := hsum xb w gxb hw
    rw [e2, Res.ok_bind]
    exact ⟨_, rfl⟩
  obtain ⟨e, h4⟩ := EKF.step_live (k3.x.trans x2) (k3.p.trans p2) (xb3.trans xb2) yb3 hm (by rw [y3, y2]; exact hb) (by rw [y3, y2]; exact hpop) hr
  have hfin : fdStep s m m y dx ⟨m, m, R⟩ (k + 1) = .ok e := by
    rw [fdStep_split, h1, Res.ok_bind, h2, Res.ok_bind, h3, Res.ok_bind, h4]
  obtain ⟨xb0, yb0, xhat, inn, A0, C0, Q0, P00, R0, P, K, st, q1, -, -, -, -, -, -, -, -, hmm0, ea, hc, ex, -⟩ := fdStep_ok he hx hf hfin
  have := Res.ok.inj (hxb.symm.trans q1)
  subst this
  obtain ⟨-, -, hi, hs⟩ := correct_size hmm0 hc
  rw [ea] at hs
  obtain ⟨x', e2, g2⟩ := hsum xb inn gxb hi
  have := Res.ok.inj (e2.symm.trans hs)
  subst this
  exact ⟨e, x', hfin, ex, g2⟩

end StateObs.KO
