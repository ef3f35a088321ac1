import Verif.EKF.FDGeneral
import Verif.EKF.StepForm
/-!
# One step of an extended filter whose input acts on the state

The facts of `EKF/FDGeneral.lean` for filters with `directInputStateFeedthrough`, and the effect of an estimation of one step.
-/

namespace StateObs.EKF
open StateObs KF KFSpec Matrix Obs
variable {n nt m p : ℕ}

/-- The filter at time `k` in state `x`, ready for a step: the input `u0` is given at time `k`, the sensors use `u1`. -/
structure Driven (s : KFilter Ext) (x : Fin n → ℝ) (k : Int) (f : Functor) (F : (Fin n → ℝ) → (Fin n → ℝ)) (H : (Fin n → ℝ) → (Fin m → ℝ))
    (u0 u1 : Fin p → ℝ) : Prop where
  hn : s.st.n = n
  hm : s.st.m = m
  hmt : s.st.mt = m
  hp : s.st.p = p
  pos : 0 < p
  hx : s.x = some (⟨n, x⟩, k)
  hu : s.u.get k = .ok ⟨p, u0⟩
  hs : EKF.sensorInput s (k + 1) = .ok ⟨p, u1⟩
  hf : s.st.ext.f = some f
  dir : s.st.ext.dirState = true
  hF : ∀ z, f.stateDynamics ⟨n, z⟩ ⟨p, u0⟩ k = .ok ⟨n, F z⟩
  hH : ∀ z, f.measureDynamics ⟨n, z⟩ ⟨p, u1⟩ (k + 1) = .ok ⟨m, H z⟩

variable {s : KFilter Ext} {x : Fin n → ℝ} {k : Int} {f : Functor} {F : (Fin n → ℝ) → (Fin n → ℝ)} {H : (Fin n → ℝ) → (Fin m → ℝ)} {u0 u1 : Fin p → ℝ}

theorem Driven.predict (h : Driven s x k f F H u0 u1) (hc : notCached s.st.xbar (k + 1) = true) :
    prediction s (k + 1) = .ok { s with st := { s.st with
      xbar := some (⟨n, F x⟩, k + 1)
      ext := { s.st.ext with optU := ⟨p, u0⟩ } } } := by
  have hpos : s.st.p > 0 := by rw [h.hp]; exact h.pos
  unfold prediction
  rw [if_pos hc, if_pos ⟨hpos, h.dir⟩, show k + 1 - 1 = k by omega, get_assert', h.hu]
  simp only [Res.ok_bind, h.hf, h.hx, h.hF]

theorem sensorInput_congr (s t : KFilter Ext) (k : Int) (hp : 0 < s.st.p) (h1 : t.st.p = s.st.p) (h2 : t.st.ext.dirOut = s.st.ext.dirOut) (h3 : t.u = s.u) :
    EKF.sensorInput t k = EKF.sensorInput s k := by
  unfold EKF.sensorInput
  rw [h1, if_pos hp, if_pos hp, h2, h3]

theorem Driven.getA (h : Driven s x k f F H u0 u1) (hnt : s.st.nt = n) (ar : s.st.arith = Arith.default)
    (hc : notCached s.st.xbar (k + 1) = true) (dx : Fin n → ℝ) :
    getAMatrixFD s ⟨n, dx⟩ = .ok (⟨n, n, forwardDiff F dx x⟩, { s with st := { s.st with
      xbar := some (⟨n, F x⟩, k + 1)
      ext := { s.st.ext with optU := ⟨p, u0⟩ } } }) := by
  obtain ⟨sx, sy, su, ⟨sn, snt, sm, smt, sp, sa, sc, sq, sr, spr, sxb, syb, sin, skg, sar, ⟨sf, sdo, sds, sou⟩⟩⟩ := s
  have hp0 := h.predict hc
  obtain ⟨h1, h3, h4, h5, hp, h7, hu, hs, h8, hdir, hF, hH⟩ := h
  simp only at h1 h3 h4 h5 h7 h8 hdir hnt ar
  subst hnt h3 h4 h5 ar h7 h8 hdir h1
  simp only at hu hc hp0
  simp only [getAMatrixFD, updateStatePrediction, Obs.getCurrentTime, Res.ok_bind, hp0, val, hp, if_true, hu]
  rw [cols_ok sn _ (fun j r => forwardDiff F dx x r j)]
  · rfl
  · intro j
    simp only [colA, DVec.at, j.2, dif_pos, Res.ok_bind, unitVec, Arith.default, DVec.add_mk, hF, val, DVec.sub_mk, DVec.divBy, asCol_mk]
    rfl

theorem Driven.sense (h : Driven s x k f F H u0 u1) (xb : Fin n → ℝ) (hx : s.st.xbar = some (⟨n, xb⟩, k + 1))
    (hc : notCached s.st.ybar (k + 1) = true) : predictSensor s (k + 1) = .ok { s with st := { s.st with
      ybar := some (⟨m, H xb⟩, k + 1)
      ext := { s.st.ext with optU := ⟨p, u1⟩ } } } := by
  simp only [predictSensor, hc, if_true, hx, val, Res.ok_bind, simulateSensor, h.hf, h.hs, h.hH]

theorem Driven.getC (h : Driven s x k f F H u0 u1) (hnt : s.st.nt = n) (ar : s.st.arith = Arith.default) (xb : Fin n → ℝ)
    (hx : s.st.xbar = some (⟨n, xb⟩, k + 1)) (hc : notCached s.st.ybar (k + 1) = true) (hn : 0 < n) (dx : Fin n → ℝ) :
    getCMatrixFD s ⟨n, dx⟩ = .ok (⟨m, n, forwardDiff H dx xb⟩, { s with st := { s.st with
      ybar := some (⟨m, H xb⟩, k + 1)
      ext := { s.st.ext with optU := ⟨p, u1⟩ } } }) := by
  have hsense := h.sense xb hx hc
  have hpos : 0 < s.st.p := by rw [h.hp]; exact h.pos
  have hs' : EKF.sensorInput { s with st := { s.st with ybar := some (⟨m, H xb⟩, k + 1), ext := { s.st.ext with optU := ⟨p, u1⟩ } } } (k + 1) = .ok ⟨p, u1⟩ := by
    rw [← h.hs]
    exact sensorInput_congr _ _ _ hpos rfl rfl rfl
  obtain ⟨sx, sy, su, ⟨sn, snt, sm, smt, sp, sa, sc, sq, sr, spr, sxb, syb, sin, skg, sar, ⟨sf, sdo, sds, sou⟩⟩⟩ := s
  obtain ⟨h1, h3, h4, h5, hp, h7, hu, hs, h8, hdir, hF, hH⟩ := h
  simp only at h1 h3 h4 h5 h7 h8 hdir hnt ar hx
  subst hnt h3 h4 h5 ar h7 h8 hdir h1 hx
  simp only at hu hc hsense hs'
  simp only [getCMatrixFD, updateStateAndMeasurementPrediction, updateStatePrediction, Obs.getCurrentTime, Res.ok_bind, prediction, notCached_self,
    Bool.false_eq_true, if_false, hsense]
  rw [cols_ok sn _ (fun j r => forwardDiff H dx xb r j)]
  · simp only [hn, if_true, Res.ok_bind, hs']
  · intro j
    simp only [colC, DVec.at, j.2, dif_pos, Res.ok_bind, val, unitVec, Arith.default, DVec.add_mk, simulateSensor]
    have hs2 := hs'
    simp only [Arith.default] at hs2
    rw [hs2]
    simp only [Res.ok_bind, hH, DVec.sub_mk, DVec.divBy, asCol_mk]
    rfl

/-- One step of estimation when the state prediction is stored; `s'` is the filter once the measurement is predicted. -/
theorem estimate_one {s s' : KFilter Ext} {A Q P : Matrix (Fin nt) (Fin nt) ℝ} {C : Matrix (Fin m) (Fin nt) ℝ} {R : Matrix (Fin m) (Fin m) ℝ}
    (h : HasMats s.st nt m A Q P C R) (h' : HasMats s'.st nt m A Q P C R) (hQ : Q.PosSemidef) (hP : P.PosSemidef) (hR : R.PosDef)
    (x : DVec) (k : Int) (hx : s.x = some (x, k)) (xb : Fin n → ℝ) (yb y : Fin m → ℝ) (hxb : s.st.xbar = some (⟨n, xb⟩, k + 1))
    (hps : predictSensor s (k + 1) = .ok s') (hxb' : s'.st.xbar = some (⟨n, xb⟩, k + 1)) (hyb' : s'.st.ybar = some (⟨m, yb⟩, k + 1))
    (hpp : 0 < s.st.p) (hy : s.y = ⟨k + 1, [⟨m, y⟩]⟩) (hy' : s'.y = s.y) (u0 : DVec) (ws : List DVec) (hu' : s'.u = ⟨k, u0 :: ws⟩)
    (z : Fin n → ℝ) (hmd : s'.st.arith.measurementDifference ⟨m, y⟩ ⟨m, yb⟩ = .ok ⟨m, y - yb⟩)
    (hsum : s'.st.arith.stateSum ⟨n, xb⟩ ⟨nt, gain C R (predCov A Q P) *ᵥ (y - yb)⟩ = .ok ⟨n, z⟩) :
    EKF.getEstimatedState s (k + 1) = .ok { s' with
      x := some (⟨n, z⟩, k + 1)
      u := ⟨k + 1, ws⟩
      st := { s'.st with
        pr := ⟨nt, nt, posterior C R (predCov A Q P)⟩
        innovation := ⟨nt, gain C R (predCov A Q P) *ᵥ (y - yb)⟩
        kGain := ⟨nt, m, gain C R (predCov A Q P)⟩ } } := by
  obtain ⟨h1, h2, h3, h4, h5⟩ := h.checks
  have hc : (decide (s.y.size > 0) && s.y.checkIndex (k + 1)) = true := by rw [hy]; simp [IArr.size, IArr.checkIndex]
  have hg : s'.y.get (k + 1) = .ok ⟨m, y⟩ := by rw [hy', hy]; simp [IArr.get, IArr.checkIndex]
  have e1 : prediction s (k + 1) = .ok s := by simp [prediction, hxb]
  have hst : oneStep virt s = .ok { s' with
      x := some (⟨n, z⟩, k + 1)
      st := { s'.st with
        pr := ⟨nt, nt, posterior C R (predCov A Q P)⟩
        innovation := ⟨nt, gain C R (predCov A Q P) *ᵥ (y - yb)⟩
        kGain := ⟨nt, m, gain C R (predCov A Q P)⟩ } } := by
    unfold oneStep
    rw [hx]
    simp only [hc, h1, h2, h3, h4, h5, Res.assert_true, Res.ok_bind, virt, e1, hps]
    simp only [hxb', hyb', val, Res.ok_bind, hg]
    rw [correct_eq h' hQ hP hR]
    simp only [hmd, Res.ok_bind, DMat.mulVec_mk, hsum]
  have hpp' : (cfg s).p > 0 := hpp
  have hyy : s'.y = ⟨k + 1, [⟨m, y⟩]⟩ := hy'.trans hy
  simp only [EKF.getEstimatedState, KF.getEstimatedState, Obs.getEstimatedState, getCurrentTime, hx, Res.ok_bind,
      show decide (k ≤ k + 1) = true by simp, Res.assert_true, show (k + 1 - k).toNat = 1 by omega, loop, loopBody]
  rw [hst]
  simp only [Res.ok_bind, hpp', if_true, hyy, hu']
  simp [popIf, IArr.getFirstIndex, IArr.popFront]

/-- `setState` at the time of the last measurement. -/
theorem setState_now (f : KFilter Ext) (w : Fin n → ℝ) (k : Int) (hn : f.st.n = n) (hp : 0 < f.st.p) (y : DVec) (hy : f.y = ⟨k + 1, [y]⟩) (ws : List DVec)
    (hu : f.u = ⟨k + 1, ws⟩) : Obs.setState (cfg f) f ⟨n, w⟩ (k + 1) = .ok { f with x := some (⟨n, w⟩, k + 1), y := ⟨k + 2, []⟩ } := by
  have hp' : (cfg f).p > 0 := hp
  have h1 : (cfg f).okX ⟨n, w⟩ = true := by show DVec.hasSize ⟨n, w⟩ f.st.n = true; rw [hn, DVec.hasSize_mk]
  have e : dropUpTo k (k + 1) ws = ⟨k + 1, ws⟩ := by cases ws <;> simp [dropUpTo]
  simp only [Obs.setState, h1, Res.assert_true, Res.ok_bind, getCurrentTime, lt_irrefl, if_false, hp', if_true, hy, hu, add_sub_cancel_right, e]
  obtain ⟨fx, fy, fu, fs⟩ := f
  simp only at hu
  subst hu
  simp [dropUpTo]
  omega

end StateObs.EKF
