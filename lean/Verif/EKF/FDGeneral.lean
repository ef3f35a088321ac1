import Verif.EKF.AffineProps
/-!
# Finite differences and step of the extended filter, for any functor

The same facts as for affine models (`AffineProps.lean`), for arbitrary dynamics `F` and measurement `H`.
-/

namespace StateObs.EKF
open StateObs KF KFSpec Matrix
variable {n m p : ℕ}

/-- Forward differences of `F` at `x` with steps `dx`. -/
noncomputable def forwardDiff {a : ℕ} (F : (Fin n → ℝ) → (Fin a → ℝ)) (dx x : Fin n → ℝ) : Matrix (Fin a) (Fin n) ℝ :=
  fun r c => (F (fun j => x j + if j = c then dx c else 0) r - F x r) / dx c

/-- The filter at time `k` in state `x`, ready for a step, with dynamics `F` and measurement `H` (inputs included). -/
structure Armed (s : KFilter Ext) (x : Fin n → ℝ) (k : Int) (f : Functor) (F : (Fin n → ℝ) → (Fin n → ℝ)) (H : (Fin n → ℝ) → (Fin m → ℝ))
    (u : Fin p → ℝ) : Prop where
  hn : s.st.n = n
  hnt : s.st.nt = n
  hm : s.st.m = m
  hmt : s.st.mt = m
  hp : s.st.p = p
  pos : 0 < p
  ar : s.st.arith = Arith.default
  hx : s.x = some (⟨n, x⟩, k)
  hu : s.u.get (k + 1) = .ok ⟨p, u⟩
  hf : s.st.ext.f = some f
  dir : s.st.ext.dirState = false
  hF : ∀ z, f.stateDynamics ⟨n, z⟩ (DVec.zero p) k = .ok ⟨n, F z⟩
  hH : ∀ z, f.measureDynamics ⟨n, z⟩ ⟨p, u⟩ (k + 1) = .ok ⟨m, H z⟩

variable {s : KFilter Ext} {x : Fin n → ℝ} {k : Int} {f : Functor} {F : (Fin n → ℝ) → (Fin n → ℝ)} {H : (Fin n → ℝ) → (Fin m → ℝ)} {u : Fin p → ℝ}

theorem Armed.predict (h : Armed s x k f F H u) (hc : notCached s.st.xbar (k + 1) = true) :
    prediction s (k + 1) = .ok { s with st := { s.st with
      xbar := some (⟨n, F x⟩, k + 1)
      ext := { s.st.ext with optU := DVec.zero p } } } := by
  unfold prediction
  rw [if_pos hc, if_neg (by simp [h.dir])]
  simp only [Res.ok_bind, h.hf, h.hx, h.hp, h.hF]

theorem Armed.sensorInput (h : Armed s x k f F H u) : sensorInput s (k + 1) = .ok ⟨p, u⟩ := by
  have hk : s.u.checkIndex (k + 1) = true := by
    cases hc : s.u.checkIndex (k + 1) with
    | true => rfl
    | false => have := h.hu; simp [IArr.get, hc] at this
  unfold EKF.sensorInput
  rw [if_pos (by rw [h.hp]; exact h.pos), hk, h.hu]
  simp

theorem Armed.getA (h : Armed s x k f F H u) (hc : notCached s.st.xbar (k + 1) = true) (dx : Fin n → ℝ) :
    getAMatrixFD s ⟨n, dx⟩ = .ok (⟨n, n, forwardDiff F dx x⟩, { s with st := { s.st with
      xbar := some (⟨n, F x⟩, k + 1)
      ext := { s.st.ext with optU := DVec.zero p } } }) := by
  obtain ⟨sx, sy, su, ⟨sn, snt, sm, smt, sp, sa, sc, sq, sr, spr, sxb, syb, sin, skg, sar, ⟨sf, sdo, sds, sou⟩⟩⟩ := s
  have hp0 := h.predict hc
  obtain ⟨h1, h2, h3, h4, h5, hp, h6, h7, hu, h8, hdir, hF, hH⟩ := h
  simp only at h1 h2 h3 h4 h5 h6 h7 h8 hdir
  subst h1 h2 h3 h4 h5 h6 h7 h8 hdir
  simp only at hu hc hp0
  simp only [getAMatrixFD, updateStatePrediction, Obs.getCurrentTime, Res.ok_bind, hp0, val, hp, if_true, Bool.false_eq_true, if_false]
  rw [cols_ok snt _ (fun j r => forwardDiff F dx x r j)]
  · rfl
  · intro j
    simp only [colA, DVec.at, j.2, dif_pos, Res.ok_bind, unitVec, Arith.default, DVec.add_mk, hF, val, DVec.sub_mk, DVec.divBy, asCol_mk]
    rfl

theorem Armed.getC (h : Armed s x k f F H u) (xb : Fin n → ℝ) (hx : s.st.xbar = some (⟨n, xb⟩, k + 1))
    (hc : notCached s.st.ybar (k + 1) = true) (hn : 0 < n) (dx : Fin n → ℝ) :
    getCMatrixFD s ⟨n, dx⟩ = .ok (⟨m, n, forwardDiff H dx xb⟩, { s with st := { s.st with
      ybar := some (⟨m, H xb⟩, k + 1)
      ext := { s.st.ext with optU := ⟨p, u⟩ } } }) := by
  obtain ⟨sx, sy, su, ⟨sn, snt, sm, smt, sp, sa, sc, sq, sr, spr, sxb, syb, sin, skg, sar, ⟨sf, sdo, sds, sou⟩⟩⟩ := s
  have hs0 := h.sensorInput
  obtain ⟨h1, h2, h3, h4, h5, hp, h6, h7, hu, h8, hdir, hF, hH⟩ := h
  simp only at h1 h2 h3 h4 h5 h6 h7 h8 hdir
  subst h1 h2 h3 h4 h5 h6 h7 h8 hdir
  simp only at hu hc hx
  subst hx
  have hs1 : ∀ (yb : Option (DVec × Int)) (o : DVec), EKF.sensorInput (⟨some (⟨snt, x⟩, k), sy, su, ⟨snt, snt, smt, smt, sp, sa, sc, sq, sr, spr,
      some (⟨snt, xb⟩, k + 1), yb, sin, skg, Arith.default, ⟨some f, sdo, false, o⟩⟩⟩ : KFilter Ext) (k + 1) = .ok ⟨sp, u⟩ := by
    intro yb o
    have := hs0
    unfold EKF.sensorInput at this ⊢
    simp only [hp, if_true] at this ⊢; exact this
  have hp1 : ∀ (yb : Option (DVec × Int)) (o : DVec), prediction (⟨some (⟨snt, x⟩, k), sy, su, ⟨snt, snt, smt, smt, sp, sa, sc, sq, sr, spr,
      some (⟨snt, xb⟩, k + 1), yb, sin, skg, Arith.default, ⟨some f, sdo, false, o⟩⟩⟩ : KFilter Ext) (k + 1) = .ok ⟨some (⟨snt, x⟩, k), sy, su, ⟨snt, snt, smt, smt, sp, sa, sc, sq, sr, spr,
      some (⟨snt, xb⟩, k + 1), yb, sin, skg, Arith.default, ⟨some f, sdo, false, o⟩⟩⟩ := by
    intro yb o
    simp only [prediction, notCached_self, Bool.false_eq_true, if_false]
  simp only [getCMatrixFD, updateStateAndMeasurementPrediction, updateStatePrediction, Obs.getCurrentTime, Res.ok_bind, hp1,
    predictSensor, hc, if_true, val, simulateSensor, hs0, hH]
  rw [cols_ok snt _ (fun j r => forwardDiff H dx xb r j)]
  · simp only [hn, if_true, Res.ok_bind, hs1]
  · intro j
    simp only [colC, DVec.at, j.2, dif_pos, Res.ok_bind, val, unitVec, Arith.default, DVec.add_mk, simulateSensor]
    have hs2 := hs1 (some (⟨smt, H xb⟩, k + 1)) ⟨sp, u⟩
    simp only [Arith.default] at hs2
    rw [hs2]
    simp only [Res.ok_bind, hH, DVec.sub_mk, DVec.divBy, asCol_mk]
    rfl

/-- The prediction has been made before. -/
theorem Armed.getA_cached (h : Armed s x k f F H u) (hc : s.st.xbar = some (⟨n, F x⟩, k + 1)) (dx : Fin n → ℝ) :
    getAMatrixFD s ⟨n, dx⟩ = .ok (⟨n, n, forwardDiff F dx x⟩, { s with st := { s.st with
      ext := { s.st.ext with optU := DVec.zero p } } }) := by
  obtain ⟨sx, sy, su, ⟨sn, snt, sm, smt, sp, sa, sc, sq, sr, spr, sxb, syb, sin, skg, sar, ⟨sf, sdo, sds, sou⟩⟩⟩ := s
  obtain ⟨h1, h2, h3, h4, h5, hp, h6, h7, hu, h8, hdir, hF, hH⟩ := h
  simp only at h1 h2 h3 h4 h5 h6 h7 h8 hdir
  subst h1 h2 h3 h4 h5 h6 h7 h8 hdir
  simp only at hu hc
  subst hc
  simp only [getAMatrixFD, updateStatePrediction, Obs.getCurrentTime, Res.ok_bind, prediction, notCached_self, val, hp, if_true, Bool.false_eq_true,
    if_false]
  rw [cols_ok snt _ (fun j r => forwardDiff F dx x r j)]
  · rfl
  · intro j
    simp only [colA, DVec.at, j.2, dif_pos, Res.ok_bind, unitVec, Arith.default, DVec.add_mk, hF, val, DVec.sub_mk, DVec.divBy, asCol_mk]
    rfl

/-- The predicted measurement is stored; the columns are computed with it. -/
theorem Armed.getC_cached (h : Armed s x k f F H u) (xb : Fin n → ℝ) (hx : s.st.xbar = some (⟨n, xb⟩, k + 1))
    (hc : s.st.ybar = some (⟨m, H xb⟩, k + 1)) (hn : 0 < n) (dx : Fin n → ℝ) :
    getCMatrixFD s ⟨n, dx⟩ = .ok (⟨m, n, forwardDiff H dx xb⟩, { s with st := { s.st with
      ext := { s.st.ext with optU := ⟨p, u⟩ } } }) := by
  obtain ⟨sx, sy, su, ⟨sn, snt, sm, smt, sp, sa, sc, sq, sr, spr, sxb, syb, sin, skg, sar, ⟨sf, sdo, sds, sou⟩⟩⟩ := s
  have hs0 := h.sensorInput
  obtain ⟨h1, h2, h3, h4, h5, hp, h6, h7, hu, h8, hdir, hF, hH⟩ := h
  simp only at h1 h2 h3 h4 h5 h6 h7 h8 hdir
  subst h1 h2 h3 h4 h5 h6 h7 h8 hdir
  simp only at hu hc hx
  subst hx hc
  simp only [getCMatrixFD, updateStateAndMeasurementPrediction, updateStatePrediction, Obs.getCurrentTime, Res.ok_bind, prediction, notCached_self,
    Bool.false_eq_true, if_false, predictSensor, val]
  rw [cols_ok snt _ (fun j r => forwardDiff H dx xb r j)]
  · simp only [hn, if_true, Res.ok_bind, hs0]
  · intro j
    simp only [colC, DVec.at, j.2, dif_pos, Res.ok_bind, val, unitVec, Arith.default, DVec.add_mk, simulateSensor]
    have hs2 := hs0
    simp only [Arith.default] at hs2
    rw [hs2]
    simp only [Res.ok_bind, hH, DVec.sub_mk, DVec.divBy, asCol_mk]
    rfl

/-- The prediction of the state and of the measurement. -/
theorem Armed.both (h : Armed s x k f F H u) (hcx : notCached s.st.xbar (k + 1) = true) (hcy : notCached s.st.ybar (k + 1) = true) :
    updateStateAndMeasurementPrediction s = .ok { s with st := { s.st with
      xbar := some (⟨n, F x⟩, k + 1)
      ybar := some (⟨m, H (F x)⟩, k + 1)
      ext := { s.st.ext with optU := ⟨p, u⟩ } } } := by
  have hp0 := h.predict hcx
  have hs0 := h.sensorInput
  obtain ⟨sx, sy, su, ⟨sn, snt, sm, smt, sp, sa, sc, sq, sr, spr, sxb, syb, sin, skg, sar, ⟨sf, sdo, sds, sou⟩⟩⟩ := s
  obtain ⟨h1, h2, h3, h4, h5, hp, h6, h7, hu, h8, hdir, hF, hH⟩ := h
  simp only at h1 h2 h3 h4 h5 h6 h7 h8 hdir
  subst h1 h2 h3 h4 h5 h6 h7 h8 hdir
  simp only at hu hcx hcy hp0
  have hs1 : EKF.sensorInput (⟨some (⟨snt, x⟩, k), sy, su, ⟨snt, snt, smt, smt, sp, sa, sc, sq, sr, spr,
      some (⟨snt, F x⟩, k + 1), syb, sin, skg, Arith.default, ⟨some f, sdo, false, DVec.zero sp⟩⟩⟩ : KFilter Ext) (k + 1) = .ok ⟨sp, u⟩ := by
    have := hs0
    unfold EKF.sensorInput at this ⊢
    simp only [hp, if_true] at this ⊢; exact this
  simp only [updateStateAndMeasurementPrediction, updateStatePrediction, Obs.getCurrentTime, Res.ok_bind, hp0, predictSensor, hcy, if_true, val,
    simulateSensor, hs1, hH]

/-- The stored predicted measurement has another size: the difference fails an assertion. -/
theorem Armed.getC_stale (h : Armed s x k f F H u) (xb : Fin n → ℝ) (hx : s.st.xbar = some (⟨n, xb⟩, k + 1)) {m' : ℕ} (w : Fin m' → ℝ)
    (hc : s.st.ybar = some (⟨m', w⟩, k + 1)) (hm : m ≠ m') (hn : 0 < n) (dx : Fin n → ℝ) : getCMatrixFD s ⟨n, dx⟩ = .assertFail := by
  obtain ⟨sx, sy, su, ⟨sn, snt, sm, smt, sp, sa, sc, sq, sr, spr, sxb, syb, sin, skg, sar, ⟨sf, sdo, sds, sou⟩⟩⟩ := s
  have hs0 := h.sensorInput
  obtain ⟨h1, h2, h3, h4, h5, hp, h6, h7, hu, h8, hdir, hF, hH⟩ := h
  simp only at h1 h2 h3 h4 h5 h6 h7 h8 hdir
  subst h1 h2 h3 h4 h5 h6 h7 h8 hdir
  simp only at hu hc hx
  subst hx hc
  simp only [getCMatrixFD, updateStateAndMeasurementPrediction, updateStatePrediction, Obs.getCurrentTime, Res.ok_bind, prediction, notCached_self,
    Bool.false_eq_true, if_false, predictSensor, val]
  obtain ⟨snt, rfl⟩ := Nat.exists_eq_succ_of_ne_zero hn.ne'
  have : ∀ g : Fin (snt + 1) → Res (Fin smt → ℝ), g 0 = .assertFail → cols (snt + 1) g = .assertFail := by
    intro g hg
    simp only [cols, hg]
    rfl
  erw [this]
  · rfl
  · simp only [colC, DVec.at, Res.ok_bind, val, unitVec, Arith.default, DVec.add_mk, simulateSensor]
    have hs2 := hs0
    simp only [Arith.default] at hs2
    rw [dif_pos (by simp)]
    simp only [Res.ok_bind]
    erw [hs2]
    simp only [Res.ok_bind, hH, DVec.sub]
    rw [dif_neg hm]
    rfl

end StateObs.EKF
