import Verif.EKF.Lemmas
/-!
# Property C21: an extended filter with an affine functor is a linear filter
-/

namespace StateObs.EKF
open StateObs KF Matrix KFSpec
variable {n m p : ℕ}

/-- A time-varying affine system: the linear model of time `k` (dynamics from `k` to `k+1`, measurement at `k+1`) and the
constant terms `a` of the dynamics, `c` of the measurement. -/
structure AffModel (n m p : ℕ) extends LinModel n m p where
  a : Fin n → ℝ
  c : Fin m → ℝ

/-- The functor computes the affine system: the dynamics from time `k`, and the measurement at time `k+1`, are those of `d k`. -/
def IsAffine (f : Functor) (d : Int → AffModel n m p) : Prop :=
  (∀ x u k, f.stateDynamics ⟨n, x⟩ ⟨p, u⟩ k = .ok ⟨n, (d k).A *ᵥ x + (d k).B *ᵥ u + (d k).a⟩) ∧
  (∀ x u k, f.measureDynamics ⟨n, x⟩ ⟨p, u⟩ (k + 1) = .ok ⟨m, (d k).C *ᵥ x + (d k).D *ᵥ u + (d k).c⟩)

/-- What a user does between two sampling times: give inputs, measurement and noise covariances, compute both Jacobians by finite
differences with steps `dA`, `dC`, and ask for the estimate. -/
noncomputable def cycle (Q : Matrix (Fin n) (Fin n) ℝ) (R : Matrix (Fin m) (Fin m) ℝ) (dA dC : Fin n → ℝ) (i : StepIn m p)
    (s : KFilter Ext) : Res (KFilter Ext) := do
  let k ← s.getCurrentTime
  let s ← setQ s ⟨n, n, Q⟩
  let s ← setR s ⟨m, m, R⟩
  let s ← Obs.setInput (cfg s) s ⟨p, i.u⟩ k
  let s ← Obs.setInput (cfg s) s ⟨p, i.u'⟩ (k + 1)
  let s ← Obs.setMeasurement (cfg s) s ⟨m, i.y⟩ (k + 1)
  let (A, s) ← getAMatrixFD s ⟨n, dA⟩
  let s ← setA s A
  let (C, s) ← getCMatrixFD s ⟨n, dC⟩
  let s ← setC s C
  getEstimatedState s (k + 1)

/-- `N` sampling times. -/
noncomputable def cycles (Q : ℕ → Matrix (Fin n) (Fin n) ℝ) (R : ℕ → Matrix (Fin m) (Fin m) ℝ) (dA dC : ℕ → Fin n → ℝ)
    (i : ℕ → StepIn m p) (s : KFilter Ext) : ℕ → Res (KFilter Ext)
  | 0 => .ok s
  | N + 1 => do
    let s ← cycles Q R dA dC i s N
    cycle (Q N) (R N) (dA N) (dC N) (i N) s

/-- An extended filter in use, with functor `f` and with the input of the dynamics declared to the filter (if there are inputs), whose
last predictions are not of a later time than the estimate. -/
structure InUse (s : KFilter Ext) (n m p : ℕ) (f : Functor) (x : Fin n → ℝ) (P : Matrix (Fin n) (Fin n) ℝ) (k : Int) : Prop where
  hn : s.st.n = n
  hnt : s.st.nt = n
  hm : s.st.m = m
  hmt : s.st.mt = m
  hp : s.st.p = p
  ar : s.st.arith = Arith.default
  x : s.x = some (⟨n, x⟩, k)
  pr : s.st.pr = ⟨n, n, P⟩
  y : s.y.v = [] ∨ (s.y.k = k ∧ s.y.v.length = 1)
  u : p = 0 ∨ s.u.v = [] ∨ (s.u.k = k ∧ s.u.v.length = 1)
  f : s.st.ext.f = some f
  dir : p = 0 ∨ s.st.ext.dirState = true
  cx : ∀ v t, s.st.xbar = some (v, t) → t ≤ k
  cy : ∀ v t, s.st.ybar = some (v, t) → t ≤ k

/-- Initialisation of a new filter. -/
noncomputable def init (n m p : ℕ) (dirOut : Bool) (f : Functor) (x : Fin n → ℝ) (P : Matrix (Fin n) (Fin n) ℝ) (k : Int) :
    Res (KFilter Ext) := do
  let s := setFunctor (EKF.mk n n m m p dirOut true) f
  let s ← Obs.setState (cfg s) s ⟨n, x⟩ k
  setStateCovariance s ⟨n, n, P⟩

theorem init_inUse (n m p : ℕ) (dirOut : Bool) (f : Functor) (x : Fin n → ℝ) (P : Matrix (Fin n) (Fin n) ℝ) (k : Int) :
    ∃ s, init n m p dirOut f x P k = .ok s ∧ InUse s n m p f x P k := by
  have h1 : (cfg (setFunctor (EKF.mk n n m m p dirOut true) f)).okX ⟨n, x⟩ = true := by simp [cfg, EKF.mk, KF.mk, setFunctor]
  by_cases hp : p > 0
  · have hp' : (cfg (setFunctor (EKF.mk n n m m p dirOut true) f)).p > 0 := hp
    refine ⟨_, by
      simp only [init, Obs.setState, h1, Res.assert_true, Res.ok_bind, Obs.getCurrentTime, lt_irrefl, if_false, hp', if_true,
        setStateCovariance, KData.checkP]
      simp only [EKF.mk, KF.mk, setFunctor, DMat.hasSize_mk, Res.assert_true, Res.ok_bind]
      rfl, ?_⟩
    refine ⟨rfl, rfl, rfl, rfl, rfl, rfl, rfl, rfl, Or.inl rfl, Or.inr (Or.inl rfl), rfl, Or.inr ?_, ?_, ?_⟩
    · simp; omega
    · intro v t h; cases h
    · intro v t h; cases h
  · have hp' : ¬ (cfg (setFunctor (EKF.mk n n m m p dirOut true) f)).p > 0 := hp
    refine ⟨_, by
      simp only [init, Obs.setState, h1, Res.assert_true, Res.ok_bind, Obs.getCurrentTime, lt_irrefl, if_false, hp',
        setStateCovariance, KData.checkP]
      simp only [EKF.mk, KF.mk, setFunctor, DMat.hasSize_mk, Res.assert_true, Res.ok_bind]
      rfl, ?_⟩
    refine ⟨rfl, rfl, rfl, rfl, rfl, rfl, rfl, rfl, Or.inl rfl, Or.inr (Or.inl rfl), rfl, Or.inl (by omega), ?_, ?_⟩
    · intro v t h; cases h
    · intro v t h; cases h

/-- The filter with all its inputs for the step from `k` to `k+1`. -/
structure Ready (s : KFilter Ext) (n m p : ℕ) (f : Functor) (x : Fin n → ℝ) (k : Int) (i : StepIn m p) : Prop where
  hn : s.st.n = n
  hnt : s.st.nt = n
  hm : s.st.m = m
  hmt : s.st.mt = m
  hp : s.st.p = p
  ar : s.st.arith = Arith.default
  x : s.x = some (⟨n, x⟩, k)
  u : p = 0 ∨ s.u = ⟨k, [⟨p, i.u⟩, ⟨p, i.u'⟩]⟩
  f : s.st.ext.f = some f
  dir : p = 0 ∨ s.st.ext.dirState = true

theorem get_fst {a b : DVec} (k : Int) : (⟨k, [a, b]⟩ : IArr DVec).get k = .ok a := by
  simp [IArr.get, IArr.checkIndex]
theorem get_snd {a b : DVec} (k : Int) : (⟨k, [a, b]⟩ : IArr DVec).get (k + 1) = .ok b := by
  simp [IArr.get, IArr.checkIndex]

theorem vec0 {p : ℕ} (hp : p = 0) (u : Fin p → ℝ) : DVec.zero p = ⟨p, u⟩ := by
  subst hp
  simp only [DVec.zero]
  congr 1
  funext i; exact i.elim0

theorem prediction_aff {s : KFilter Ext} {f : Functor} {x : Fin n → ℝ} {k : Int} {i : StepIn m p} (h : Ready s n m p f x k i)
    (d : Int → AffModel n m p) (hf : IsAffine f d) (hc : notCached s.st.xbar (k + 1) = true) :
    prediction s (k + 1) = .ok { s with st := { s.st with
      xbar := some (⟨n, (d k).A *ᵥ x + (d k).B *ᵥ i.u + (d k).a⟩, k + 1)
      ext := { s.st.ext with optU := ⟨p, i.u⟩ } } } := by
  unfold prediction
  rw [if_pos hc]
  have : (if s.st.p > 0 ∧ s.st.ext.dirState = true then do
        Res.assert (decide (s.u.size > 0) && s.u.checkIndex (k + 1 - 1))
        s.u.get (k + 1 - 1)
      else .ok (DVec.zero s.st.p)) = .ok (⟨p, i.u⟩ : DVec) := by
    by_cases hp : p = 0
    · rw [if_neg (by rw [h.hp]; omega), h.hp, vec0 hp]
    · have hd := h.dir.resolve_left hp
      have hu := h.u.resolve_left hp
      rw [if_pos ⟨by rw [h.hp]; omega, hd⟩, show k + 1 - 1 = k by omega, hu, get_fst]
      simp [IArr.size, IArr.checkIndex]
  rw [this]
  simp only [Res.ok_bind, h.f, h.x, hf.1]

theorem sensorInput_aff {s : KFilter Ext} {f : Functor} {x : Fin n → ℝ} {k : Int} {i : StepIn m p} (h : Ready s n m p f x k i)
    (ho : p = 0 → s.st.ext.optU = ⟨p, i.u⟩) : sensorInput s (k + 1) = .ok ⟨p, i.u'⟩ := by
  unfold sensorInput
  by_cases hp : p = 0
  · rw [if_neg (by rw [h.hp]; omega), ho hp, ← vec0 hp i.u, ← vec0 hp i.u']
  · have hu := h.u.resolve_left hp
    have hk : s.u.checkIndex (k + 1) = true := by rw [hu]; simp [IArr.checkIndex]
    rw [if_pos (by rw [h.hp]; omega), hk, hu, get_snd]
    simp

theorem asCol_mk (m : ℕ) (v : Fin m → ℝ) : asCol m ⟨m, v⟩ = .ok v := by
  simp only [asCol, dif_pos]; rfl

theorem unit_col {r c : ℕ} (M : Matrix (Fin r) (Fin c) ℝ) (i : Fin c) (h : ℝ) :
    M *ᵥ (fun j => if j = i then h else 0) = fun r => M r i * h := by
  ext r
  simp [Matrix.mulVec, dotProduct]

/-- The finite-difference Jacobian of the dynamics is exact. -/
theorem getAMatrixFD_aff {s : KFilter Ext} {f : Functor} {x : Fin n → ℝ} {k : Int} {i : StepIn m p} (h : Ready s n m p f x k i)
    (d : Int → AffModel n m p) (hf : IsAffine f d) (hc : notCached s.st.xbar (k + 1) = true) (dA : Fin n → ℝ)
    (hd : ∀ j, dA j ≠ 0) :
    getAMatrixFD s ⟨n, dA⟩ = .ok (⟨n, n, (d k).A⟩, { s with st := { s.st with
      xbar := some (⟨n, (d k).A *ᵥ x + (d k).B *ᵥ i.u + (d k).a⟩, k + 1)
      ext := { s.st.ext with optU := ⟨p, i.u⟩ } } }) := by
  obtain ⟨sx, sy, su, ⟨sn, snt, sm, smt, sp, sa, sc, sq, sr, spr, sxb, syb, sin, skg, sar, ⟨sf, sdo, sds, sou⟩⟩⟩ := s
  have hp0 := prediction_aff h d hf hc
  obtain ⟨h1, h2, h3, h4, h5, h6, h7, hu, h8, hdir⟩ := h
  simp only at h1 h2 h3 h4 h5 h6 h7 h8
  subst h1 h2 h3 h4 h5 h6 h7 h8
  simp only at hu hdir hc hp0
  simp only [getAMatrixFD, updateStatePrediction, Obs.getCurrentTime, Res.ok_bind, hp0, val]
  have : (if sp > 0 then if sds = true then su.get k else .ok (DVec.zero sp) else Res.ok (⟨sp, i.u⟩ : DVec)) = .ok ⟨sp, i.u⟩ := by
    by_cases hp : sp = 0
    · rw [if_neg (by omega)]
    · rw [if_pos (by omega), if_pos (hdir.resolve_left hp), hu.resolve_left hp, get_fst]
  rw [this]
  simp only [Res.ok_bind]
  rw [cols_ok snt _ (fun j r => (d k).A r j)]
  · rfl
  · intro j
    simp only [colA, DVec.at, j.2, dif_pos, Res.ok_bind, unitVec, Arith.default, DVec.add_mk, hf.1, val, DVec.sub_mk, DVec.divBy, asCol_mk]
    simp only [Matrix.mulVec_add, unit_col]
    congr 1
    funext r
    simp only [Pi.sub_apply, Pi.add_apply]
    have := hd j
    field_simp
    ring

/-- The finite-difference Jacobian of the measurement is exact. -/
theorem getCMatrixFD_aff {s : KFilter Ext} {f : Functor} {x xb : Fin n → ℝ} {k : Int} {i : StepIn m p} (h : Ready s n m p f x k i)
    (d : Int → AffModel n m p) (hf : IsAffine f d) (hx : s.st.xbar = some (⟨n, xb⟩, k + 1)) (ho : p = 0 → s.st.ext.optU = ⟨p, i.u⟩)
    (hc : notCached s.st.ybar (k + 1) = true) (dC : Fin n → ℝ) (hd : ∀ j, dC j ≠ 0) :
    getCMatrixFD s ⟨n, dC⟩ = .ok (⟨m, n, (d k).C⟩, { s with st := { s.st with
      ybar := some (⟨m, (d k).C *ᵥ xb + (d k).D *ᵥ i.u' + (d k).c⟩, k + 1)
      ext := { s.st.ext with optU := ⟨p, i.u'⟩ } } }) := by
  obtain ⟨sx, sy, su, ⟨sn, snt, sm, smt, sp, sa, sc, sq, sr, spr, sxb, syb, sin, skg, sar, ⟨sf, sdo, sds, sou⟩⟩⟩ := s
  have hs0 := sensorInput_aff h ho
  obtain ⟨h1, h2, h3, h4, h5, h6, h7, hu, h8, hdir⟩ := h
  simp only at h1 h2 h3 h4 h5 h6 h7 h8
  subst h1 h2 h3 h4 h5 h6 h7 h8
  simp only at hu hdir hc ho hx
  subst hx
  have hs1 : ∀ (yb : Option (DVec × Int)), sensorInput (⟨some (⟨snt, x⟩, k), sy, su, ⟨snt, snt, smt, smt, sp, sa, sc, sq, sr, spr,
      some (⟨snt, xb⟩, k + 1), yb, sin, skg, Arith.default, ⟨some f, sdo, sds, ⟨sp, i.u'⟩⟩⟩⟩ : KFilter Ext) (k + 1) = .ok ⟨sp, i.u'⟩ := by
    intro yb
    have := hs0
    unfold sensorInput at this ⊢
    by_cases hp : sp > 0
    · simp only [hp, if_true] at this ⊢; exact this
    · simp only [hp, if_false]
  have hp1 : ∀ (yb : Option (DVec × Int)) (o : DVec), prediction (⟨some (⟨snt, x⟩, k), sy, su, ⟨snt, snt, smt, smt, sp, sa, sc, sq, sr, spr,
      some (⟨snt, xb⟩, k + 1), yb, sin, skg, Arith.default, ⟨some f, sdo, sds, o⟩⟩⟩ : KFilter Ext) (k + 1) = .ok ⟨some (⟨snt, x⟩, k), sy, su, ⟨snt, snt, smt, smt, sp, sa, sc, sq, sr, spr,
      some (⟨snt, xb⟩, k + 1), yb, sin, skg, Arith.default, ⟨some f, sdo, sds, o⟩⟩⟩ := by
    intro yb o
    simp only [prediction, notCached_self, Bool.false_eq_true, if_false]
  simp only [getCMatrixFD, updateStateAndMeasurementPrediction, updateStatePrediction, Obs.getCurrentTime, Res.ok_bind, hp1,
    predictSensor, hc, if_true, val, simulateSensor, hs0, hf.2]
  rw [cols_ok snt _ (fun j r => (d k).C r j)]
  · by_cases hn : snt > 0
    · simp only [hn, if_true, Res.ok_bind, hs1]
    · simp only [hn, if_false, Res.ok_bind]
  · intro j
    simp only [colC, DVec.at, j.2, dif_pos, Res.ok_bind, val, unitVec, Arith.default, DVec.add_mk, simulateSensor]
    have hs2 := hs1 (some (⟨smt, (d k).C *ᵥ xb + (d k).D *ᵥ i.u' + (d k).c⟩, k + 1))
    simp only [Arith.default] at hs2
    rw [hs2]
    simp only [Res.ok_bind, hf.2, DVec.sub_mk, DVec.divBy, asCol_mk]
    simp only [Matrix.mulVec_add, unit_col]
    congr 1
    funext r
    simp only [Pi.sub_apply, Pi.add_apply]
    have := hd j
    field_simp
    ring

/-- The textbook step with constant terms. -/
noncomputable def affStep (d : AffModel n m p) (i : StepIn m p) (z : (Fin n → ℝ) × Matrix (Fin n) (Fin n) ℝ) :
    (Fin n → ℝ) × Matrix (Fin n) (Fin n) ℝ :=
  let M := predCov d.A d.Q z.2
  let xb := d.A *ᵥ z.1 + d.B *ᵥ i.u + d.a
  (xb + gain d.C d.R M *ᵥ (i.y - (d.C *ᵥ xb + d.D *ᵥ i.u' + d.c)), posterior d.C d.R M)

/-- A step with cached predictions, default arithmetic. -/
theorem oneStep_cached {s : KFilter Ext} {A Q P : Matrix (Fin n) (Fin n) ℝ} {C R} (h : HasMats s.st n m A Q P C R)
    (hQ : Q.PosSemidef) (hP : P.PosSemidef) (hR : R.PosDef) (har : s.st.arith = Arith.default) (x : DVec) (k : Int)
    (hx : s.x = some (x, k)) (xb : Fin n → ℝ) (yb y : Fin m → ℝ) (hxb : s.st.xbar = some (⟨n, xb⟩, k + 1))
    (hyb : s.st.ybar = some (⟨m, yb⟩, k + 1)) (hy : s.y.get (k + 1) = .ok ⟨m, y⟩) :
    oneStep virt s = .ok { s with
      x := some (⟨n, xb + gain C R (predCov A Q P) *ᵥ (y - yb)⟩, k + 1)
      st := { s.st with
        pr := ⟨n, n, posterior C R (predCov A Q P)⟩
        innovation := ⟨n, gain C R (predCov A Q P) *ᵥ (y - yb)⟩
        kGain := ⟨n, m, gain C R (predCov A Q P)⟩ } } := by
  obtain ⟨h1, h2, h3, h4, h5⟩ := h.checks
  have hc : (decide (s.y.size > 0) && s.y.checkIndex (k + 1)) = true := by
    have h0 : s.y.checkIndex (k + 1) = true := by
      simp only [IArr.get] at hy
      cases hci : s.y.checkIndex (k + 1) with
      | false => rw [hci] at hy; simp at hy
      | true => rfl
    have : s.y.size > 0 := by
      simp only [IArr.checkIndex, Bool.and_eq_true, decide_eq_true_eq] at h0
      exact h0.1.1
    simp [this, h0]
  have e1 : prediction s (k + 1) = .ok s := by simp [prediction, hxb]
  have e2 : predictSensor s (k + 1) = .ok s := by simp [predictSensor, hyb]
  unfold oneStep
  rw [hx]
  simp only [hc, h1, h2, h3, h4, h5, Res.assert_true, Res.ok_bind, virt, e1, e2]
  simp only [hxb, hyb, val, Res.ok_bind, hy]
  rw [correct_eq h hQ hP hR]
  simp only [har, Arith.default, DVec.sub_mk, Res.ok_bind, DMat.mulVec_mk, DVec.add_mk]

/-- **C21**, one sampling time: whatever the nonzero steps of the finite differences, the extended filter performs the textbook step. -/
theorem C21_cycle (s : KFilter Ext) (f : Functor) (d : Int → AffModel n m p) (hf : IsAffine f d) (x : Fin n → ℝ)
    (P : Matrix (Fin n) (Fin n) ℝ) (k : Int) (hs : InUse s n m p f x P k) (hP : P.PosSemidef) (hd : (d k).Ok)
    (dA dC : Fin n → ℝ) (hA : ∀ j, dA j ≠ 0) (hC : ∀ j, dC j ≠ 0) (i : StepIn m p) :
    ∃ s', cycle (d k).Q (d k).R dA dC i s = .ok s' ∧
      InUse s' n m p f (affStep (d k) i (x, P)).1 (affStep (d k) i (x, P)).2 (k + 1) := by
  set s1 : KFilter Ext := { s with st := { s.st with q := ⟨n, n, (d k).Q⟩, r := ⟨m, m, (d k).R⟩ } } with hs1
  have hx1 : s1.x = some (⟨n, x⟩, k) := hs.x
  have hin : ∃ u', (do
      let s ← Obs.setInput (cfg s1) s1 ⟨p, i.u⟩ k
      Obs.setInput (cfg s) s ⟨p, i.u'⟩ (k + 1)) = .ok { s1 with u := u' } ∧
      (p = 0 ∨ u' = ⟨k, [⟨p, i.u⟩, ⟨p, i.u'⟩]⟩) := by
    by_cases hp : p = 0
    · have hp1 : ¬ (cfg s1).p > 0 := by simp [cfg, hs1, hs.hp, hp]
      refine ⟨s.u, ?_, Or.inl hp⟩
      simp only [Obs.setInput, hp1, if_false, Res.ok_bind]
      rfl
    · have hp1 : (cfg s1).p > 0 := by simp [cfg, hs1, hs.hp]; omega
      obtain ⟨s2, h2, h3⟩ := LKF.setInput_two (cfg s1) s1 _ k hx1 (hs.u.resolve_left hp) (⟨p, i.u⟩ : DVec) ⟨p, i.u'⟩
        (by simp [cfg, hs1, hs.hp]) (by simp [cfg, hs1, hs.hp]) hp1
      refine ⟨⟨k, [⟨p, i.u⟩, ⟨p, i.u'⟩]⟩, ?_, Or.inr rfl⟩
      rw [h2, Res.ok_bind, ← h3]
      have : cfg s2 = cfg s1 := by
        have := obs_setInput_st h2
        simp only [cfg, this]
      rw [this]
  obtain ⟨u', hin, hu'⟩ := hin
  obtain ⟨y', hm, hget, hpop⟩ := LKF.setMeasurement_next (cfg { s1 with u := u' }) { s1 with u := u' } _ k hx1 hs.y
    (⟨m, i.y⟩ : DVec) (by simp [cfg, hs1, hs.hm])
  set s2 : KFilter Ext := { s1 with u := u', y := y' } with hs2
  have r2 : Ready s2 n m p f x k i := ⟨hs.hn, hs.hnt, hs.hm, hs.hmt, hs.hp, hs.ar, hx1, hu', hs.f, hs.dir⟩
  have hcx : notCached s2.st.xbar (k + 1) = true := notCached_of_lt fun v t h => by have := hs.cx v t h; omega
  have hcy : notCached s2.st.ybar (k + 1) = true := notCached_of_lt fun v t h => by have := hs.cy v t h; omega
  have eA := getAMatrixFD_aff r2 d hf hcx dA hA
  set xb := (d k).A *ᵥ x + (d k).B *ᵥ i.u + (d k).a with hxb
  set s3 : KFilter Ext := { s2 with st := { s2.st with
      a := ⟨n, n, (d k).A⟩, xbar := some (⟨n, xb⟩, k + 1), ext := { s2.st.ext with optU := ⟨p, i.u⟩ } } } with hs3
  have r3 : Ready s3 n m p f x k i := ⟨hs.hn, hs.hnt, hs.hm, hs.hmt, hs.hp, hs.ar, hx1, hu', hs.f, hs.dir⟩
  have eC := getCMatrixFD_aff (xb := xb) r3 d hf rfl (fun _ => rfl) hcy dC hC
  set yb := (d k).C *ᵥ xb + (d k).D *ᵥ i.u' + (d k).c with hyb
  set s4 : KFilter Ext := { s3 with st := { s3.st with
      c := ⟨m, n, (d k).C⟩, ybar := some (⟨m, yb⟩, k + 1), ext := { s3.st.ext with optU := ⟨p, i.u'⟩ } } } with hs4
  have m4 : HasMats s4.st n m (d k).A (d k).Q P (d k).C (d k).R := ⟨hs.hnt, hs.hmt, rfl, rfl, hs.pr, rfl, rfl⟩
  have hstep := oneStep_cached m4 hd.1 hP hd.2 hs.ar ⟨n, x⟩ k hx1 xb yb i.y rfl rfl hget
  have hq : s.st.checkQ ⟨n, n, (d k).Q⟩ = true := by simp [KData.checkQ, hs.hnt]
  have hr : s.st.checkR ⟨m, m, (d k).R⟩ = true := by simp [KData.checkR, hs.hmt]
  have hc : cycle (d k).Q (d k).R dA dC i s = getEstimatedState s4 (k + 1) := by
    have c1 : cycle (d k).Q (d k).R dA dC i s = (do
        let s ← (do
          let s ← Obs.setInput (cfg s1) s1 ⟨p, i.u⟩ k
          Obs.setInput (cfg s) s ⟨p, i.u'⟩ (k + 1))
        let s ← Obs.setMeasurement (cfg s) s ⟨m, i.y⟩ (k + 1)
        let (A, s) ← getAMatrixFD s ⟨n, dA⟩
        let s ← setA s A
        let (C, s) ← getCMatrixFD s ⟨n, dC⟩
        let s ← setC s C
        getEstimatedState s (k + 1)) := by
      unfold cycle
      simp only [Obs.getCurrentTime, hs.x, setQ, setR, hq, Res.assert_true, Res.ok_bind, Res.bind_assoc]
      have : ({ s.st with q := ⟨n, n, (d k).Q⟩ } : KData Ext).checkR ⟨m, m, (d k).R⟩ = true := hr
      simp only [this, Res.assert_true, Res.ok_bind]
      rw [← hs.x]
    rw [c1, hin, Res.ok_bind, hm, Res.ok_bind]
    have eA' : getAMatrixFD { s1 with u := u', y := y' } ⟨n, dA⟩ = _ := eA
    rw [eA', Res.ok_bind]
    have ha : s2.st.checkA ⟨n, n, (d k).A⟩ = true := by
      have : s2.st.nt = n := hs.hnt
      simp [KData.checkA, this]
    have ha' : setA ({ s2 with st := { s2.st with
      xbar := some (⟨n, xb⟩, k + 1), ext := { s2.st.ext with optU := ⟨p, i.u⟩ } } } : KFilter Ext) ⟨n, n, (d k).A⟩ = .ok s3 := by
      unfold setA
      have : ({ s2.st with xbar := some (⟨n, xb⟩, k + 1), ext := { s2.st.ext with optU := ⟨p, i.u⟩ } } : KData Ext).checkA
        ⟨n, n, (d k).A⟩ = true := ha
      rw [this]; rfl
    simp only []
    rw [ha', Res.ok_bind, eC, Res.ok_bind]
    simp only []
    have hc : s3.st.checkC ⟨m, n, (d k).C⟩ = true := by
      have e1 : s3.st.nt = n := hs.hnt
      have e2 : s3.st.mt = m := hs.hmt
      simp [KData.checkC, e1, e2]
    have hc' : setC ({ s3 with st := { s3.st with
      ybar := some (⟨m, yb⟩, k + 1), ext := { s3.st.ext with optU := ⟨p, i.u'⟩ } } } : KFilter Ext) ⟨m, n, (d k).C⟩ = .ok s4 := by
      unfold setC
      have : ({ s3.st with ybar := some (⟨m, yb⟩, k + 1), ext := { s3.st.ext with optU := ⟨p, i.u'⟩ } } : KData Ext).checkC
        ⟨m, n, (d k).C⟩ = true := hc
      rw [this]; rfl
    rw [hc', Res.ok_bind]
  have hest : getEstimatedState s4 (k + 1) = Obs.loopBody (cfg s4) (oneStep virt) (k + 1) s4 := by
    have hx4 : s4.x = some (⟨n, x⟩, k) := hx1
    have h1 : k ≤ k + 1 := by omega
    simp only [getEstimatedState, KF.getEstimatedState, Obs.getEstimatedState, Obs.getCurrentTime, hx4, Res.ok_bind, h1, decide_true,
      Res.assert_true]
    rw [show (k + 1 - k).toNat = 1 by omega]
    simp only [Obs.loop]
    cases Obs.loopBody (cfg s4) (oneStep virt) (k + 1) s4 <;> rfl
  rw [hc, hest, Obs.loopBody, hstep]
  have hpop' : Obs.popIf (k + 1) s4.y = .ok ⟨k + 1, [⟨m, i.y⟩]⟩ := hpop
  simp only [Res.ok_bind, hpop']
  have hcx' : ∀ v t, (some ((⟨n, xb⟩ : DVec), k + 1)) = some (v, t) → t ≤ k + 1 := by
    intro v t h; cases h; exact le_refl _
  have hcy' : ∀ v t, (some ((⟨m, yb⟩ : DVec), k + 1)) = some (v, t) → t ≤ k + 1 := by
    intro v t h; cases h; exact le_refl _
  by_cases hp : p = 0
  · have hp1 : ¬ (cfg s4).p > 0 := by show ¬ s.st.p > 0; rw [hs.hp]; omega
    rw [if_neg hp1]
    exact ⟨_, rfl, hs.hn, hs.hnt, hs.hm, hs.hmt, hs.hp, hs.ar, rfl, rfl, Or.inr ⟨rfl, rfl⟩, Or.inl hp, hs.f, hs.dir, hcx', hcy'⟩
  · have hp1 : (cfg s4).p > 0 := by show s.st.p > 0; rw [hs.hp]; omega
    have hu2 : s4.u = ⟨k, [⟨p, i.u⟩, ⟨p, i.u'⟩]⟩ := hu'.resolve_left hp
    rw [if_pos hp1, hu2]
    have : Obs.popIf (k + 1) (⟨k, [⟨p, i.u⟩, ⟨p, i.u'⟩]⟩ : IArr DVec) = .ok ⟨k + 1, [⟨p, i.u'⟩]⟩ := by
      simp [Obs.popIf, IArr.getFirstIndex, IArr.popFront]
    rw [this]
    exact ⟨_, rfl, hs.hn, hs.hnt, hs.hm, hs.hmt, hs.hp, hs.ar, rfl, rfl, Or.inr ⟨rfl, rfl⟩, Or.inr (Or.inr ⟨rfl, rfl⟩), hs.f, hs.dir,
      hcx', hcy'⟩

/-- The linear model that has a constant input `1` appended, through which the constant terms enter. -/
def augment (d : AffModel n m p) : LinModel n m (p + 1) :=
  ⟨d.A, fun i => Fin.snoc (d.B i) (d.a i), d.C, fun i => Fin.snoc (d.D i) (d.c i), d.Q, d.R⟩

/-- The inputs with the constant `1` appended. -/
def augmentIn (i : StepIn m p) : StepIn m (p + 1) := ⟨Fin.snoc i.u 1, Fin.snoc i.u' 1, i.y⟩

theorem augment_mulVec {r : ℕ} (B : Matrix (Fin r) (Fin p) ℝ) (a : Fin r → ℝ) (u : Fin p → ℝ) :
    (fun i => Fin.snoc (B i) (a i) : Matrix (Fin r) (Fin (p + 1)) ℝ) *ᵥ (Fin.snoc u 1) = B *ᵥ u + a := by
  ext i
  simp [Matrix.mulVec, dotProduct, Fin.sum_univ_castSucc]

theorem affStep_eq (d : AffModel n m p) (i : StepIn m p) (z) : affStep d i z = linStep (augment d) (augmentIn i) z := by
  simp only [affStep, linStep, augment, augmentIn, predState, predMeas, augment_mulVec, add_assoc]

/-- **C21**. An extended filter with an affine functor, Jacobians by finite differences with arbitrary nonzero steps, and a linear filter
with the same matrices (and the constant terms given as one more, constant, input), started with the same estimate
and covariance and given the same inputs, measurements and noise covariances: at every time both succeed and have the same
estimate and the same covariance. -/
theorem C21_affine (s : KFilter Ext) (sl : KFilter LKF.Ext) (f : Functor) (d : Int → AffModel n m p) (hf : IsAffine f d)
    (x : Fin n → ℝ) (P : Matrix (Fin n) (Fin n) ℝ) (k : Int) (hs : InUse s n m p f x P k) (hsl : LKF.InUse sl n m (p + 1) x P k)
    (hP : P.PosSemidef) (hd : ∀ t, (d t).Ok) (dA dC : ℕ → Fin n → ℝ) (hA : ∀ N j, dA N j ≠ 0) (hC : ∀ N j, dC N j ≠ 0)
    (i : ℕ → StepIn m p) (N : ℕ) :
    ∃ s' sl', cycles (fun N => (d (k + N)).Q) (fun N => (d (k + N)).R) dA dC i s N = .ok s' ∧
      LKF.cycles (fun N => augment (d (k + N))) (fun N => augmentIn (i N)) sl N = .ok sl' ∧
      s'.x = sl'.x ∧ s'.st.pr = sl'.st.pr ∧ s'.x.isSome := by
  obtain ⟨sl', h1, h2⟩ := LKF.C20_run sl x P k hsl hP (fun N => augment (d (k + N))) (fun N => hd _) (fun N => augmentIn (i N)) N
  have : ∃ s', cycles (fun N => (d (k + N)).Q) (fun N => (d (k + N)).R) dA dC i s N = .ok s' ∧
      InUse s' n m p f (linRun (fun N => augment (d (k + N))) (fun N => augmentIn (i N)) (x, P) N).1
        (linRun (fun N => augment (d (k + N))) (fun N => augmentIn (i N)) (x, P) N).2 (k + N) := by
    clear h1 h2
    induction N with
    | zero => exact ⟨s, rfl, by simpa [linRun] using hs⟩
    | succ N ih =>
      obtain ⟨s1, h1, h2⟩ := ih
      have hpsd := LKF.linRun_psd (fun N => augment (d (k + N))) (fun N => hd _) (fun N => augmentIn (i N)) x hP N
      obtain ⟨s2, h3, h4⟩ := C21_cycle s1 f d hf _ _ _ h2 hpsd (hd _) (dA N) (dC N) (hA N) (hC N) (i N)
      refine ⟨s2, by simp only [cycles, h1, Res.ok_bind, h3], ?_⟩
      rw [affStep_eq] at h4
      rw [show (k + ((N + 1 : ℕ) : Int)) = k + N + 1 by push_cast; omega]
      exact h4
  obtain ⟨s', h3, h4⟩ := this
  exact ⟨s', sl', h3, h1, by rw [h4.x, h2.x], by rw [h4.pr, h2.pr], by rw [h4.x]; rfl⟩

/-- **C21**, linear functor: no extra input is needed. -/
theorem C21_linear (s : KFilter Ext) (sl : KFilter LKF.Ext) (f : Functor) (d : Int → LinModel n m p)
    (hf : IsAffine f (fun k => ⟨d k, 0, 0⟩)) (x : Fin n → ℝ) (P : Matrix (Fin n) (Fin n) ℝ) (k : Int)
    (hs : InUse s n m p f x P k) (hsl : LKF.InUse sl n m p x P k)
    (hP : P.PosSemidef) (hd : ∀ t, (d t).Ok) (dA dC : ℕ → Fin n → ℝ) (hA : ∀ N j, dA N j ≠ 0) (hC : ∀ N j, dC N j ≠ 0)
    (i : ℕ → StepIn m p) (N : ℕ) :
    ∃ s' sl', cycles (fun N => (d (k + N)).Q) (fun N => (d (k + N)).R) dA dC i s N = .ok s' ∧
      LKF.cycles (fun N => d (k + N)) i sl N = .ok sl' ∧
      s'.x = sl'.x ∧ s'.st.pr = sl'.st.pr ∧ s'.x.isSome := by
  obtain ⟨sl', h1, h2⟩ := LKF.C20_run sl x P k hsl hP (fun N => d (k + N)) (fun N => hd _) i N
  obtain ⟨sa, -, ha⟩ := LKF.init_inUse n m (p + 1) x P k
  obtain ⟨s', sa', h3, h4, h5, h6, h7⟩ := C21_affine s sa f _ hf x P k hs ha hP (fun t => hd t) dA dC hA hC i N
  obtain ⟨sa'', h8, h9⟩ := LKF.C20_run sa x P k ha hP (fun N => augment (⟨d (k + N), 0, 0⟩ : AffModel n m p)) (fun N => hd _)
    (fun N => augmentIn (i N)) N
  rw [h4] at h8
  cases h8
  have e : ∀ M, linRun (fun N => augment (⟨d (k + N), 0, 0⟩ : AffModel n m p)) (fun N => augmentIn (i N)) (x, P) M =
      linRun (fun N => d (k + N)) i (x, P) M := by
    intro M
    induction M with
    | zero => rfl
    | succ M ih =>
      simp only [linRun, ih]
      rw [← affStep_eq]
      simp only [affStep, linStep, predState, predMeas, add_zero]
  rw [e N] at h9
  exact ⟨s', sl', h3, h1, by rw [h5, h9.x, h2.x], by rw [h6, h9.pr, h2.pr], h7⟩

/-- The hypotheses of C21 are met: `x⁺ = x + u + 1`, `y = x + u + 2`. -/
example : ∃ (f : Functor) (d : Int → AffModel 1 1 1), IsAffine f d ∧ (∀ t, (d t).Ok) ∧
    ∃ s, init 1 1 1 true f (fun _ => 3) 1 0 = .ok s ∧ InUse s 1 1 1 f (fun _ => 3) 1 0 := by
  let dm : AffModel 1 1 1 := ⟨⟨1, 1, 1, 1, 1, 1⟩, fun _ => 1, fun _ => 2⟩
  let f : Functor := ⟨fun x u _ => if h : x.size = 1 ∧ u.size = 1 then .ok ⟨1, fun _ => x.val ⟨0, by omega⟩ + u.val ⟨0, by omega⟩ + 1⟩ else .ok x,
    fun x u _ => if h : x.size = 1 ∧ u.size = 1 then .ok ⟨1, fun _ => x.val ⟨0, by omega⟩ + u.val ⟨0, by omega⟩ + 2⟩ else .ok x⟩
  refine ⟨f, fun _ => dm, ⟨?_, ?_⟩, fun _ => ⟨Matrix.PosSemidef.one, Matrix.PosDef.one⟩, init_inUse 1 1 1 true f _ 1 0⟩
  · intro x u k
    simp only [f, dm, and_self, dif_pos, Matrix.one_mulVec]
    congr 2; funext j; rw [Subsingleton.elim j 0]; rfl
  · intro x u k
    simp only [f, dm, and_self, dif_pos, Matrix.one_mulVec]
    congr 2; funext j; rw [Subsingleton.elim j 0]; rfl

end StateObs.EKF
