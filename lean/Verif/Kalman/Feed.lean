import Verif.Kalman.LinProps
/-!
# Feeding a linear filter with `pushMeasurement`/`pushInput` and estimating

The use of the filter by the LIPM estimators: a measurement and an input are pushed together, later `estimateState` is called.
-/

namespace StateObs.LKF
open StateObs Matrix KFSpec KF
variable {n m p : ℕ}

/-- The filter has model `d`, estimate `x` with covariance `P` at time `k`, the pairs (input, measurement) `pend` are waiting, and `old`
(at most one) already used measurements are still stored. -/
structure Fed (s : KFilter Ext) (d : LinModel n m p) (x : Fin n → ℝ) (P : Matrix (Fin n) (Fin n) ℝ) (k : Int) (old : ℕ)
    (pend : List ((Fin p → ℝ) × (Fin m → ℝ))) : Prop where
  model : HasModel s d P
  x : s.x = some (⟨n, x⟩, k)
  uv : s.u.v = pend.map fun q => (⟨p, q.1⟩ : DVec)
  uk : pend ≠ [] → s.u.k = k
  hold : old ≤ 1
  y : ∃ o : List DVec, o.length = old ∧ s.y.v = o ++ pend.map fun q => (⟨m, q.2⟩ : DVec)
  yk : s.y.v ≠ [] → s.y.k = k + 1 - old

theorem Fed.size {s : KFilter Ext} {d : LinModel n m p} {x P k old pend} (h : Fed s d x P k old pend) :
    s.y.size = old + pend.length := by
  obtain ⟨o, h1, h2⟩ := h.y
  simp [IArr.size, h2, h1]

/-- Pushing a measurement and an input. -/
theorem Fed.push {s : KFilter Ext} {d : LinModel n m p} {x P k old pend} (h : Fed s d x P k old pend) (hp : 0 < p)
    (u : Fin p → ℝ) (y : Fin m → ℝ) :
    ∃ s', (do let s ← Obs.pushMeasurement (cfg s) s ⟨m, y⟩; Obs.pushInput (cfg s) s ⟨p, u⟩) = .ok s' ∧
      Fed s' d x P k old (pend ++ [(u, y)]) ∧ s'.st = s.st := by
  obtain ⟨o, ho, hy⟩ := h.y
  have hold := h.hold
  have hokY : (cfg s).okY ⟨m, y⟩ = true := by simp [cfg, h.model.hm]
  -- measurement
  have h1 : Obs.pushMeasurement (cfg s) s ⟨m, y⟩ = .ok { s with y := ⟨k + 1 - old, o ++ (pend ++ [(u, y)]).map fun q => (⟨m, q.2⟩ : DVec)⟩ } := by
    unfold Obs.pushMeasurement
    rw [hokY]
    simp only [Res.assert_true, Res.ok_bind]
    by_cases hs : s.y.size > 0
    · rw [if_pos hs]
      have hne : s.y.v ≠ [] := by intro h0; simp [IArr.size, h0] at hs
      simp [IArr.pushBack, h.yk hne, hy]
    · rw [if_neg hs]
      have h0 : s.y.v = [] := by
        simp only [IArr.size, not_lt, Nat.le_zero, List.length_eq_zero_iff, gt_iff_lt] at hs
        exact hs
      have h00 : o = [] ∧ pend = [] := by rw [h0] at hy; simpa using hy.symm
      obtain ⟨rfl, rfl⟩ := h00
      simp only [List.length_nil] at ho
      subst ho
      rw [h.x]
      simp [IArr.setValue, IArr.checkIndex, IArr.checkNext, h0]
  set s1 : KFilter Ext := { s with y := ⟨k + 1 - old, o ++ (pend ++ [(u, y)]).map fun q => (⟨m, q.2⟩ : DVec)⟩ } with hs1
  have hokU : (cfg s1).okU ⟨p, u⟩ = true := by simp [cfg, hs1, h.model.hp]
  have hp1 : (cfg s1).p > 0 := by simp [cfg, hs1, h.model.hp, hp]
  have h2 : Obs.pushInput (cfg s1) s1 ⟨p, u⟩ = .ok { s1 with u := ⟨k, (pend ++ [(u, y)]).map fun q => (⟨p, q.1⟩ : DVec)⟩ } := by
    unfold Obs.pushInput
    rw [if_pos hp1, hokU]
    simp only [Res.assert_true, Res.ok_bind]
    by_cases hs : s1.u.size > 0
    · rw [if_pos hs]
      have hs' : s.u.size > 0 := hs
      have hne : pend ≠ [] := by rintro rfl; simp [IArr.size, h.uv] at hs'
      simp [IArr.pushBack, hs1, h.uk hne, h.uv]
    · rw [if_neg hs]
      have hs' : ¬ s.u.size > 0 := hs
      have h0 : pend = [] := by
        simpa only [IArr.size, h.uv, List.length_map, not_lt, Nat.le_zero, List.length_eq_zero_iff, gt_iff_lt] using hs'
      subst h0
      have hu0 : s.u.v = [] := by rw [h.uv]; rfl
      have hx1 : s1.x = some (⟨n, x⟩, k) := h.x
      rw [hx1]
      simp [IArr.setValue, IArr.checkIndex, IArr.checkNext, hs1, hu0]
  refine ⟨_, (congrArg (fun r => r >>= _) h1).trans h2, ?_, rfl⟩
  exact ⟨⟨h.model.hn, h.model.hm, h.model.hp, h.model.mats, h.model.ar, h.model.b, h.model.d⟩, h.x, rfl, fun _ => rfl, hold,
    ⟨o, ho, rfl⟩, fun _ => rfl⟩

/-- The members that no step touches. -/
structure SameRest (s' s : KFilter Ext) : Prop where
  n : s'.st.n = s.st.n
  nt : s'.st.nt = s.st.nt
  m : s'.st.m = s.st.m
  mt : s'.st.mt = s.st.mt
  p : s'.st.p = s.st.p
  a : s'.st.a = s.st.a
  c : s'.st.c = s.st.c
  q : s'.st.q = s.st.q
  r : s'.st.r = s.st.r
  arith : s'.st.arith = s.st.arith
  ext : s'.st.ext = s.st.ext

theorem SameRest.refl (s : KFilter Ext) : SameRest s s := ⟨rfl, rfl, rfl, rfl, rfl, rfl, rfl, rfl, rfl, rfl, rfl⟩

theorem SameRest.trans {a b c : KFilter Ext} (h1 : SameRest a b) (h2 : SameRest b c) : SameRest a c :=
  ⟨h1.n.trans h2.n, h1.nt.trans h2.nt, h1.m.trans h2.m, h1.mt.trans h2.mt, h1.p.trans h2.p, h1.a.trans h2.a, h1.c.trans h2.c,
    h1.q.trans h2.q, h1.r.trans h2.r, h1.arith.trans h2.arith, h1.ext.trans h2.ext⟩

/-- The filter after the waiting data. -/
noncomputable def consume (d : LinModel n m p) (z : (Fin n → ℝ) × Matrix (Fin n) (Fin n) ℝ)
    (pend : List ((Fin p → ℝ) × (Fin m → ℝ))) : (Fin n → ℝ) × Matrix (Fin n) (Fin n) ℝ :=
  pend.foldl (fun z q => linStep d ⟨q.1, 0, q.2⟩ z) z

/-- One iteration of the loop. -/
theorem Fed.body {s : KFilter Ext} {d : LinModel n m p} {x P k old q pend} (h : Fed s d x P k old (q :: pend)) (hp : 0 < p)
    (hd : d.Ok) (hD : d.D = 0) (hP : P.PosSemidef) (K : Int) (hK : K = k + 1 + pend.length) :
    ∃ s', Obs.loopBody (cfg s) (oneStep virt) K s = .ok s' ∧
      Fed s' d (linStep d ⟨q.1, 0, q.2⟩ (x, P)).1 (linStep d ⟨q.1, 0, q.2⟩ (x, P)).2 (k + 1) (if pend = [] then 1 else old) pend ∧
      SameRest s' s ∧ cfg s' = cfg s := by
  obtain ⟨o, ho, hy⟩ := h.y
  have hold := h.hold
  have hyne : s.y.v ≠ [] := by rw [hy]; simp
  have hyk := h.yk hyne
  have huk := h.uk (by simp)
  have huv : s.u.v = ⟨p, q.1⟩ :: pend.map fun q => (⟨p, q.1⟩ : DVec) := h.uv
  have hget : s.y.get (k + 1) = .ok ⟨m, q.2⟩ := by
    have hlen : s.y.v.length = old + (pend.length + 1) := by rw [hy]; simp [ho]
    have e : (k + 1 - s.y.k).toNat = old := by omega
    have hc : s.y.checkIndex (k + 1) = true := by
      simp only [IArr.checkIndex, hlen, Bool.and_eq_true, decide_eq_true_eq]
      refine ⟨⟨by omega, by omega⟩, by push_cast; omega⟩
    simp only [IArr.get, hc, Res.assert_true, Res.ok_bind, e, hy]
    rw [List.getElem?_append_right (by omega)]
    simp [ho]
  have hgu : s.u.get k = .ok ⟨p, q.1⟩ := by
    simp [IArr.get, IArr.checkIndex, huv, huk]
  have hstep := oneStep_eq h.model hd hP x k h.x ⟨q.1, 0, q.2⟩ hget (Or.inr (Or.inr hgu)) (Or.inr (Or.inl hD))
  -- the measurement buffer
  have hpy : ∃ yv, Obs.popIf K s.y = .ok ⟨k + 2 - ((if pend = [] then 1 else old : ℕ) : Int), yv⟩ ∧
      ∃ o' : List DVec, o'.length = (if pend = [] then 1 else old) ∧ yv = o' ++ pend.map fun q => (⟨m, q.2⟩ : DVec) := by
    unfold Obs.popIf IArr.getFirstIndex IArr.popFront
    rw [hy, hyk]
    match o, ho with
    | [], ho =>
      simp only [List.length_nil] at ho
      subst ho
      by_cases hpn : pend = []
      · subst hpn
        have : ¬ k + 1 - ((0 : ℕ) : Int) < K := by simp [hK]
        rw [if_neg this]
        refine ⟨[⟨m, q.2⟩], ?_, [⟨m, q.2⟩], by simp, by simp⟩
        have h1 : s.y.k = k + 1 := by simp [hyk]
        have h2 : s.y.v = [⟨m, q.2⟩] := by rw [hy]; rfl
        simp only [if_true, Nat.cast_one, show k + 2 - 1 = k + 1 by omega]
        rw [← h1, ← h2]
      · have : k + 1 - ((0 : ℕ) : Int) < K := by
          have := List.length_pos_iff.2 hpn
          simp only [Nat.cast_zero, sub_zero, hK]; omega
        rw [if_pos this]
        refine ⟨_, ?_, [], by simp [hpn], rfl⟩
        simp only [List.map_cons, List.nil_append, hpn, if_false, Res.ok.injEq, IArr.mk.injEq, and_true]
        simp; omega
    | [a], ho =>
      simp only [List.length_cons, List.length_nil] at ho
      subst ho
      have : k + 1 - (((0 + 1 : ℕ)) : Int) < K := by simp [hK]; omega
      rw [if_pos this]
      by_cases hpn : pend = []
      · subst hpn
        refine ⟨[⟨m, q.2⟩], ?_, [⟨m, q.2⟩], by simp, by simp⟩
        simp; omega
      · refine ⟨_, ?_, [⟨m, q.2⟩], by simp [hpn], rfl⟩
        simp [hpn]; omega
    | a :: b :: t, ho =>
      simp only [List.length_cons] at ho
      omega
  obtain ⟨yv, hpy, o', ho', hyv⟩ := hpy
  have hpu : Obs.popIf K s.u = .ok ⟨k + 1, pend.map fun q => (⟨p, q.1⟩ : DVec)⟩ := by
    unfold Obs.popIf IArr.getFirstIndex IArr.popFront
    rw [huv, huk, if_pos (by omega)]
  have hp1 : (cfg s).p > 0 := by simp [cfg, h.model.hp, hp]
  have hfin : ∀ s1 : KFilter Ext, oneStep virt s = .ok s1 → s1.y = s.y → s1.u = s.u → Obs.loopBody (cfg s) (oneStep virt) K s =
      .ok { s1 with
        y := ⟨k + 2 - ((if pend = [] then 1 else old : ℕ) : Int), yv⟩
        u := ⟨k + 1, pend.map fun q => (⟨p, q.1⟩ : DVec)⟩ } := by
    intro s1 e1 e2 e3
    rw [Obs.loopBody, e1, Res.ok_bind, e2, hpy, Res.ok_bind]
    simp only [hp1, if_true]
    rw [e3, hpu, Res.ok_bind]
  refine ⟨_, hfin _ hstep rfl rfl, ?_, ⟨rfl, rfl, rfl, rfl, rfl, rfl, rfl, rfl, rfl, rfl, rfl⟩, rfl⟩
  refine ⟨⟨h.model.hn, h.model.hm, h.model.hp, ⟨h.model.mats.hnt, h.model.mats.hmt, h.model.mats.a, h.model.mats.q, rfl,
      h.model.mats.c, h.model.mats.r⟩, h.model.ar, h.model.b, h.model.d⟩, rfl, rfl, fun _ => rfl, ?_, ⟨o', ho', hyv⟩, fun _ => ?_⟩
  · split_ifs <;> omega
  · simp only; omega

theorem Fed.loop (hp : 0 < p) {d : LinModel n m p} (hd : d.Ok) (hD : d.D = 0) : ∀ (pend : List ((Fin p → ℝ) × (Fin m → ℝ)))
    {s : KFilter Ext} {x : Fin n → ℝ} {P : Matrix (Fin n) (Fin n) ℝ} {k : Int} {old : ℕ}, Fed s d x P k old pend → P.PosSemidef →
    ∃ s', Obs.loop (cfg s) (oneStep virt) (k + pend.length) pend.length s = .ok s' ∧
      Fed s' d (consume d (x, P) pend).1 (consume d (x, P) pend).2 (k + pend.length) (if pend = [] then old else 1) [] ∧ SameRest s' s
  | [], s, x, P, k, old, h, hP => by
    refine ⟨s, rfl, ?_, SameRest.refl s⟩
    simpa [consume] using h
  | q :: pend, s, x, P, k, old, h, hP => by
    obtain ⟨s1, h1, h2, h3, h4⟩ := h.body hp hd hD hP (k + (q :: pend).length) (by simp; omega)
    obtain ⟨s2, h5, h6, h7⟩ := Fed.loop hp hd hD pend h2 (linStep_psd d hd _ x hP)
    refine ⟨s2, ?_, ?_, h7.trans h3⟩
    · rw [List.length_cons, Obs.loop, ← List.length_cons, h1, Res.ok_bind, ← h4]
      convert h5 using 2
      simp; omega
    · have e : k + 1 + (pend.length : Int) = k + ((q :: pend).length : ℕ) := by simp; omega
      rw [e] at h6
      have e2 : (if pend = [] then (if pend = [] then 1 else old) else 1) = 1 := by split_ifs <;> rfl
      rw [e2] at h6
      simpa [consume] using h6

/-- `estimateState` uses all waiting data. -/
theorem Fed.estimate {s : KFilter Ext} {d : LinModel n m p} {x P k old pend} (h : Fed s d x P k old pend) (hp : 0 < p)
    (hd : d.Ok) (hD : d.D = 0) (hP : P.PosSemidef) :
    ∃ s', Obs.estimateState (cfg s) (oneStep virt) s = .ok (s', k + pend.length) ∧
      Fed s' d (consume d (x, P) pend).1 (consume d (x, P) pend).2 (k + pend.length) (if pend = [] then old else 1) [] ∧ SameRest s' s := by
  obtain ⟨s', h1, h2, h3⟩ := Fed.loop hp hd hD pend h hP
  refine ⟨s', ?_, h2, h3⟩
  unfold Obs.estimateState
  have hsz := h.size
  have ht : s'.getCurrentTime = .ok (k + pend.length) := by simp [Obs.getCurrentTime, h2.x]
  by_cases hs : s.y.size > 0
  · rw [if_pos hs]
    have hne : s.y.v ≠ [] := by intro h0; simp [IArr.size, h0] at hs
    have hlast : s.getMeasurementTime = .ok (k + pend.length) := by
      have hyk := h.yk hne
      have : s.y.v.length = old + pend.length := hsz
      simp [Obs.getMeasurementTime, hs, IArr.getLastIndex, hyk, this]
      omega
    rw [hlast, Res.ok_bind, Obs.getEstimatedState, Obs.getCurrentTime, h.x]
    simp only [Res.ok_bind]
    have hle : k ≤ k + (pend.length : Int) := by omega
    rw [decide_eq_true hle, Res.assert_true, Res.ok_bind, show (k + (pend.length : Int) - k).toNat = pend.length by omega, h1, Res.ok_bind,
      ht, Res.ok_bind]
  · rw [if_neg hs]
    have hp0 : pend = [] := by
      have : pend.length = 0 := by omega
      exact List.length_eq_zero_iff.1 this
    subst hp0
    have : s' = s := by
      have := h1
      simp only [List.length_nil, Obs.loop] at this
      exact (Res.ok.inj this).symm
    subst this
    simp only [Res.ok_bind]
    rw [ht, Res.ok_bind]

/-- The loop asked for explicitly, as in `update()` of the one-dimensional estimator: `getEstimatedState(getMeasurementTime())`. -/
theorem Fed.getEstimated {s : KFilter Ext} {d : LinModel n m p} {x P k old pend} (h : Fed s d x P k old pend) (hp : 0 < p)
    (hd : d.Ok) (hD : d.D = 0) (hP : P.PosSemidef) (hne : 0 < s.y.size) :
    ∃ s', (do let K ← s.getMeasurementTime; getEstimatedState s K) = .ok s' ∧
      Fed s' d (consume d (x, P) pend).1 (consume d (x, P) pend).2 (k + pend.length) (if pend = [] then old else 1) [] ∧ SameRest s' s := by
  obtain ⟨s', h1, h2, h3⟩ := Fed.loop hp hd hD pend h hP
  refine ⟨s', ?_, h2, h3⟩
  have hsz := h.size
  have hne' : s.y.v ≠ [] := by intro h0; simp [IArr.size, h0] at hne
  have hlast : s.getMeasurementTime = .ok (k + pend.length) := by
    have hyk := h.yk hne'
    have : s.y.v.length = old + pend.length := hsz
    simp [Obs.getMeasurementTime, hne, IArr.getLastIndex, hyk, this]
    omega
  rw [hlast, Res.ok_bind, getEstimatedState, KF.getEstimatedState, Obs.getEstimatedState, Obs.getCurrentTime, h.x]
  simp only [Res.ok_bind]
  have hle : k ≤ k + (pend.length : Int) := by omega
  rw [decide_eq_true hle, Res.assert_true, Res.ok_bind, show (k + (pend.length : Int) - k).toNat = pend.length by omega, h1]

end StateObs.LKF
