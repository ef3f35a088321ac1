import Verif.EKF.Lemmas
import Verif.Kalman.StepForm
/-!
# The extended Kalman filter is a filter in the sense of properties C07-C12

The step of `ExtendedKalmanFilter` (stored predictions included) as a function of the data, the state, the measurement and the look-ups of
the inputs.
-/

namespace StateObs.EKF
open StateObs KF

/-- Prediction of the state (stored one if there is one) and value left in `opt.u_`. -/
def predE (st : KData Ext) (x : DVec) (k : Int) (u0 : Res DVec) : Res (DVec × DVec) :=
  if notCached st.xbar (k + 1) then do
    let u ← (if st.p > 0 ∧ st.ext.dirState = true then u0 else .ok (DVec.zero st.p))
    match st.ext.f with
    | some f => do
      let v ← f.stateDynamics x u k
      .ok (v, u)
    | none => .assertFail
  else do
    let xb ← val st.xbar
    .ok (xb, st.ext.optU)

/-- Input of the measurement prediction from the look-up. -/
def sensU (st : KData Ext) (o : DVec) (u1 : Res DVec) : Res DVec :=
  if st.p > 0 then
    if st.ext.dirOut = true then u1
    else match u1 with
      | .ok u => .ok u
      | _ => .ok (DVec.zero st.p)
  else .ok o

/-- Prediction of the measurement (stored one if there is one) and value left in `opt.u_`. -/
def sensE (st : KData Ext) (xb o : DVec) (k : Int) (u1 : Res DVec) : Res (DVec × DVec) :=
  if notCached st.ybar (k + 1) then
    match st.ext.f with
    | some f => do
      let u ← sensU st o u1
      let y ← f.measureDynamics xb u (k + 1)
      .ok (y, u)
    | none => .assertFail
  else do
    let yb ← val st.ybar
    .ok (yb, o)

/-- The step. -/
noncomputable def stepF (st : KData Ext) (x : DVec) (k : Int) (y : DVec) (u0 u1 : Res DVec) : Res (KData Ext × DVec) := do
  Res.assert (st.checkA st.a)
  Res.assert (st.checkC st.c)
  Res.assert (st.checkQ st.q)
  Res.assert (st.checkR st.r)
  Res.assert (st.checkP st.pr)
  let (xb, o) ← predE st x k u0
  let (yb, o') ← sensE st xb o k u1
  let (xhat, P, innovation, K) ← correct st xb yb y
  .ok ({ st with
    xbar := some (xb, k + 1), ybar := some (yb, k + 1), pr := P, innovation := innovation, kGain := K,
    ext := { st.ext with optU := o' } }, xhat)

theorem get_assert' {α : Type} (a : IArr α) (k : Int) :
    (Res.assert (decide (a.size > 0) && a.checkIndex k) >>= fun _ => a.get k) = a.get k := by
  cases h : a.checkIndex k
  · simp [IArr.get, h]
  · have : a.size > 0 := by
      simp only [IArr.checkIndex, Bool.and_eq_true, decide_eq_true_eq] at h
      exact h.1.1
    simp [this]

theorem get_cases {α : Type} (a : IArr α) (k : Int) :
    (a.checkIndex k = true ∧ ∃ x, a.get k = .ok x) ∨ (a.checkIndex k = false ∧ a.get k = .assertFail) := by
  cases h : a.checkIndex k
  · right; exact ⟨rfl, by simp [IArr.get, h]⟩
  · left
    refine ⟨rfl, ?_⟩
    rw [Obs.get_eq]
    have := (IArrSpec.absMap_isSome a k).2 ((IArrSpec.checkIndex_iff _ _).1 h)
    obtain ⟨y, hy⟩ := Option.isSome_iff_exists.1 this
    exact ⟨y, by rw [hy]⟩

theorem prediction_form (s : KFilter Ext) (x : DVec) (k : Int) (hx : s.x = some (x, k)) :
    prediction s (k + 1) = (predE s.st x k (s.u.get k) >>= fun q =>
      .ok { s with st := { s.st with xbar := some (q.1, k + 1), ext := { s.st.ext with optU := q.2 } } }) := by
  unfold prediction predE
  by_cases hc : notCached s.st.xbar (k + 1) = true
  · rw [if_pos hc, if_pos hc, show k + 1 - 1 = k by omega, get_assert', Res.bind_assoc, hx]
    congr 1; funext u
    cases hf : s.st.ext.f with
    | none => rfl
    | some f => simp only [Res.bind_assoc, Res.ok_bind]
  · rw [if_neg hc, if_neg hc]
    cases hb : s.st.xbar with
    | none => rw [hb] at hc; exact absurd rfl hc
    | some q =>
      obtain ⟨v, t⟩ := q
      rw [hb] at hc
      simp only [notCached, decide_eq_true_eq, ne_eq, not_not] at hc
      subst hc
      simp only [val, Res.ok_bind]
      rw [← hb]

theorem sensorInput_form (s : KFilter Ext) (k : Int) : sensorInput s k = sensU s.st s.st.ext.optU (s.u.get k) := by
  unfold sensorInput sensU
  by_cases hp : s.st.p > 0
  · rw [if_pos hp, if_pos hp]
    rcases get_cases s.u k with ⟨h1, u, h2⟩ | ⟨h1, h2⟩ <;> rw [h2] <;> cases hd : s.st.ext.dirOut <;> simp [h1, h2]
  · rw [if_neg hp, if_neg hp]

theorem predictSensor_form (s : KFilter Ext) (xb : DVec) (t k : Int) (hx : s.st.xbar = some (xb, t)) :
    predictSensor s (k + 1) = (sensE s.st xb s.st.ext.optU k (s.u.get (k + 1)) >>= fun q =>
      .ok { s with st := { s.st with ybar := some (q.1, k + 1), ext := { s.st.ext with optU := q.2 } } }) := by
  unfold predictSensor sensE
  by_cases hc : notCached s.st.ybar (k + 1) = true
  · rw [if_pos hc, if_pos hc, hx]
    simp only [val, Res.ok_bind, simulateSensor, sensorInput_form]
    cases hf : s.st.ext.f with
    | none => rfl
    | some f => simp only [Res.bind_assoc, Res.ok_bind]
  · rw [if_neg hc, if_neg hc]
    cases hb : s.st.ybar with
    | none => rw [hb] at hc; exact absurd rfl hc
    | some q =>
      obtain ⟨v, t⟩ := q
      rw [hb] at hc
      simp only [notCached, decide_eq_true_eq, ne_eq, not_not] at hc
      subst hc
      simp only [val, Res.ok_bind]
      rw [← hb]

/-- `oneStepEstimation_` of `ExtendedKalmanFilter` has the form used in C07-C12. -/
theorem oneStep_form : oneStep virt = Obs.kalmanStep stepF := by
  funext s
  unfold oneStep Obs.kalmanStep
  cases hx : s.x with
  | none => rfl
  | some q =>
    obtain ⟨x, k⟩ := q
    simp only
    rcases get_cases s.y (k + 1) with ⟨hy, y, hg⟩ | ⟨hy, hg⟩
    · have hsz : s.y.size > 0 := by
        simp only [IArr.checkIndex, Bool.and_eq_true, decide_eq_true_eq] at hy
        exact hy.1.1
      simp only [hy, hsz, decide_true, Bool.and_self, Res.assert_true, Res.ok_bind, hg, stepF, Res.bind_assoc, virt]
      congr 1; funext _; congr 1; funext _; congr 1; funext _; congr 1; funext _; congr 1; funext _
      rw [prediction_form s x k hx]
      simp only [Res.bind_assoc, Res.ok_bind]
      congr 1; funext q
      rw [predictSensor_form _ q.1 (k + 1) k rfl]
      simp only [Res.bind_assoc, Res.ok_bind]
      have e : sensE { s.st with xbar := some (q.1, k + 1), ext := { s.st.ext with optU := q.2 } } q.1 q.2 k (s.u.get (k + 1)) =
        sensE s.st q.1 q.2 k (s.u.get (k + 1)) := rfl
      simp only [e]
      congr 1; funext q'
      simp only [val, Res.ok_bind, hg]
      have e2 : correct { s.st with
          xbar := some (q.1, k + 1), ybar := some (q'.1, k + 1), ext := { s.st.ext with optU := q'.2 } } q.1 q'.1 y =
        correct s.st q.1 q'.1 y := rfl
      simp only [e2]
    · rw [hg]
      simp only [hy, Bool.and_false, Res.assert_false, Res.assertFail_bind]

/-- **C07** for the extended Kalman filter. -/
theorem C07_extended (s : KFilter Ext) (x : DVec) (k K : Int) (hx : s.x = some (x, k)) (hk : k ≤ K)
    (hy : s.y.size ≠ 0 → k ≤ s.y.getFirstIndex)
    (hu : s.st.p = 0 ∨ (s.u.getFirstIndex = k ∧ K ≤ s.u.getNextIndex)) :
    (getEstimatedState s K >>= fun s' => .ok (s'.st, s'.x)) =
      (Obs.iter stepF s.y.get s.u.get (K - k).toNat s.st x k >>= fun q => .ok (q.1, some (q.2, K))) := by
  rw [getEstimatedState, KF.getEstimatedState, oneStep_form]
  exact Obs.C07_getEstimatedState (cfg s) stepF s x k K hx hk hy hu

/-- **C08** for the extended Kalman filter: estimating up to `K1` and then to `K2` is the same as estimating up to `K2`. -/
theorem C08_extended (s : KFilter Ext) (x : DVec) (k K1 K2 : Int) (hx : s.x = some (x, k)) (h1 : k ≤ K1) (h2 : K1 ≤ K2)
    (hy : s.y.size ≠ 0 → k ≤ s.y.getFirstIndex)
    (hu : s.st.p = 0 ∨ (s.u.getFirstIndex = k ∧ K2 ≤ s.u.getNextIndex)) :
    (getEstimatedState s K1 >>= fun s' => getEstimatedState s' K2) = getEstimatedState s K2 := by
  have := Obs.C08_split (cfg s) stepF s x k K1 K2 hx h1 h2 hy hu
  rw [← oneStep_form] at this
  have e0 : getEstimatedState s K2 = Obs.getEstimatedState (cfg s) (oneStep virt) s K2 := rfl
  rw [e0, ← this]
  have e1 : getEstimatedState s K1 = Obs.getEstimatedState (cfg s) (oneStep virt) s K1 := rfl
  rw [← e1]
  cases h : getEstimatedState s K1 with
  | ok s' =>
    simp only [Res.ok_bind, getEstimatedState, KF.getEstimatedState]
    have : cfg s' = cfg s := by
      have hi : (fun st : KData Ext => (st.n, st.m, st.p) = (s.st.n, s.st.m, s.st.p)) s'.st := by
        refine getEstimatedState_inv (V := virt) (fun st => (st.n, st.m, st.p) = (s.st.n, s.st.m, s.st.p)) ?_ s s' K1 h rfl
        intro t t' ht hi
        obtain ⟨x, k, st1, xb, yb, y, xhat, P, inn, K, -, -, ⟨e1, -, e2, -, e3, -⟩, -, -, -, -, rfl⟩ := oneStep_ok ekf_keeps ht
        simp only [e1, e2, e3]
        exact hi
      simp only [Prod.mk.injEq] at hi
      simp only [cfg, hi]
    rw [this]
  | assertFail => rfl
  | ub => rfl
  | exn => rfl

end StateObs.EKF
