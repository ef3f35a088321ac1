import Verif.Kalman.LinLemmas
import Verif.ZeroDelay.Props
/-!
# The linear Kalman filter is a filter in the sense of properties C07-C12

C07, C08 and C11 are stated for filters whose step reads the buffers in the way `Obs.kalmanStep` describes. Here the step of
`LinearKalmanFilter` is shown to be of this form (for all states and outcomes), and the properties are instantiated.
-/

namespace StateObs.LKF
open StateObs KF

open Classical in
/-- Prediction of the state from the look-up of the input. -/
noncomputable def predF (st : KData Ext) (x : DVec) (u : Res DVec) : Res DVec := do
  Res.assert (st.checkA st.a)
  Res.assert (checkB st st.ext.b)
  Res.assert (st.checkC st.c)
  let xb ← st.a.mulVec x
  if st.p > 0 ∧ st.ext.b ≠ DMat.zero st.n st.p then do
    let u ← u
    xb.add (← st.ext.b.mulVec u)
  else .ok xb

open Classical in
/-- Prediction of the measurement from the look-up of the input. -/
noncomputable def sensF (st : KData Ext) (xb : DVec) (u : Res DVec) : Res DVec := do
  Res.assert (st.checkC st.c)
  if st.p > 0 ∧ checkD st st.ext.d = true ∧ st.ext.d ≠ DMat.zero st.m st.p then do
    let u ← u
    let cx ← st.c.mulVec xb
    cx.add (← st.ext.d.mulVec u)
  else st.c.mulVec xb

/-- The step of the linear filter as a function of its data, the state, the measurement and the look-ups of the inputs. -/
noncomputable def stepF (st : KData Ext) (x : DVec) (k : Int) (y : DVec) (u0 u1 : Res DVec) : Res (KData Ext × DVec) := do
  Res.assert (st.checkA st.a)
  Res.assert (st.checkC st.c)
  Res.assert (st.checkQ st.q)
  Res.assert (st.checkR st.r)
  Res.assert (st.checkP st.pr)
  let xb ← predF st x u0
  let yb ← sensF st xb u1
  let (xhat, P, innovation, K) ← correct { st with xbar := some (xb, k + 1), ybar := some (yb, k + 1) } xb yb y
  .ok ({ st with xbar := some (xb, k + 1), ybar := some (yb, k + 1), pr := P, innovation := innovation, kGain := K }, xhat)

theorem get_assert {α : Type} (a : IArr α) (k : Int) : (Res.assert (a.checkIndex k) >>= fun _ => a.get k) = a.get k := by
  cases h : a.checkIndex k <;> simp [IArr.get, h]

theorem prediction_form (s : KFilter Ext) (x : DVec) (t k : Int) (hx : s.x = some (x, t)) :
    prediction s (k + 1) = (predF s.st x (s.u.get k) >>= fun xb =>
      .ok { s with st := { s.st with xbar := some (xb, k + 1) } }) := by
  unfold prediction predF
  rw [hx]
  simp only [val, Res.ok_bind, Res.bind_assoc, show k + 1 - 1 = k by omega]
  congr 1; funext _; congr 1; funext _; congr 1; funext _; congr 1; funext xb
  split_ifs with h
  · simp only [Res.bind_assoc]
    rw [← Res.bind_assoc, get_assert]
  · rfl

theorem predictSensor_form (s : KFilter Ext) (xb : DVec) (t k : Int) (hx : s.st.xbar = some (xb, t)) :
    predictSensor s k = (sensF s.st xb (s.u.get k) >>= fun yb =>
      .ok { s with st := { s.st with ybar := some (yb, k) } }) := by
  unfold predictSensor simulateSensor sensF
  rw [hx]
  simp only [val, Res.ok_bind, Res.bind_assoc]
  congr 1; funext _
  split_ifs with h
  · simp only [Res.bind_assoc]
    cases hc : s.u.checkIndex k with
    | false =>
      have : s.u.get k = .assertFail := by simp [IArr.get, hc]
      rw [this]; rfl
    | true =>
      simp only [Res.assert_true, Res.ok_bind]
      cases hg : s.u.get k with
      | ok u => simp only [Res.ok_bind]
      | assertFail => simp [IArr.get, hc] at hg; split at hg <;> simp at hg
      | ub =>
        exfalso
        rw [Obs.get_eq] at hg
        split at hg <;> simp at hg
      | exn => simp [IArr.get, hc] at hg; split at hg <;> simp at hg
  · rfl

/-- `oneStepEstimation_` of `LinearKalmanFilter` has the form used in C07-C12. -/
theorem oneStep_form : oneStep virt = Obs.kalmanStep stepF := by
  funext s
  unfold oneStep Obs.kalmanStep
  cases hx : s.x with
  | none => rfl
  | some q =>
    obtain ⟨x, k⟩ := q
    simp only
    by_cases hy : s.y.checkIndex (k + 1) = true
    · have hsz : s.y.size > 0 := by
        simp only [IArr.checkIndex, Bool.and_eq_true, decide_eq_true_eq] at hy
        exact hy.1.1
      obtain ⟨y, hg⟩ : ∃ y, s.y.get (k + 1) = .ok y := by
        rw [Obs.get_eq]
        have := (IArrSpec.absMap_isSome s.y (k + 1)).2 ((IArrSpec.checkIndex_iff _ _).1 hy)
        obtain ⟨y, h⟩ := Option.isSome_iff_exists.1 this
        exact ⟨y, by rw [h]⟩
      simp only [hy, hsz, decide_true, Bool.and_self, Res.assert_true, Res.ok_bind, hg, stepF, Res.bind_assoc, virt]
      congr 1; funext _; congr 1; funext _; congr 1; funext _; congr 1; funext _; congr 1; funext _
      rw [prediction_form s x k k hx]
      simp only [Res.bind_assoc, Res.ok_bind]
      congr 1; funext xb
      rw [predictSensor_form _ xb (k + 1) (k + 1) rfl]
      have e : sensF { s.st with xbar := some (xb, k + 1) } xb (s.u.get (k + 1)) = sensF s.st xb (s.u.get (k + 1)) := rfl
      simp only [Res.bind_assoc, Res.ok_bind, e]
      congr 1; funext yb
      simp only [val, Res.ok_bind, hg]
    · have hg : s.y.get (k + 1) = .assertFail := by simp [IArr.get, hy]
      rw [hg]
      have : s.y.checkIndex (k + 1) = false := by simpa using hy
      simp only [this, Bool.and_false, Res.assert_false, Res.assertFail_bind]

/-- **C07** for the linear Kalman filter. -/
theorem C07_linear (s : KFilter Ext) (x : DVec) (k K : Int) (hx : s.x = some (x, k)) (hk : k ≤ K)
    (hy : s.y.size ≠ 0 → k ≤ s.y.getFirstIndex)
    (hu : s.st.p = 0 ∨ (s.u.getFirstIndex = k ∧ K ≤ s.u.getNextIndex)) :
    (getEstimatedState s K >>= fun s' => .ok (s'.st, s'.x)) =
      (Obs.iter stepF s.y.get s.u.get (K - k).toNat s.st x k >>= fun q => .ok (q.1, some (q.2, K))) := by
  rw [getEstimatedState, KF.getEstimatedState, oneStep_form]
  exact Obs.C07_getEstimatedState (cfg s) stepF s x k K hx hk hy hu

/-- **C08** for the linear Kalman filter: estimating up to `K1` and then to `K2` is the same as estimating up to `K2`. -/
theorem C08_linear (s : KFilter Ext) (x : DVec) (k K1 K2 : Int) (hx : s.x = some (x, k)) (h1 : k ≤ K1) (h2 : K1 ≤ K2)
    (hy : s.y.size ≠ 0 → k ≤ s.y.getFirstIndex)
    (hu : s.st.p = 0 ∨ (s.u.getFirstIndex = k ∧ K2 ≤ s.u.getNextIndex)) :
    (getEstimatedState s K1 >>= fun s' => getEstimatedState s' K2) = getEstimatedState s K2 := by
  have := Obs.C08_split (cfg s) stepF s x k K1 K2 hx h1 h2 hy hu
  rw [← oneStep_form] at this
  have e0 : getEstimatedState s K2 = Obs.getEstimatedState (cfg s) (oneStep virt) s K2 := rfl
  rw [e0, ← this]
  cases h : getEstimatedState s K1 with
  | ok s' =>
    have h' : Obs.getEstimatedState (cfg s) (oneStep virt) s K1 = .ok s' := h
    rw [h']
    simp only [Res.ok_bind, getEstimatedState, KF.getEstimatedState]
    have : cfg s' = cfg s := by
      have hi : (fun st : KData Ext => (st.n, st.m, st.p) = (s.st.n, s.st.m, s.st.p)) s'.st := by
        refine getEstimatedState_inv (V := virt) (fun st => (st.n, st.m, st.p) = (s.st.n, s.st.m, s.st.p)) ?_ s s' K1 h rfl
        intro t t' ht hi
        obtain ⟨x, k, st1, xb, yb, y, xhat, P, inn, K, -, -, ⟨e1, -, e2, -, e3, -⟩, -, -, -, -, rfl⟩ := oneStep_ok lkf_keeps ht
        simp only [e1, e2, e3]
        exact hi
      simp only [Prod.mk.injEq] at hi
      simp only [cfg, hi]
    rw [this]
  | assertFail =>
    have h' : Obs.getEstimatedState (cfg s) (oneStep virt) s K1 = .assertFail := h
    rw [h']; rfl
  | ub =>
    have h' : Obs.getEstimatedState (cfg s) (oneStep virt) s K1 = .ub := h
    rw [h']; rfl
  | exn =>
    have h' : Obs.getEstimatedState (cfg s) (oneStep virt) s K1 = .exn := h
    rw [h']; rfl

end StateObs.LKF
