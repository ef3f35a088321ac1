import Verif.KO.Ops
import Verif.EKF.JacobianProps
import Verif.EKF.StepForm
/-!
# One step of an extended filter without inputs, with Jacobians by finite differences

The sequence of calls that `update()` makes on its filter, reduced to the equations of the filter.
-/

namespace StateObs.EKF
open StateObs KF

/-- `M` is the Jacobian of `F` at `x` by forward finite differences with the steps `dx`, for the operations `sum` on the arguments and `diff` on the values;
`fx` is the value at `x`. -/
def FDJacobian (sum : DVec → DVec → Res DVec) (F : DVec → Res DVec) (diff : DVec → DVec → DVec → Res DVec) {m n : ℕ} (dx x fx : DVec)
    (M : Matrix (Fin m) (Fin n) ℝ) : Prop :=
  ∀ i : Fin n, ∃ (h : ℝ) (x' f' : DVec) (d : Fin m → ℝ), (∃ hi : i.val < dx.size, dx.val ⟨i, hi⟩ = h) ∧
    sum x ⟨n, fun j => if j = i then h else 0⟩ = .ok x' ∧ F x' = .ok f' ∧
    diff ⟨n, fun j => if j = i then h else 0⟩ f' fx = .ok ⟨m, d⟩ ∧ ∀ r, M r i = d r / h

theorem asCol_ok {m : ℕ} {v : DVec} {c : Fin m → ℝ} (h : asCol m v = .ok c) : v = ⟨m, c⟩ := by
  unfold asCol at h
  split_ifs at h with hs
  subst hs
  cases h
  rfl

theorem divBy_mk {m : ℕ} {d : DVec} {c : Fin m → ℝ} {h : ℝ} (e : d.divBy h = ⟨m, c⟩) : ∃ d', d = ⟨m, d'⟩ ∧ ∀ r, c r = d' r / h := by
  obtain ⟨n, v⟩ := d
  simp only [DVec.divBy, DVec.mk.injEq] at e
  obtain ⟨rfl, e⟩ := e
  have := eq_of_heq e
  subst this
  exact ⟨v, rfl, fun r => rfl⟩

theorem at_ok {v : DVec} {i : ℕ} {h : ℝ} (e : DVec.at v i = .ok h) : ∃ hi : i < v.size, v.val ⟨i, hi⟩ = h := by
  unfold DVec.at at e
  split_ifs at e with hi
  exact ⟨hi, Res.ok.inj e⟩

theorem prediction_fresh {s : KFilter Ext} {v : DVec} {k : Int} {f : Functor} (hx : s.x = some (v, k)) (hp : s.st.p = 0)
    (hf : s.st.ext.f = some f) (hc : notCached s.st.xbar (k + 1) = true) :
    prediction s (k + 1) = (f.stateDynamics v (DVec.zero 0) k >>= fun xb =>
      .ok { s with st := { s.st with xbar := some (xb, k + 1), ext := { s.st.ext with optU := DVec.zero 0 } } }) := by
  rw [prediction_form s v k hx, predE, if_pos hc, if_neg (by omega), hf, hp]
  simp only [Res.ok_bind, Res.bind_assoc]

theorem prediction_cached {s : KFilter Ext} {k : Int} {xb : DVec} (hc : s.st.xbar = some (xb, k)) : prediction s k = .ok s := by
  rw [prediction, hc, notCached_self]; simp

theorem getAMatrixFD_ok {s s' : KFilter Ext} {v dx : DVec} {k : Int} {f : Functor} {A : DMat} (hx : s.x = some (v, k)) (hp : s.st.p = 0)
    (hf : s.st.ext.f = some f) (hc : notCached s.st.xbar (k + 1) = true) (h : getAMatrixFD s dx = .ok (A, s')) :
    ∃ (xb : DVec) (M : Matrix (Fin s.st.nt) (Fin s.st.nt) ℝ), f.stateDynamics v (DVec.zero 0) k = .ok xb ∧ A = ⟨s.st.nt, s.st.nt, M⟩ ∧
      FDJacobian s.st.arith.stateSum (fun x => f.stateDynamics x (DVec.zero 0) k) s.st.arith.stateDifference dx v xb M ∧
      s' = { s with st := { s.st with xbar := some (xb, k + 1), ext := { s.st.ext with optU := DVec.zero 0 } } } := by
  simp only [getAMatrixFD, updateStatePrediction, Res.bind_eq_ok, Obs.getCurrentTime, hx, Res.ok.injEq] at h
  obtain ⟨k0, rfl, s1, ⟨k1, rfl, h1⟩, x, h2, u, h3, c, h4, h5⟩ := h
  rw [prediction_fresh hx hp hf hc, Res.bind_eq_ok] at h1
  obtain ⟨xb, hxb, h1⟩ := h1
  cases h1
  simp only [hx, val, Res.ok.injEq] at h2
  subst h2
  simp only [hp, lt_irrefl, if_false, Res.ok.injEq] at h3
  subst h3
  cases h5
  refine ⟨xb, fun r c' => c c' r, hxb, rfl, fun i => ?_, by simp [hx]⟩
  have := cols_eq_ok _ _ c h4 i
  simp only [colA, Res.bind_eq_ok, hf, val, Res.ok.injEq] at this
  obtain ⟨hh, e1, x', e2, _, rfl, xp, e3, d, e4, e5⟩ := this
  obtain ⟨d', rfl, hd⟩ := divBy_mk (asCol_ok e5)
  exact ⟨hh, x', xp, d', at_ok e1, e2, e3, e4, hd⟩

theorem getCMatrixFD_ok {s s' : KFilter Ext} {v xb dx : DVec} {k : Int} {f : Functor} {C : DMat} (hx : s.x = some (v, k)) (hp : s.st.p = 0)
    (hf : s.st.ext.f = some f) (hc : s.st.xbar = some (xb, k + 1)) (hy : notCached s.st.ybar (k + 1) = true)
    (h : getCMatrixFD s dx = .ok (C, s')) :
    ∃ (yb : DVec) (M : Matrix (Fin s.st.m) (Fin s.st.nt) ℝ), f.measureDynamics xb s.st.ext.optU (k + 1) = .ok yb ∧ C = ⟨s.st.m, s.st.nt, M⟩ ∧
      FDJacobian s.st.arith.stateSum (fun x => f.measureDynamics x s.st.ext.optU (k + 1)) (fun _ => DVec.sub) dx xb yb M ∧
      s' = { s with st := { s.st with ybar := some (yb, k + 1) } } := by
  have hk : s.getCurrentTime = .ok k := by simp [Obs.getCurrentTime, hx]
  have hp0 : ¬ s.st.p > 0 := by omega
  have e1 : updateStateAndMeasurementPrediction s = predictSensor s (k + 1) := by
    simp only [updateStateAndMeasurementPrediction, updateStatePrediction, hk, Res.ok_bind, prediction_cached hc]
  rw [getCMatrixFD, hk, Res.ok_bind, e1, predictSensor_form s xb (k + 1) k hc, sensE, if_pos hy, hf] at h
  simp only [sensU, if_neg hp0, Res.ok_bind, Res.bind_assoc, Res.bind_eq_ok] at h
  obtain ⟨yb, hyb, s2, h2, c, h4, u, h5, h6⟩ := h
  rw [prediction_cached (xb := xb) (by simpa using hc)] at h2
  cases h2
  simp only [sensorInput, if_neg hp0] at h5
  have hu : u = s.st.ext.optU := by
    split_ifs at h5 <;> exact (Res.ok.inj h5).symm
  subst hu
  cases h6
  refine ⟨yb, fun r c' => c c' r, hyb, rfl, fun i => ?_, rfl⟩
  have := cols_eq_ok _ _ c h4 i
  simp only [colC, Res.bind_eq_ok, hf, val, Res.ok.injEq, hc, simulateSensor, sensorInput, if_neg hp0] at this
  obtain ⟨hh, e1, _, rfl, x', e2, ⟨yp, u⟩, ⟨_, rfl, y', e3, e4⟩, _, rfl, d, e5, e6⟩ := this
  cases e4
  obtain ⟨d', rfl, hd⟩ := divBy_mk (asCol_ok e6)
  exact ⟨hh, x', yp, d', at_ok e1, e2, e3, e5, hd⟩

theorem step_cached {s s' : KFilter Ext} {v xb yb : DVec} {k : Int} (hx : s.x = some (v, k)) (hp : s.st.p = 0)
    (hc : s.st.xbar = some (xb, k + 1)) (hy : s.st.ybar = some (yb, k + 1)) (h : getEstimatedState s (k + 1) = .ok s') :
    ∃ y xhat P inn K yr, s.y.get (k + 1) = .ok y ∧ correct s.st xb yb y = .ok (xhat, P, inn, K) ∧ Obs.popIf (k + 1) s.y = .ok yr ∧
      (s.st.checkA s.st.a = true ∧ s.st.checkC s.st.c = true ∧ s.st.checkQ s.st.q = true ∧ s.st.checkR s.st.r = true ∧ s.st.checkP s.st.pr = true) ∧
      s' = { s with x := some (xhat, k + 1), y := yr, st := { s.st with pr := P, innovation := inn, kGain := K } } := by
  have hk : s.getCurrentTime = .ok k := by simp [Obs.getCurrentTime, hx]
  have hn : (k + 1 - k).toNat = 1 := by omega
  rw [getEstimatedState, KF.getEstimatedState, oneStep_form, Obs.getEstimatedState, hk, Res.ok_bind, Res.bind_eq_ok] at h
  obtain ⟨-, -, h⟩ := h
  rw [hn] at h
  simp only [Obs.loop, Obs.loopBody, Obs.kalmanStep, hx, Res.bind_eq_ok, stepF, cfg, hp, lt_irrefl, if_false, predE, sensE, hc, hy, notCached_self,
    Bool.false_eq_true, val, Res.ok.injEq] at h
  obtain ⟨_, ⟨_, ⟨y, h1, ⟨st, x'⟩, ⟨a1, b1, a2, b2, a3, b3, a4, b4, a5, b5, ⟨_, _⟩, ⟨_, rfl, h6⟩, ⟨_, _⟩, ⟨_, rfl, h7⟩, ⟨xhat, P, inn, K⟩, h2, h3⟩, rfl⟩,
    yr, h4, rfl⟩, rfl⟩ := h
  cases h6; cases h7; cases h3
  have key : ∀ (b : Bool) (a : Unit), Res.assert b = .ok a → b = true := by
    intro b a hb; cases b
    · cases hb
    · rfl
  exact ⟨y, xhat, P, inn, K, yr, h1, h2, h4, ⟨key _ _ b1, key _ _ b2, key _ _ b3, key _ _ b4, key _ _ b5⟩, by simp [hc, hy, hp]⟩

end StateObs.EKF
