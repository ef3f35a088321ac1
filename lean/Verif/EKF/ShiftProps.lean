import Verif.ZeroDelay.ShiftProps
import Verif.EKF.StepForm
import Verif.Kalman.Examples
/-!
# C136 for the Kalman filters
-/

namespace StateObs.ShiftSpec
open StateObs KF

/-- The stored predictions, `d` later. -/
def laterData {E : Type} (d : Int) (e : E → E) (st : KData E) : KData E :=
  { st with xbar := st.xbar.map (fun q => (q.1, q.2 + d)), ybar := st.ybar.map (fun q => (q.1, q.2 + d)), ext := e st.ext }

/-- The same system, started `d` later. -/
def laterFunctor (d : Int) (e : EKF.Ext) : EKF.Ext :=
  { e with f := e.f.map fun f => ⟨fun x u k => f.stateDynamics x u (k - d), fun x u k => f.measureDynamics x u (k - d)⟩ }

end StateObs.ShiftSpec

namespace StateObs.LKF
open StateObs KF ShiftSpec

theorem correct_later {E : Type} (d : Int) (e : E → E) (st : KData E) (xb yb y : DVec) :
    correct (laterData d e st) xb yb y = correct st xb yb y := rfl

theorem stepF_later (d : Int) (st : KData Ext) (x : DVec) (k : Int) (y : DVec) (u v : Res DVec) :
    stepF (laterData d id st) x (k + d) y u v = (stepF st x k y u v >>= fun q => .ok (laterData d id q.1, q.2)) := by
  unfold stepF
  simp only [Res.bind_assoc, Res.ok_bind]
  have e : k + d + 1 = k + 1 + d := by omega
  rw [e]
  rfl

theorem stepF_ext {st : KData Ext} {x : DVec} {k : Int} {y : DVec} {u v : Res DVec} {q} (h : stepF st x k y u v = .ok q) :
    q.1.ext = st.ext ∧ q.1.n = st.n ∧ q.1.p = st.p := by
  unfold stepF at h
  simp only [Res.bind_eq_ok] at h
  obtain ⟨_, _, _, _, _, _, _, _, _, _, _, _, _, _, _, _, h⟩ := h
  cases h
  exact ⟨rfl, rfl, rfl⟩

/-- **C136**, linear filter: the calls of the first filter `d` later on the second one give the same estimates, covariances, innovations and gains, at times `d`
later; if there are no inputs or the matrix `B` is not zero, one sequence of calls fails where the other one does. -/
theorem C136_linear_partial (d : Int) (s s' : KFilter Ext) (h : Shifted d (laterData d id) s s') (ops : List (Obs.Op DVec DVec DVec)) :
    Corr (s.st.p = 0 ∨ s.st.ext.b ≠ DMat.zero s.st.n s.st.p) (Shifted d (laterData d id))
      (ops.foldlM (Obs.exec (cfg s) (oneStep virt)) s) ((ops.map (shiftOp d)).foldlM (Obs.exec (cfg s) (oneStep virt)) s') := by
  rw [oneStep_form]
  refine Obs.C136_observer_partial (cfg s) d _ (fun st => st.ext = s.st.ext ∧ st.n = s.st.n ∧ st.p = s.st.p) _ stepF
    (fun st x k y u v _ => stepF_later d st x k y u v) (fun st x k y u v q hI hq => ?_) (fun hs st x k y v q hI hp hq => ?_) s s' ⟨rfl, rfl, rfl⟩ h ops
  · obtain ⟨h1, h2, h3⟩ := stepF_ext hq
    exact ⟨h1.trans hI.1, h2.trans hI.2.1, h3.trans hI.2.2⟩
  · have hp' : s.st.p > 0 := hp
    have hb : st.p > 0 ∧ st.ext.b ≠ DMat.zero st.n st.p := by
      rw [hI.1, hI.2.1, hI.2.2]
      exact ⟨hp', hs.resolve_left (by omega)⟩
    unfold stepF at hq
    simp only [Res.bind_eq_ok] at hq
    obtain ⟨-, -, -, -, -, -, -, -, -, -, xb, hxb, -⟩ := hq
    unfold predF at hxb
    simp only [if_pos hb, Res.bind_eq_ok] at hxb
    obtain ⟨_, _, _, _, _, _, _, _, u, hu, -⟩ := hxb
    cases hu

/-- A linear filter with an input of size one that is not used (`B = 0`, no `D`), set up but not started. -/
noncomputable def idle : KFilter Ext :=
  ⟨none, ⟨0, []⟩, ⟨0, []⟩,
    { n := 1, nt := 1, m := 1, mt := 1, p := 1, a := ⟨1, 1, 1⟩, c := ⟨1, 1, 1⟩, q := ⟨1, 1, 1⟩, r := ⟨1, 1, 1⟩, pr := ⟨1, 1, 1⟩,
      xbar := none, ybar := none, innovation := ⟨0, 0⟩, kGain := .empty, arith := Arith.default, ext := ⟨⟨1, 1, 0⟩, .empty⟩ }⟩

/-- A state, the next measurement, and the estimate at its time. -/
def firstCalls (k : Int) : List (Obs.Op DVec DVec DVec) := [.setState (one1 3) k, .setMeasurement (one1 5) (k + 1), .getEstimatedState (k + 1)]

theorem idle_run (k : Int) : ((firstCalls k).foldlM (Obs.exec (cfg idle) (oneStep virt)) idle).isOk ↔ k + 1 ≤ 0 := by
  have h := oneStep_eq (s := ⟨some (one1 3, k), ⟨k + 1, [one1 5]⟩, ⟨0, []⟩, idle.st⟩) (d := (⟨1, 0, 1, 0, 1, 1⟩ : KFSpec.LinModel 1 1 1)) (P := 1)
    ⟨rfl, rfl, rfl, ⟨rfl, rfl, rfl, rfl, rfl, rfl, rfl⟩, rfl, rfl, .inr ⟨rfl, rfl⟩⟩
    ⟨Matrix.PosSemidef.one, Matrix.PosDef.one⟩ Matrix.PosSemidef.one (fun _ => 3) k rfl
    ⟨fun _ => 0, fun _ => 0, fun _ => 5⟩ (by simp [IArr.get, IArr.checkIndex]; rfl) (.inr (.inl rfl)) (.inr (.inl rfl))
  have h1 : Obs.exec (cfg idle) (oneStep virt) idle (.setState (one1 3) k) = .ok ⟨some (one1 3, k), ⟨0, []⟩, ⟨0, []⟩, idle.st⟩ := by
    simp [Obs.exec, Obs.setState, cfg, idle, one1, DVec.hasSize, Obs.getCurrentTime, Obs.dropUpTo]
  have h2 : Obs.exec (cfg idle) (oneStep virt) ⟨some (one1 3, k), ⟨0, []⟩, ⟨0, []⟩, idle.st⟩ (.setMeasurement (one1 5) (k + 1)) =
      .ok ⟨some (one1 3, k), ⟨k + 1, [one1 5]⟩, ⟨0, []⟩, idle.st⟩ := by
    simp [Obs.exec, Obs.setMeasurement, cfg, idle, one1, DVec.hasSize, IArr.size, IArr.setValue, IArr.checkIndex, IArr.checkNext]
  have hp : (cfg idle).p > 0 := by simp [cfg, idle]
  rw [firstCalls, List.foldlM_cons, h1, Res.ok_bind, List.foldlM_cons, h2, Res.ok_bind]
  simp only [List.foldlM_cons, List.foldlM_nil, Res.ok_bind, Obs.exec, Obs.getEstimatedState, Obs.getCurrentTime,
    show k ≤ k + 1 by omega, decide_true, Res.assert_true, show (k + 1 - k).toNat = 1 by omega, Obs.loop, Obs.loopBody, h, if_pos hp]
  have hpy : Obs.popIf (k + 1) (⟨k + 1, [one1 5]⟩ : IArr DVec) = .ok ⟨k + 1, [one1 5]⟩ := by simp [Obs.popIf, IArr.getFirstIndex]
  simp only [hpy, Res.ok_bind]
  by_cases hk : (0 : Int) < k + 1
  · have : Obs.popIf (k + 1) (⟨0, []⟩ : IArr DVec) = .assertFail := by simp [Obs.popIf, IArr.getFirstIndex, hk, IArr.popFront]
    simp only [this, Res.assertFail_bind, Res.isOk_assertFail, false_iff]
    omega
  · have : Obs.popIf (k + 1) (⟨0, []⟩ : IArr DVec) = .ok ⟨0, []⟩ := by simp [Obs.popIf, IArr.getFirstIndex, hk]
    simp only [this, Res.ok_bind, Res.pure_eq, Res.isOk_ok, true_iff]
    omega

/-- **C136** at full strength: for every linear filter, the same calls at later times return exactly when the first ones do. -/
def C136_statement : Prop :=
  ∀ (d : Int) (s s' : KFilter Ext), Shifted d (laterData d id) s s' → ∀ ops : List (Obs.Op DVec DVec DVec),
    ((ops.foldlM (Obs.exec (cfg s) (oneStep virt)) s).isOk ↔ ((ops.map (shiftOp d)).foldlM (Obs.exec (cfg s) (oneStep virt)) s').isOk)

/-- It is false: a filter whose inputs are not used, and not given, can be run to the time 0 but not to the time 1. -/
theorem C136_false : ¬ C136_statement := by
  intro h
  have := h 1 idle idle ⟨rfl, Obs.later_nil rfl rfl, Obs.later_nil rfl rfl, rfl⟩ (firstCalls (-1))
  have e : (firstCalls (-1)).map (shiftOp 1) = firstCalls 0 := rfl
  rw [e, idle_run, idle_run] at this
  omega

/-- A case of `C136_linear_partial`, `C136_observer_partial` in which all the calls return, in both filters: the filter of one component without input, started at 0 and at 7. -/
example : Shifted 7 (laterData 7 id) (ready 5) ⟨some (one1 3, 7), ⟨8, [one1 5]⟩, ⟨0, []⟩, (ready 5).st⟩ ∧ (ready 5).st.p = 0 ∧
    ∃ t, oneStep virt (ready 5) = .ok t := by
  obtain ⟨t, ht, -⟩ := ready_step 5
  exact ⟨⟨rfl, ⟨rfl, fun _ => rfl⟩, Obs.later_nil rfl rfl, rfl⟩, rfl, t, ht⟩

end StateObs.LKF

namespace StateObs.EKF
open StateObs KF ShiftSpec

theorem notCached_later (d : Int) (v : Option (DVec × Int)) (k : Int) : notCached (v.map fun q => (q.1, q.2 + d)) (k + d) = notCached v k := by
  cases v with
  | none => rfl
  | some q => exact decide_eq_decide.2 (by omega)

theorem val_later (d : Int) (v : Option (DVec × Int)) : val (v.map fun q => (q.1, q.2 + d)) = val v := by cases v <;> rfl

theorem predE_later (d : Int) (st : KData Ext) (x : DVec) (k : Int) (u : Res DVec) :
    predE (laterData d (laterFunctor d) st) x (k + d) u = predE st x k u := by
  unfold predE
  have e : k + d + 1 = k + 1 + d := by omega
  simp only [laterData, laterFunctor, e, notCached_later, val_later]
  cases st.ext.f with
  | none => rfl
  | some f => simp only [Option.map_some, show k + d - d = k by omega]; rfl

theorem sensE_later (d : Int) (st : KData Ext) (xb o : DVec) (k : Int) (u : Res DVec) :
    sensE (laterData d (laterFunctor d) st) xb o (k + d) u = sensE st xb o k u := by
  unfold sensE
  have e : k + d + 1 = k + 1 + d := by omega
  simp only [laterData, laterFunctor, e, notCached_later, val_later]
  cases st.ext.f with
  | none => rfl
  | some f => simp only [Option.map_some, show k + 1 + d - d = k + 1 by omega]; rfl

theorem stepF_later (d : Int) (st : KData Ext) (x : DVec) (k : Int) (y : DVec) (u v : Res DVec) :
    stepF (laterData d (laterFunctor d) st) x (k + d) y u v = (stepF st x k y u v >>= fun q => .ok (laterData d (laterFunctor d) q.1, q.2)) := by
  unfold stepF
  simp only [predE_later, sensE_later, LKF.correct_later, Res.bind_assoc, Res.ok_bind]
  have e : k + d + 1 = k + 1 + d := by omega
  rw [e]
  rfl

theorem stepF_p {st : KData Ext} {x : DVec} {k : Int} {y : DVec} {u v : Res DVec} {q} (h : stepF st x k y u v = .ok q) : q.1.p = st.p := by
  unfold stepF at h
  simp only [Res.bind_eq_ok] at h
  obtain ⟨_, _, _, _, _, _, _, _, _, _, _, _, _, _, _, _, h⟩ := h
  cases h
  rfl

/-- **C136**, extended filter: the same, for a second filter whose functor is the one of the first `d` later (the same functor, if it does not use the time).
Without inputs, one sequence of calls fails where the other one does. -/
theorem C136_extended_partial (d : Int) (s s' : KFilter Ext) (h : Shifted d (laterData d (laterFunctor d)) s s') (ops : List (Obs.Op DVec DVec DVec)) :
    Corr (s.st.p = 0) (Shifted d (laterData d (laterFunctor d)))
      (ops.foldlM (Obs.exec (cfg s) (oneStep virt)) s) ((ops.map (shiftOp d)).foldlM (Obs.exec (cfg s) (oneStep virt)) s') := by
  rw [oneStep_form]
  refine Obs.C136_observer_partial (cfg s) d _ (fun st => st.p = s.st.p) _ stepF
    (fun st x k y u v _ => stepF_later d st x k y u v) (fun st x k y u v q hI hq => ?_) (fun hs st x k y v q hI hp hq => ?_) s s' rfl h ops
  · exact (stepF_p hq).trans hI
  · have hp' : s.st.p > 0 := hp
    omega

/-- A system that uses the time, and the same one 7 later. -/
example : (laterFunctor 7 ⟨some ⟨fun x _ k => .ok ⟨x.size, (k : ℝ) • x.val⟩, fun x _ _ => .ok x⟩, false, false, ⟨0, 0⟩⟩).f =
    some ⟨fun x _ k => .ok ⟨x.size, ((k - 7 : Int) : ℝ) • x.val⟩, fun x _ _ => .ok x⟩ := rfl

end StateObs.EKF
