import Verif.Kalman.LinProps
import Verif.Kalman.StepForm
/-!
# Filters to which the theorems of C07, C08, C15, C16, C19 apply

A filter with a state of one component, `x⁺ = x`, `y = x`, all the covariances 1, and one measurement that is waiting.
-/

namespace StateObs.LKF
open StateObs Matrix KFSpec KF

/-- A vector of one component. -/
def one1 (a : ℝ) : DVec := ⟨1, fun _ => a⟩

/-- The calls that set the filter up, with the measurement `y`. -/
noncomputable def setup (y : ℝ) : List (KOp Ext) :=
  [.setExt (fun e => ⟨⟨1, 0, 0⟩, e.d⟩), .setA ⟨1, 1, 1⟩, .setC ⟨1, 1, 1⟩, .setQ ⟨1, 1, 1⟩, .setR ⟨1, 1, 1⟩, .setStateCovariance ⟨1, 1, 1⟩,
    .setState (one1 3) 0, .setMeasurement (one1 y) 1]

/-- The filter after these calls. -/
noncomputable def ready (y : ℝ) : KFilter Ext :=
  ⟨some (one1 3, 0), ⟨1, [one1 y]⟩, ⟨0, []⟩,
    { n := 1, nt := 1, m := 1, mt := 1, p := 0, a := ⟨1, 1, 1⟩, c := ⟨1, 1, 1⟩, q := ⟨1, 1, 1⟩, r := ⟨1, 1, 1⟩, pr := ⟨1, 1, 1⟩,
      xbar := none, ybar := none, innovation := ⟨0, 0⟩, kGain := .empty, arith := Arith.default, ext := ⟨⟨1, 0, 0⟩, .empty⟩ }⟩

theorem setup_ok (y : ℝ) : (setup y).foldlM (kexec virt) (LKF.mk 1 1 0) = .ok (ready y) := rfl

theorem setup_admissible (y : ℝ) : ∀ op ∈ setup y, op.Admissible := by
  intro op h
  simp only [setup, List.mem_cons, List.not_mem_nil, or_false] at h
  rcases h with rfl | rfl | rfl | rfl | rfl | rfl | rfl | rfl
  · trivial
  · trivial
  · trivial
  · exact ⟨1, 1, rfl, Matrix.PosSemidef.one⟩
  · exact ⟨1, 1, rfl, Matrix.PosDef.one⟩
  · exact ⟨1, 1, rfl, Matrix.PosSemidef.one⟩
  · trivial
  · trivial

/-- The model. -/
def scalar : LinModel 1 1 0 := ⟨1, 0, 1, 0, 1, 1⟩

theorem ready_model (y : ℝ) : HasModel (ready y) scalar 1 :=
  ⟨rfl, rfl, rfl, ⟨rfl, rfl, rfl, rfl, rfl, rfl, rfl⟩, rfl, rfl, .inr ⟨rfl, rfl⟩⟩

theorem ready_step (y : ℝ) : ∃ s', oneStep virt (ready y) = .ok s' ∧ s'.st.ybar = some (one1 3, 1) ∧ s'.y = ⟨1, [one1 y]⟩ := by
  have h := oneStep_eq (ready_model y) ⟨Matrix.PosSemidef.one, Matrix.PosDef.one⟩ Matrix.PosSemidef.one (fun _ => 3) 0 rfl
    ⟨fun i => i.elim0, fun i => i.elim0, fun _ => y⟩ rfl (.inl rfl) (.inl rfl)
  refine ⟨_, h, ?_⟩
  have : predMeas scalar (fun i => i.elim0) (predState scalar (fun i => i.elim0) (fun _ => 3)) = fun _ => (3 : ℝ) := by
    ext i
    simp [predMeas, predState, scalar]
  simp only [this]
  exact ⟨rfl, rfl⟩

/-- C15, C16: the hypotheses of the theorems for one step and for a sequence of calls, with a measurement that is not the predicted one. -/
example : ∃ s', oneStep virt (ready 5) = .ok s' ∧ KeepsFilter virt ∧ IsPSD (ready 5).st.pr ∧ IsPSD (ready 5).st.q ∧ IsPD (ready 5).st.r ∧
    IsPSD (ready 5).st.r ∧ HasMats (ready 5).st 1 1 1 1 1 1 1 ∧ (∀ op ∈ setup 5, op.Admissible) ∧
    (setup 5).foldlM (kexec virt) (LKF.mk 1 1 0) = .ok (ready 5) := by
  obtain ⟨s', h, -⟩ := ready_step 5
  exact ⟨s', h, lkf_keeps, ⟨1, 1, rfl, Matrix.PosSemidef.one⟩, ⟨1, 1, rfl, Matrix.PosSemidef.one⟩, ⟨1, 1, rfl, Matrix.PosDef.one⟩,
    ⟨1, 1, rfl, Matrix.PosSemidef.one⟩, (ready_model 5).mats, setup_admissible 5, setup_ok 5⟩

/-- C19: the predicted measurement is 3; so is the measurement. -/
example : ∃ s', oneStep virt (ready 3) = .ok s' ∧ (ready 3).x = some (one1 3, 0) ∧ (ready 3).y.get 1 = .ok (one1 3) ∧ s'.st.ybar = some (one1 3, 1) ∧
    (ready 3).st.arith = Arith.default ∧
    ∃ xb t', s'.st.xbar = some (xb, t') ∧ s'.x = some (xb, 1) := by
  obtain ⟨s', h, hb, -⟩ := ready_step 3
  exact ⟨s', h, rfl, rfl, hb, rfl, C19_default lkf_keeps h (one1 3) 0 rfl (one1 3) rfl 1 hb rfl⟩

/-- C07, C08: the time asked for is the one of the measurement. -/
example : (ready 5).x = some (one1 3, 0) ∧ (0 : Int) ≤ 1 ∧ ((ready 5).y.size ≠ 0 → 0 ≤ (ready 5).y.getFirstIndex) ∧ (ready 5).st.p = 0 ∧
    ∃ s', getEstimatedState (ready 5) 1 = .ok s' := by
  obtain ⟨s', h, -, hy⟩ := ready_step 5
  refine ⟨rfl, by norm_num, fun _ => by simp [ready, IArr.getFirstIndex], rfl, s', ?_⟩
  have h0 : Obs.getCurrentTime (ready 5) = .ok 0 := rfl
  have hp : Obs.popIf 1 s'.y = .ok s'.y := by rw [hy]; rfl
  have hc : ¬ (cfg (ready 5)).p > 0 := by simp [cfg, ready]
  simp only [getEstimatedState, KF.getEstimatedState, Obs.getEstimatedState, h0, Res.ok_bind]
  show Obs.loop _ _ 1 1 _ = _
  simp only [Obs.loop, Obs.loopBody, h, hp, hc, Res.ok_bind, if_false]

end StateObs.LKF
