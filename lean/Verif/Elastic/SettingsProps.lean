import Verif.Elastic.Reach
/-!
# C89: the parameters of the robot on elastic contacts are those of the last calls
-/

namespace StateObs.Elastic
open StateObs Matrix Rot Kine Imu Sensor

variable {G : Type}

/-- The value of the last call that gives one (`f` tells which calls do, and the value), `a` before the first. -/
def last {α : Type} (f : Op G → Option α) (a : α) : List (Op G) → α
  | [] => a
  | op :: l => last f ((f op).getD a) l

/-- The methods that compute something, and set no parameter. -/
def Op.computes : Op G → Bool
  | .stateDynamics .. | .measureDynamics .. | .stateDynamicsJacobian | .measureDynamicsJacobian | .computeAccelerations .. | .momentaDotFromForces ..
  | .momentaDotFromKinematics .. | .forcesAndMoments .. => true
  | _ => false

theorem exec_same {s s' : Sys G} {g g' : G} (op : Op G) (hc : op.computes = true) (h : Inv s) (e : exec s g op = .ok (s', g')) : Same s' s := by
  cases op <;> simp only [Op.computes, Bool.false_eq_true] at hc <;> simp only [exec, Res.bind_eq_ok] at e
  case stateDynamics x u =>
    obtain ⟨⟨y, s1, g1⟩, e1, e⟩ := e
    cases e
    exact (stateDynamics_eff h e1).same
  case measureDynamics x u k =>
    obtain ⟨⟨y, s1, g1⟩, e1, e⟩ := e
    cases e
    exact (measureDynamics_eff h e1).1.same
  case stateDynamicsJacobian =>
    obtain ⟨⟨y, s1, g1⟩, e1, e⟩ := e
    cases e
    exact (stateDynamicsJacobian_eff h e1).same
  case measureDynamicsJacobian =>
    obtain ⟨⟨y, s1, g1⟩, e1, e⟩ := e
    cases e
    exact (measureDynamicsJacobian_eff h e1).same
  case computeAccelerations x u =>
    obtain ⟨⟨y, s1⟩, e1, e⟩ := e
    cases e
    obtain ⟨hx, hu⟩ := computeAccelerations_sizes e1
    obtain ⟨rt, hr, e2⟩ := computeAccelerations_eq h.rot x u hx hu
    rw [e2] at e1
    obtain ⟨a, -, e1⟩ := Res.bind_eq_ok.1 e1
    cases e1
    constructor <;> rfl
  case momentaDotFromForces x u =>
    obtain ⟨⟨y, s1⟩, e1, e⟩ := e
    cases e
    obtain ⟨hx, hu⟩ := momentaForces_sizes e1
    obtain ⟨rt, hr, e2⟩ := momentaForces_eq h.rot x u hx hu
    rw [e2] at e1
    obtain ⟨a, -, e1⟩ := Res.bind_eq_ok.1 e1
    cases e1
    constructor <;> rfl
  case momentaDotFromKinematics x u =>
    obtain ⟨⟨y, s1⟩, e1, e⟩ := e
    cases e
    obtain ⟨hx, hu⟩ := momentaKine_sizes e1
    obtain ⟨rt, hr, e2⟩ := momentaKine_eq h.rot x u hx hu
    rw [e2] at e1
    obtain ⟨a, -, e1⟩ := Res.bind_eq_ok.1 e1
    cases e1
    constructor <;> rfl
  case forcesAndMoments x u =>
    obtain ⟨⟨y, s1⟩, e1, e⟩ := e
    cases e
    obtain ⟨hx, hu⟩ := forcesAndMoments_sizes e1
    obtain ⟨rt, hr, e2⟩ := forcesAndMoments_eq h.rot x u hx hu
    rw [e2] at e1
    obtain ⟨a, -, e1⟩ := Res.bind_eq_ok.1 e1
    obtain ⟨l, -, e1⟩ := Res.bind_eq_ok.1 e1
    cases e1
    constructor <;> rfl

theorem last_run {α : Type} (field : Sys G → α) (f : Op G → Option α)
    (step : ∀ (s s' : Sys G) (g g' : G) (op : Op G), Inv s → exec s g op = .ok (s', g') → field s' = (f op).getD (field s)) :
    ∀ (ops : List (Op G)) (s s' : Sys G) (g g' : G), Inv s → ops.foldlM (fun p op => exec p.1 p.2 op) (s, g) = .ok (s', g') →
      field s' = last f (field s) ops := by
  intro ops
  induction ops with
  | nil => intro s s' g g' _ e; cases e; rfl
  | cons op ops ih =>
    intro s s' g g' hi e
    rw [List.foldlM_cons, Res.bind_eq_ok] at e
    obtain ⟨⟨s1, g1⟩, e1, e2⟩ := e
    rw [ih s1 s' g1 g' (exec_inv op hi e1) e2, step s s1 g g1 op hi e1]
    rfl

macro "setting " p:term : tactic => `(tactic| (
  intro s s' g g' op hi e
  by_cases hc : op.computes = true
  · have h := $p (exec_same op hc hi e)
    cases op <;> simp only [Op.computes, Bool.false_eq_true] at hc <;> exact h
  · cases op <;> simp only [Op.computes, not_true_eq_false] at hc <;> (simp only [exec] at e; cases e; rfl)))

/-- **C89** Every parameter has the value of the last call of its own setter, and the default of the constructor when there is none: no call sets the parameter of
another, and no computation changes a parameter. -/
theorem C89_settings (dt : ℝ) (g g' : G) (ops : List (Op G)) (s : Sys G) (hr : run dt g ops = .ok (s, g')) :
    s.dt = last (fun | .setSamplingPeriod t => some t | _ => none) dt ops ∧
    s.mass = last (fun | .setRobotMass m => some m | _ => none) hrp2m ops ∧
    s.nb = last (fun | .setContactsNumber n => some n | _ => none) 0 ops ∧
    s.model = last (fun | .setContactModel n => some n | _ => none) 0 ops ∧
    s.Kfe = last (fun | .setKfe K => some K | _ => none) ((40000 : ℝ) • 1) ops ∧
    s.Kte = last (fun | .setKte K => some K | _ => none) ((600 : ℝ) • 1) ops ∧
    s.Kfv = last (fun | .setKfv K => some K | _ => none) ((600 : ℝ) • 1) ops ∧
    s.Ktv = last (fun | .setKtv K => some K | _ => none) ((60 : ℝ) • 1) ops ∧
    s.KfeRopes = last (fun | .setKfeRopes K => some K | _ => none) ((40000 : ℝ) • 1) ops ∧
    s.KteRopes = last (fun | .setKteRopes K => some K | _ => none) ((600 : ℝ) • 1) ops ∧
    s.KfvRopes = last (fun | .setKfvRopes K => some K | _ => none) ((600 : ℝ) • 1) ops ∧
    s.KtvRopes = last (fun | .setKtvRopes K => some K | _ => none) ((60 : ℝ) • 1) ops ∧
    s.pe = last (fun | .setPe p => some p | _ => none) 0 ops ∧
    s.withForce = last (fun | .setWithForceMeasurements b => some b | _ => none) false ops ∧
    s.withBias = last (fun | .setWithComBias b => some b | _ => none) false ops ∧
    s.withAbs = last (fun | .setWithAbsolutePosition b => some b | _ => none) false ops ∧
    s.withUnmodeled = last (fun | .setWithUnmodeledForces b => some b | _ => none) false ops ∧
    s.noise = last (fun | .setProcessNoise n => some n | _ => none) none ops ∧
    s.sensor.noise = last (fun | .setMeasurementNoise n => some n | _ => none) none ops ∧
    s.dx = last (fun | .setFDstep d => some d | _ => none) noVec ops := by
  refine ⟨last_run (fun s : Sys G => s.dt) _ ?_ ops _ s g g' (ctor_inv dt) hr, last_run (fun s : Sys G => s.mass) _ ?_ ops _ s g g' (ctor_inv dt) hr,
    last_run (fun s : Sys G => s.nb) _ ?_ ops _ s g g' (ctor_inv dt) hr, last_run (fun s : Sys G => s.model) _ ?_ ops _ s g g' (ctor_inv dt) hr,
    last_run (fun s : Sys G => s.Kfe) _ ?_ ops _ s g g' (ctor_inv dt) hr, last_run (fun s : Sys G => s.Kte) _ ?_ ops _ s g g' (ctor_inv dt) hr,
    last_run (fun s : Sys G => s.Kfv) _ ?_ ops _ s g g' (ctor_inv dt) hr, last_run (fun s : Sys G => s.Ktv) _ ?_ ops _ s g g' (ctor_inv dt) hr,
    last_run (fun s : Sys G => s.KfeRopes) _ ?_ ops _ s g g' (ctor_inv dt) hr, last_run (fun s : Sys G => s.KteRopes) _ ?_ ops _ s g g' (ctor_inv dt) hr,
    last_run (fun s : Sys G => s.KfvRopes) _ ?_ ops _ s g g' (ctor_inv dt) hr, last_run (fun s : Sys G => s.KtvRopes) _ ?_ ops _ s g g' (ctor_inv dt) hr,
    last_run (fun s : Sys G => s.pe) _ ?_ ops _ s g g' (ctor_inv dt) hr, last_run (fun s : Sys G => s.withForce) _ ?_ ops _ s g g' (ctor_inv dt) hr,
    last_run (fun s : Sys G => s.withBias) _ ?_ ops _ s g g' (ctor_inv dt) hr, last_run (fun s : Sys G => s.withAbs) _ ?_ ops _ s g g' (ctor_inv dt) hr,
    last_run (fun s : Sys G => s.withUnmodeled) _ ?_ ops _ s g g' (ctor_inv dt) hr, last_run (fun s : Sys G => s.noise) _ ?_ ops _ s g g' (ctor_inv dt) hr,
    last_run (fun s : Sys G => s.sensor.noise) _ ?_ ops _ s g g' (ctor_inv dt) hr, last_run (fun s : Sys G => s.dx) _ ?_ ops _ s g g' (ctor_inv dt) hr⟩
  · setting Same.dt
  · setting Same.mass
  · setting Same.nb
  · setting Same.model
  · setting Same.Kfe
  · setting Same.Kte
  · setting Same.Kfv
  · setting Same.Ktv
  · setting Same.KfeRopes
  · setting Same.KteRopes
  · setting Same.KfvRopes
  · setting Same.KtvRopes
  · setting Same.pe
  · setting Same.withForce
  · setting Same.withBias
  · setting Same.withAbs
  · setting Same.withUnmodeled
  · setting Same.noise
  · setting Same.snoise
  · setting Same.dx

/-- A case: the last value counts, whatever is called in between. -/
theorem C89_settings_example (dt : ℝ) (g : G) (K : M3) : ∃ s, run dt g [.setKtv 0, .setKte 1, .setKtv K, .setContactsNumber 1] = .ok (s, g) ∧ s.Ktv = K ∧ s.Kte = 1 ∧
    s.Kfv = (600 : ℝ) • 1 := ⟨_, rfl, rfl, rfl, rfl⟩

end StateObs.Elastic
