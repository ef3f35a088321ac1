import Verif.Tilt.Props
import Verif.ZeroDelay.Map
/-!
# Property C126: the tilt estimator does not depend on the axes of the sensor and of the control frame
-/

namespace StateObs.Tilt
open StateObs Matrix Rot

/-- Other axes: `V` for the sensor, `W` for the control frame. -/
structure Axes where
  V : M3
  W : M3
  rotV : IsRot V
  rotW : IsRot W

variable (A : Axes)

/-- The state, in the other axes of the sensor. -/
def Axes.state (x : State) : State := ⟨A.V *ᵥ x.x1, A.V *ᵥ x.x2p, A.V *ᵥ x.x2⟩
/-- The measurement, in the other axes of the sensor. -/
def Axes.meas (y : Meas) : Meas := ⟨A.V *ᵥ y.ya, A.V *ᵥ y.yg⟩
/-- The parameters: the pose and the velocity of the sensor in the other axes of the control frame. -/
def Axes.params (c : Params) : Params :=
  { c with p := A.W *ᵥ c.p, R := A.W * c.R * A.Vᵀ, v := A.W *ᵥ c.v, w := A.W *ᵥ c.w, vC := A.W *ᵥ c.vC }

/-- The same call, with its arguments in the other axes. -/
def Axes.op : Op → Op
  | .setSensorPositionInC p => .setSensorPositionInC (A.W *ᵥ p)
  | .setSensorOrientationInC R => .setSensorOrientationInC (A.W * R * A.Vᵀ)
  | .setSensorLinearVelocityInC v => .setSensorLinearVelocityInC (A.W *ᵥ v)
  | .setSensorAngularVelocityInC w => .setSensorAngularVelocityInC (A.W *ᵥ w)
  | .setControlOriginVelocityInW v => .setControlOriginVelocityInW (A.W *ᵥ v)
  | .setMeasurement ya yg k => .setMeasurement (A.V *ᵥ ya) (A.V *ᵥ yg) k
  | .pushMeasurement y => .pushMeasurement (A.meas y)
  | .setState x k => .setState (A.state x) k
  | .setCurrentState x => .setCurrentState (A.state x)
  | op => op

/-! ## Lemmas -/

/-- The estimator in the other axes. -/
def Axes.est (s : Est) : Est := s.map A.params A.state A.meas

theorem cfgMap : Obs.CfgMap A.state A.meas cfg cfg := ⟨fun _ => rfl, fun _ => rfl, rfl⟩

theorem x1meas_axes (c : Params) (yg : V3) : x1meas (A.params c) (A.V *ᵥ yg) = A.V *ᵥ x1meas c yg := by
  have key : ∀ v, (A.W * c.R * A.Vᵀ)ᵀ *ᵥ (A.W *ᵥ v) = A.V *ᵥ (c.Rᵀ *ᵥ v) := fun v => by
    rw [transpose_mul, transpose_mul, transpose_transpose, ← mulVec_mulVec, ← mulVec_mulVec, A.rotW.cancel]
  simp only [x1meas, Axes.params]
  rw [← mulVec_add, key, key, key, ← mulVec_sub, ← A.rotV.cross, ← mulVec_add]

theorem drift_axes (c : Params) (y : Meas) (x : State) : drift (A.params c) (A.meas y) (A.state x) = A.state (drift c y x) := by
  simp only [drift, Axes.meas, Axes.state, x1meas_axes]
  simp only [Axes.params, ← A.rotV.cross, ← mulVec_smul, ← mulVec_sub, ← mulVec_add]

theorem euler_axes (dt : ℝ) (x d : State) : euler dt (A.state x) (A.state d) = A.state (euler dt x d) := by
  simp only [euler, Axes.state, ← mulVec_smul, ← mulVec_add]

theorem normalise_axes (x : State) : normalise (A.state x) = (normalise x).map A.state := by
  unfold normalise
  have : nrm (A.state x).x2 = nrm x.x2 := A.rotV.nrm _
  rw [this]
  split_ifs
  · rfl
  · simp [Res.map, Axes.state, mulVec_smul]

theorem oneStep_axes (s : Est) : oneStep (A.est s) = (oneStep s).map A.est := by
  obtain ⟨x0, y0, u, st⟩ := s
  cases x0 with
  | none => rfl
  | some p =>
    obtain ⟨x, k⟩ := p
    simp only [oneStep, Axes.est, Obs.map, Option.map, IArr.map_size, IArr.map_check]
    refine Res.bind_same fun _ => ?_
    refine Res.bind_map (IArr.map_get A.meas y0 (k + 1)) fun y => ?_
    rw [drift_axes, show (A.params st).dt = st.dt from rfl, euler_axes]
    refine Res.bind_map (normalise_axes A _) fun x' => ?_
    exact Obs.map_setState A.params A.state A.meas (⟨some (x, k), y0, u, st⟩ : Est) (cfgMap A) x' (k + 1)

theorem exec_axes (s : Est) (op : Op) : exec (A.est s) (A.op op) = (exec s op).map A.est := by
  cases op with
  | setMeasurement ya yg k => exact Obs.map_setMeasurement A.params A.state A.meas s (cfgMap A) ⟨ya, yg⟩ k
  | pushMeasurement y => exact Obs.map_pushMeasurement A.params A.state A.meas s (cfgMap A) y
  | setState x k => exact Obs.map_setState A.params A.state A.meas s (cfgMap A) x k
  | setCurrentState x => exact Obs.map_setCurrentState A.params A.state A.meas s (cfgMap A) x
  | getEstimatedState k => exact Obs.map_getEstimatedState A.params A.state A.meas s (cfgMap A) (oneStep_axes A) k
  | estimateState =>
    exact Res.bind_map (Obs.map_estimateState A.params A.state A.meas s (cfgMap A) (oneStep_axes A)) fun _ => rfl
  | _ => rfl

theorem run_axes (l : List Op) (s : Est) : (l.map A.op).foldlM exec (A.est s) = (l.foldlM exec s).map A.est := by
  induction l generalizing s with
  | nil => rfl
  | cons op l ih =>
    rw [List.map_cons, List.foldlM_cons, List.foldlM_cons]
    exact Res.bind_map (exec_axes A s op) ih

/-! ## Property -/

/-- Two new estimators with the same gains, told the orientation of the sensor and then used in the same way, each with its axes of the sensor and of the control frame: the
runs end in the same way, and if they return, the estimates of the second are those of the first, in the other axes of the sensor, at the same times. -/
theorem C126_axes (alpha beta gamma : ℝ) (R : M3) (l : List Op) :
    (∀ s, (Op.setSensorOrientationInC R :: l).foldlM exec (ctor alpha beta gamma) = .ok s →
      ∃ s', (Op.setSensorOrientationInC (A.W * R * A.Vᵀ) :: l.map A.op).foldlM exec (ctor alpha beta gamma) = .ok s' ∧
        s'.x = s.x.map fun p => (⟨A.V *ᵥ p.1.x1, A.V *ᵥ p.1.x2p, A.V *ᵥ p.1.x2⟩, p.2)) ∧
    ((Op.setSensorOrientationInC R :: l).foldlM exec (ctor alpha beta gamma) = .assertFail →
      (Op.setSensorOrientationInC (A.W * R * A.Vᵀ) :: l.map A.op).foldlM exec (ctor alpha beta gamma) = .assertFail) ∧
    ((Op.setSensorOrientationInC R :: l).foldlM exec (ctor alpha beta gamma) = .ub →
      (Op.setSensorOrientationInC (A.W * R * A.Vᵀ) :: l.map A.op).foldlM exec (ctor alpha beta gamma) = .ub) := by
  set s0 : Est := { ctor alpha beta gamma with st := { (ctor alpha beta gamma).st with R := R } } with hs0
  have h0 : ({ ctor alpha beta gamma with st := { (ctor alpha beta gamma).st with R := A.W * R * A.Vᵀ } } : Est) = A.est s0 := by
    simp [hs0, ctor, Axes.est, Obs.map, Axes.params]
  have e1 : (Op.setSensorOrientationInC R :: l).foldlM exec (ctor alpha beta gamma) = l.foldlM exec s0 := rfl
  have e2 : (Op.setSensorOrientationInC (A.W * R * A.Vᵀ) :: l.map A.op).foldlM exec (ctor alpha beta gamma) = (l.foldlM exec s0).map A.est := by
    rw [← run_axes, ← h0]
    rfl
  rw [e1, e2]
  refine ⟨fun s h => ?_, fun h => ?_, fun h => ?_⟩
  · rw [h]
    exact ⟨_, rfl, rfl⟩
  · rw [h]; rfl
  · rw [h]; rfl

/-- A run that returns an estimate: the state is set, a measurement is given, the next estimate is asked. -/
example : ∃ s, (Op.setSensorOrientationInC 1 :: [.setState ⟨0, ez, ez⟩ 0, .setMeasurement (g • ez) 0 1, .getEstimatedState 1]).foldlM exec
    (ctor 1 1 1) = .ok s ∧ s.x = some (⟨0, ez, ez⟩, 1) := by
  have hn : nrm ez = 1 := by simp [nrm, ez]
  obtain ⟨s', h1, h2⟩ := C33_static (ctor 1 1 1).st rfl rfl rfl ez hn { ctor 1 1 1 with x := some (⟨0, ez, ez⟩, 0) } 0 rfl rfl rfl
  exact ⟨s', h1, h2⟩

/-- Other axes: a quarter of a turn. -/
example : ∃ A : Axes, A.V = !![0, -1, 0; 1, 0, 0; 0, 0, 1] := by
  refine ⟨⟨!![0, -1, 0; 1, 0, 0; 0, 0, 1], 1, ⟨?_, ?_⟩, IsRot.one⟩, rfl⟩
  · ext i j; fin_cases i <;> fin_cases j <;> simp [Matrix.mul_apply, Fin.sum_univ_three]
  · simp [det_fin_three]

end StateObs.Tilt
