import Verif.Imu.StepSpec
import Mathlib.Analysis.SpecificLimits.Basic
/-! # C142, C143: the predictions of the systems of an inertial measurement unit -/

namespace StateObs.Imu
open StateObs Matrix Rot Kine Sensor Filter

variable {G : Type}

theorem turned_eq (v : V3) : turned v = rotationVectorToRotationMatrix v := (C34_exp v).symm

theorem exec_params (v : Variant) {s s' : Sys G} (h : Good s) {r r' : G} (op : Op G v) (he : exec v s r op = .ok (s', r')) (dt : ℝ) (b : Bool) (hd : s.dt = dt) (hb : s.noise.isSome = b) :
    ∀ ops, period dt (op :: ops) = period s'.dt ops ∧ hasNoise b (op :: ops) = hasNoise s'.noise.isSome ops := by
  intro ops
  subst hd hb
  cases op with
  | stateDynamics x u k =>
    simp only [exec, Res.bind_eq_ok] at he
    obtain ⟨⟨y, s1, r1⟩, h1, he⟩ := he
    cases he
    have := (state_good v h x u r _ y h1).2
    exact ⟨congrArg (period · ops) this.dt, congrArg (fun n => hasNoise (Option.isSome n) ops) this.noise⟩
  | measureDynamics x u k =>
    simp only [exec, Res.bind_eq_ok] at he
    obtain ⟨⟨y, s1, r1⟩, h1, he⟩ := he
    cases he
    have := (measure_good v h x u k r _ y h1).2
    exact ⟨congrArg (period · ops) this.dt, congrArg (fun n => hasNoise (Option.isSome n) ops) this.noise⟩
  | setProcessNoise n => cases he; exact ⟨rfl, rfl⟩
  | setMeasurementNoise n => cases he; exact ⟨rfl, rfl⟩
  | setSamplingPeriod dt => cases he; exact ⟨rfl, rfl⟩
  | setContactsNumber n => cases he; exact ⟨rfl, rfl⟩
  | setContactPosition i p =>
    rw [exec] at he
    split at he
    · cases he; exact ⟨rfl, rfl⟩
    · cases he

theorem run_params (v : Variant) {s s' : Sys G} (h : Good s) {r r' : G} (ops : List (Op G v)) (he : run v s r ops = .ok (s', r')) :
    s'.dt = period s.dt ops ∧ s'.noise.isSome = hasNoise s.noise.isSome ops := by
  induction ops generalizing s r with
  | nil => cases he; exact ⟨rfl, rfl⟩
  | cons op ops ih =>
    simp only [run, Res.bind_eq_ok] at he
    obtain ⟨⟨s1, r1⟩, h1, he⟩ := he
    obtain ⟨e1, e2⟩ := ih (exec_good v h r r1 op h1) he
    obtain ⟨f1, f2⟩ := exec_params v h op h1 _ _ rfl rfl ops
    exact ⟨by rw [e1, f1], by rw [e2, f2]⟩

theorem nextState_after (v : Variant) (dt : ℝ) (x : Fin 18 → ℝ) (u : Fin (inputSize v) → ℝ) :
    Steps v dt x u (nextState v dt (rotationVectorToQuaternion (seg 3 x iOri)) x u) := by
  have hsp : ∀ a b : V3, stabilize a b = spring a b := by
    intro a b
    rw [stabilize, spring]
    simp only [smul_smul, neg_smul]
    norm_num
  have key : ∀ (x0 : Fin 18 → ℝ) (a α : V3),
      let qw := integrateQuatVel (rotationVectorToQuaternion (seg 3 x iOri)) (seg 3 x iAngVel) α dt
      let pv := integratePosVel (seg 3 x iPos) (seg 3 x iLinVel) a dt
      let aa := AngleAxis.ofQuat qw.1
      let z := setSeg (setSeg (setSeg (setSeg x0 iPos pv.1) iLinVel pv.2) iOri (aa.angle • aa.axis)) iAngVel qw.2
      After dt a α x z ∧ seg 3 z 12 = seg 3 x0 12 ∧ seg 3 z 15 = seg 3 x0 15 := by
    intro x0 a α qw pv aa z
    have hu : ((rotationVectorToQuaternion (dt • seg 3 x 9 + (0.5 * dt * dt) • α)) * rotationVectorToQuaternion (seg 3 x 3)).normSq = 1 := by
      rw [Quat.normSq_mul, rvq_unit, rvq_unit, one_mul]
    have e : (0.5 * dt * dt : ℝ) = dt ^ 2 / 2 := by ring
    obtain ⟨l1, l2⟩ := C35_log _ hu
    have ho : seg 3 z 3 = quaternionToRotationVector (rotationVectorToQuaternion (dt • seg 3 x 9 + (0.5 * dt * dt) • α) * rotationVectorToQuaternion (seg 3 x 3)) := by
      rw [seg_setSeg_ne _ _ _ _ (by decide), seg_setSeg_same _ _ _ (by decide)]
      rfl
    refine ⟨⟨?_, ?_, ?_, ?_, ?_⟩, ?_, ?_⟩
    · rw [seg_setSeg_ne _ _ _ _ (by decide), seg_setSeg_ne _ _ _ _ (by decide), seg_setSeg_ne _ _ _ _ (by decide), seg_setSeg_same _ _ _ (by decide), ← e]
      exact (add_assoc _ _ _).symm
    · rw [seg_setSeg_ne _ _ _ _ (by decide), seg_setSeg_ne _ _ _ _ (by decide), seg_setSeg_same _ _ _ (by decide)]
      rfl
    · rw [ho, l1, Quat.toMat_mul (rvq_unit _) (rvq_unit _), rvq_toMat, rvq_toMat, turned_eq, turned_eq, e]
    · rw [ho]; exact l2
    · rw [seg_setSeg_same _ _ _ (by decide)]
      rfl
    · rw [seg_setSeg_ne _ _ _ _ (by decide), seg_setSeg_ne _ _ _ _ (by decide), seg_setSeg_ne _ _ _ _ (by decide), seg_setSeg_ne _ _ _ _ (by decide)]
    · rw [seg_setSeg_ne _ _ _ _ (by decide), seg_setSeg_ne _ _ _ _ (by decide), seg_setSeg_ne _ _ _ _ (by decide), seg_setSeg_ne _ _ _ _ (by decide)]
  cases v with
  | imu =>
    obtain ⟨h1, h2, h3⟩ := key (setSeg (setSeg 0 iLinAcc (seg 3 u 0)) iAngAcc (seg 3 u 3)) (seg 3 x 12) (seg 3 x 15)
    replace h2 := h2.trans ((seg_setSeg_ne _ _ _ _ (by decide)).trans (seg_setSeg_same _ _ _ (by decide)))
    replace h3 := h3.trans (seg_setSeg_same _ _ _ (by decide))
    exact ⟨h1, h2, h3⟩
  | mag =>
    obtain ⟨h1, h2, h3⟩ := key 0 (seg 3 x 12) (seg 3 x 15)
    refine ⟨h1, h2.trans ?_, h3.trans ?_⟩ <;> (funext j; simp [seg])
  | fixed =>
    obtain ⟨h1, h2, h3⟩ := key x (seg 3 x 12) (seg 3 x 15)
    exact ⟨h1, h2, h3⟩
  | stable =>
    obtain ⟨h1, h2, h3⟩ := key (setSeg (setSeg x iLinAcc (stabilize (seg 3 x iPos) (seg 3 x iLinVel))) iAngAcc (stabilize (seg 3 x iOri) (seg 3 x iAngVel)))
      (stabilize (seg 3 x iPos) (seg 3 x iLinVel)) (stabilize (seg 3 x iOri) (seg 3 x iAngVel))
    replace h2 := h2.trans ((seg_setSeg_ne _ _ _ _ (by decide)).trans (seg_setSeg_same _ _ _ (by decide)))
    replace h3 := h3.trans (seg_setSeg_same _ _ _ (by decide))
    refine ⟨?_, ?_, ?_⟩
    · rw [← hsp, ← hsp]; exact h1
    · rw [← hsp]; exact h2
    · rw [← hsp]; exact h3

/-- **C142** After any calls, without process noise, the prediction is returned, and it is the state one sampling period later with constant accelerations: those of the state, or those of
the spring. The accelerations of the next state are the input, zero, those of the state or those of the spring according to the class. -/
theorem C142_step (v : Variant) (dt : ℝ) (past : List (Op G v)) (r0 r r' : G) (s : Sys G) (h : run v (ctor dt) r0 past = .ok (s, r)) (hn : hasNoise false past = false)
    (x : Fin 18 → ℝ) (u : Fin (inputSize v) → ℝ) :
    ∃ z s', stateDynamics v s x u r' = .ok (z, s', r') ∧ Steps v (period dt past) x u z := by
  have g := run_good v (good_ctor dt) r0 r past h
  obtain ⟨e1, e2⟩ := run_params v (good_ctor dt) past h
  have hn' : s.noise = none := by
    have : s.noise.isSome = false := e2.trans hn
    simpa using this
  have e3 : s.dt = period dt past := e1
  refine ⟨_, _, by rw [stateDynamics_eq v g, hn', addNoise, Res.ok_bind], ?_⟩
  rw [← e3]
  exact nextState_after v s.dt x u

theorem run_predictions (v : Variant) (x : Fin 18 → ℝ) (u : Fin (inputSize v) → ℝ) (k : Int) (r : G) (T : ℕ) {s : Sys G} (h : Good s) (hn : s.noise = none) :
    ∃ s', run v s r (List.replicate T (.stateDynamics x u k)) = .ok (s', r) := by
  induction T generalizing s with
  | zero => exact ⟨s, rfl⟩
  | succ T ih =>
    have e := stateDynamics_eq v h x u r
    rw [hn, addNoise, Res.ok_bind] at e
    obtain ⟨g, same⟩ := state_good v h x u r _ _ e
    obtain ⟨s', e'⟩ := ih g (by simpa using same.noise.symm.trans hn)
    refine ⟨s', ?_⟩
    rw [List.replicate_succ, run, exec, e]
    exact e'

/-- The hypotheses of `C142_step` are met: any number of predictions, after a change of the period. -/
example (v : Variant) (dt d : ℝ) (x : Fin 18 → ℝ) (u : Fin (inputSize v) → ℝ) (r : G) (T : ℕ) :
    (∃ s, run v (ctor dt) r (.setSamplingPeriod d :: List.replicate T (.stateDynamics x u 0)) = .ok (s, r)) ∧
    hasNoise false ((.setSamplingPeriod d :: List.replicate T (.stateDynamics x u 0)) : List (Op G v)) = false ∧
    period dt ((.setSamplingPeriod d :: List.replicate T (.stateDynamics x u 0)) : List (Op G v)) = d := by
  refine ⟨run_predictions v x u 0 r T (good_ctor d) rfl, ?_, ?_⟩
  · rw [hasNoise]
    · induction T with
      | zero => rfl
      | succ T ih => exact ih
    · simp
  · rw [period]
    induction T with
    | zero => rfl
    | succ T ih => exact ih

/-- **C142** With a process noise, the noise is applied to that state. -/
theorem C142_noise (v : Variant) (dt : ℝ) (past : List (Op G v)) (r0 r r' : G) (s : Sys G) (h : run v (ctor dt) r0 past = .ok (s, r)) (n : VNoise G 18)
    (x : Fin 18 → ℝ) (u : Fin (inputSize v) → ℝ) :
    ∃ s1 z, Steps v (period dt past) x u z ∧ exec v s r (.setProcessNoise (some n)) = .ok (s1, r) ∧
      ∀ y r'', (∃ s', stateDynamics v s1 x u r' = .ok (y, s', r'')) ↔ n r' z = .ok (y, r'') := by
  have g := run_good v (good_ctor dt) r0 r past h
  obtain ⟨e1, -⟩ := run_params v (good_ctor dt) past h
  have e3 : s.dt = period dt past := e1
  have g1 : Good { s with noise := some n } := ⟨g.cache, g.concat, g.mode⟩
  refine ⟨{ s with noise := some n }, nextState v s.dt (rotationVectorToQuaternion (seg 3 x iOri)) x u, ?_, rfl, ?_⟩
  · rw [← e3]
    exact nextState_after v s.dt x u
  · intro y r''
    rw [stateDynamics_eq v g1]
    simp only [addNoise]
    cases n r' (nextState v s.dt (rotationVectorToQuaternion (seg 3 x iOri)) x u) with
    | ok a =>
      obtain ⟨y1, r1⟩ := a
      rw [Res.ok_bind]
      constructor
      · rintro ⟨s', e⟩
        injection e with e
        injection e with e1 e2
        injection e2 with e2 e3
        exact congrArg Res.ok (Prod.ext e1 e3)
      · intro e
        injection e with e
        injection e with e1 e2
        subst e1 e2
        exact ⟨_, rfl⟩
    | assertFail => exact ⟨(fun ⟨_, e⟩ => nomatch e), (fun e => nomatch e)⟩
    | ub => exact ⟨(fun ⟨_, e⟩ => nomatch e), (fun e => nomatch e)⟩
    | exn => exact ⟨(fun ⟨_, e⟩ => nomatch e), (fun e => nomatch e)⟩

theorem predicted_after {dt : ℝ} {x z : Fin 18 → ℝ} (h : Predicted G .stable dt x z) :
    seg 3 z 0 = seg 3 x 0 + dt • seg 3 x 6 + (dt ^ 2 / 2) • spring (seg 3 x 0) (seg 3 x 6) ∧ seg 3 z 6 = seg 3 x 6 + dt • spring (seg 3 x 0) (seg 3 x 6) := by
  obtain ⟨dt0, past, r0, r, r', s, s', u, h1, rfl, h2, h3⟩ := h
  obtain ⟨z', s1, e, h4, -⟩ := C142_step .stable dt0 past r0 r r s h1 h2 x u
  rw [h3] at e
  injection e with e
  injection e with e1 e2
  rw [e1]
  exact ⟨h4.pos, h4.linVel⟩

theorem predicted_exists (r : G) (dt : ℝ) (x : Fin 18 → ℝ) : ∃ z, Predicted G .stable dt x z := by
  obtain ⟨z, s', e, -⟩ := C142_step (G := G) .stable dt [] r r r (ctor dt) rfl rfl x 0
  exact ⟨z, dt, [], r, r, r, ctor dt, s', 0, rfl, rfl, rfl, e⟩

section Linear
variable {dt : ℝ} {p v : ℕ → ℝ}

/-- The quadratic form that each step multiplies by the determinant. -/
noncomputable def form (dt p v : ℝ) : ℝ := 25 * dt * p ^ 2 + (dt - 12.5 * dt ^ 2) * (p * v) + (dt - dt ^ 2 / 2) * v ^ 2

theorem form_step (p v : ℝ) : form dt (p + dt * v + dt ^ 2 / 2 * (-25 * p - v)) (v + dt * (-25 * p - v)) = (1 - dt + 12.5 * dt ^ 2) * form dt p v := by
  unfold form
  ring

theorem linear_tendsto (h0 : 0 < dt) (h1 : dt < 0.08) (hp : ∀ n, p (n + 1) = p n + dt * v n + dt ^ 2 / 2 * (-25 * p n - v n)) (hv : ∀ n, v (n + 1) = v n + dt * (-25 * p n - v n)) :
    Tendsto p atTop (nhds 0) ∧ Tendsto v atTop (nhds 0) := by
  set d := 1 - dt + 12.5 * dt ^ 2 with hd
  have hd0 : 0 ≤ d := by nlinarith [sq_nonneg dt]
  have hd1 : d < 1 := by nlinarith
  have hF : ∀ n, form dt (p n) (v n) = d ^ n * form dt (p 0) (v 0) := by
    intro n
    induction n with
    | zero => simp
    | succ n ih => rw [hp, hv, form_step, ih, pow_succ]; ring
  have hlim : Tendsto (fun n => form dt (p n) (v n)) atTop (nhds 0) := by
    have := (tendsto_pow_atTop_nhds_zero_of_lt_one hd0 hd1).mul_const (form dt (p 0) (v 0))
    rw [zero_mul] at this
    exact this.congr fun n => (hF n).symm
  set D := dt ^ 2 * (99 - 25 * dt - 156.25 * dt ^ 2) with hD
  have hDpos : 0 < D := by
    have : 0 < 99 - 25 * dt - 156.25 * dt ^ 2 := by nlinarith
    positivity
  have sq : ∀ {q : ℕ → ℝ} {c : ℝ}, (∀ n, D * q n ^ 2 ≤ c * form dt (p n) (v n)) → Tendsto q atTop (nhds 0) := by
    intro q c h
    have h2 : Tendsto (fun n => q n ^ 2) atTop (nhds 0) := by
      refine squeeze_zero (g := fun n => c / D * form dt (p n) (v n)) (fun n => sq_nonneg _) (fun n => ?_) ?_
      · rw [div_mul_eq_mul_div, le_div_iff₀ hDpos]
        linarith [h n]
      · simpa using hlim.const_mul (c / D)
    have h3 := (Real.continuous_sqrt.tendsto 0).comp h2
    rw [Real.sqrt_zero] at h3
    refine (tendsto_zero_iff_abs_tendsto_zero _).2 (h3.congr fun n => ?_)
    simp [Real.sqrt_sq_eq_abs]
  constructor
  · refine sq (c := 4 * (dt - dt ^ 2 / 2)) fun n => ?_
    unfold form
    nlinarith [sq_nonneg (2 * (dt - dt ^ 2 / 2) * v n + (dt - 12.5 * dt ^ 2) * p n)]
  · refine sq (c := 4 * (25 * dt)) fun n => ?_
    unfold form
    nlinarith [sq_nonneg (2 * (25 * dt) * p n + (dt - 12.5 * dt ^ 2) * v n)]

end Linear

/-- **C143** The class is stable for the sampling periods below 0.08 s and for no others: iterated without process noise, the position and the linear velocity of its predictions tend
to zero from every state if and only if the sampling period is below 0.08 s. -/
theorem C143_stable_iff (r : G) (dt : ℝ) (h0 : 0 < dt) :
    (∀ xs : ℕ → Fin 18 → ℝ, (∀ n, Predicted G .stable dt (xs n) (xs (n + 1))) →
      Tendsto (fun n => seg 3 (xs n) 0) atTop (nhds 0) ∧ Tendsto (fun n => seg 3 (xs n) 6) atTop (nhds 0)) ↔ dt < 0.08 := by
  have comp : ∀ {xs : ℕ → Fin 18 → ℝ}, (∀ n, Predicted G .stable dt (xs n) (xs (n + 1))) → ∀ (i : Fin 3) n,
      seg 3 (xs (n + 1)) 0 i = seg 3 (xs n) 0 i + dt * seg 3 (xs n) 6 i + dt ^ 2 / 2 * (-25 * seg 3 (xs n) 0 i - seg 3 (xs n) 6 i) ∧
      seg 3 (xs (n + 1)) 6 i = seg 3 (xs n) 6 i + dt * (-25 * seg 3 (xs n) 0 i - seg 3 (xs n) 6 i) := by
    intro xs h i n
    obtain ⟨e1, e2⟩ := predicted_after (h n)
    have f1 := congrFun e1 i
    have f2 := congrFun e2 i
    simp only [spring, Pi.add_apply, Pi.smul_apply, Pi.sub_apply, smul_eq_mul] at f1 f2
    exact ⟨by rw [f1]; ring, by rw [f2]; ring⟩
  constructor
  · intro h
    by_contra hd
    have hd : 0.08 ≤ dt := not_lt.1 hd
    have mkseq : ∀ x0, ∃ xs : ℕ → Fin 18 → ℝ, xs 0 = x0 ∧ ∀ n, Predicted G .stable dt (xs n) (xs (n + 1)) := by
      intro x0
      choose f hf using predicted_exists (G := G) r dt
      exact ⟨fun n => f^[n] x0, rfl, fun n => by dsimp only; rw [Function.iterate_succ_apply']; exact hf _⟩
    obtain ⟨xs, x0, hx⟩ := mkseq (setSeg 0 0 ex)
    obtain ⟨ys, y0, hy⟩ := mkseq (setSeg 0 6 ex)
    have hW : ∀ n, seg 3 (xs n) 0 0 * seg 3 (ys n) 6 0 - seg 3 (ys n) 0 0 * seg 3 (xs n) 6 0 = (1 - dt + 12.5 * dt ^ 2) ^ n := by
      intro n
      induction n with
      | zero =>
        rw [x0, y0, pow_zero, seg_setSeg_same _ _ _ (by decide), seg_setSeg_same _ _ _ (by decide), seg_setSeg_ne _ _ _ _ (by decide), seg_setSeg_ne _ _ _ _ (by decide)]
        simp [seg]
      | succ n ih =>
        rw [(comp hx 0 n).1, (comp hx 0 n).2, (comp hy 0 n).1, (comp hy 0 n).2, pow_succ _ n, ← ih]
        ring
    obtain ⟨a1, a2⟩ := h xs hx
    obtain ⟨b1, b2⟩ := h ys hy
    have c : ∀ {zs : ℕ → V3}, Tendsto zs atTop (nhds 0) → Tendsto (fun n => zs n 0) atTop (nhds 0) := fun hz => (tendsto_pi_nhds.1 hz) 0
    have lim := ((c a1).mul (c b2)).sub ((c b1).mul (c a2))
    simp only [mul_zero, sub_zero] at lim
    have one : ∀ n : ℕ, (1 : ℝ) ≤ (1 - dt + 12.5 * dt ^ 2) ^ n := fun n => one_le_pow₀ (by nlinarith)
    have := ge_of_tendsto' lim fun n => by rw [hW n]; exact one n
    linarith
  · intro h1 xs h
    constructor
    · rw [tendsto_pi_nhds]
      intro i
      exact (linear_tendsto h0 h1 (p := fun n => seg 3 (xs n) 0 i) (v := fun n => seg 3 (xs n) 6 i) (fun n => (comp h i n).1) fun n => (comp h i n).2).1
    · rw [tendsto_pi_nhds]
      intro i
      exact (linear_tendsto h0 h1 (p := fun n => seg 3 (xs n) 0 i) (v := fun n => seg 3 (xs n) 6 i) (fun n => (comp h i n).1) fun n => (comp h i n).2).2

/-- There are such sequences from every state. -/
theorem C143_sequences (r : G) (dt : ℝ) (x0 : Fin 18 → ℝ) : ∃ xs : ℕ → Fin 18 → ℝ, xs 0 = x0 ∧ ∀ n, Predicted G .stable dt (xs n) (xs (n + 1)) := by
  choose f hf using predicted_exists (G := G) r dt
  exact ⟨fun n => f^[n] x0, rfl, fun n => by dsimp only; rw [Function.iterate_succ_apply']; exact hf _⟩

end StateObs.Imu
