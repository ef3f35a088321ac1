import Verif.Imu.MltpStepProps
import Verif.Imu.StepProps
/-! # C144, C145: noisy predictions, and predictions repeated over any number of sampling periods -/

namespace StateObs.Mltp
open StateObs Matrix Rot Kine Sensor
open StateObs.Imu hiding Sys Op ctor exec run stateDynamics measureDynamics nextState period hasNoise Good run_good exec_good good_ctor measure_good run_params

variable {R : Type}

theorem next_after (dt : ℝ) (x : Fin 19 → ℝ) (u : Fin 6 → ℝ) : AfterQ dt x u (nextState dt x u) := by
  have e : (0.5 * dt * dt : ℝ) = dt ^ 2 / 2 := by ring
  refine ⟨?_, next_linVel _ _ _, next_angVel _ _ _, next_linAcc _ _ _, next_angAcc _ _ _⟩
  rw [← e]
  exact (next_pos _ _ _).trans (add_assoc _ _ _).symm

/-- **C144** With a process noise, the noise is applied to the state one sampling period later: what is returned, and the draws that are left, are those of the noise. -/
theorem C144_noise (past : List (Op R)) (r0 r1 r : R) (s : Sys R) (h : run ctor r0 past = .ok (s, r1)) (n : VNoise R 19) (x : Fin 19 → ℝ) (u : Fin 6 → ℝ)
    (hx : quatNormSq x = 1) :
    ∃ s1 z, exec s r (.setProcessNoise (some n)) = .ok (s1, r) ∧ AfterQ (period 1 past) x u z ∧ quatNormSq z = 1 ∧
      rotationOf z = turned (period 1 past • seg 3 x 10 + (period 1 past ^ 2 / 2) • seg 3 x 16) * rotationOf x ∧ ∀ r, stateDynamics s1 x u r = n r z := by
  obtain ⟨e1, -⟩ := run_params past h
  have hr : run ctor r0 (past ++ [.setProcessNoise none]) = .ok ({ s with noise := none }, r1) := by
    have : ∀ (ops : List (Op R)) (t : Sys R) (q : R), run t q ops = .ok (s, r1) → run t q (ops ++ [.setProcessNoise none]) = .ok ({ s with noise := none }, r1) := by
      intro ops
      induction ops with
      | nil => intro t q e; cases e; rfl
      | cons op ops ih =>
        intro t q e
        simp only [run, List.cons_append, Res.bind_eq_ok] at e ⊢
        obtain ⟨⟨t1, q1⟩, e1, e2⟩ := e
        exact ⟨(t1, q1), e1, ih t1 q1 e2⟩
    exact this past ctor r0 h
  have hp : ∀ (ops : List (Op R)) d, period d (ops ++ [.setProcessNoise none]) = period d ops := by
    intro ops
    induction ops with
    | nil => intro d; rfl
    | cons op ops ih => intro d; cases op <;> exact ih _
  have hb : ∀ (ops : List (Op R)) b, hasNoise b (ops ++ [.setProcessNoise none]) = false := by
    intro ops
    induction ops with
    | nil => intro d; rfl
    | cons op ops ih => intro d; cases op <;> exact ih _
  obtain ⟨z, e, h1, h2, h3⟩ := C144_step _ r0 r1 r _ hr (hb past false) x u hx
  rw [hp] at h1 h3
  refine ⟨{ s with noise := some n }, z, rfl, h1, h2, h3, fun r => ?_⟩
  injection e with e
  injection e with e
  rw [← e]
  rfl

/-- `z` is what a system with the sampling period `dt`, without process noise, predicts from `x` and the input `u` after some calls. -/
def PredictedQ (R : Type) (dt : ℝ) (x : Fin 19 → ℝ) (u : Fin 6 → ℝ) (z : Fin 19 → ℝ) : Prop :=
  ∃ (past : List (Op R)) (r0 r r' : R) (s : Sys R), run ctor r0 past = .ok (s, r) ∧ period 1 past = dt ∧ hasNoise false past = false ∧ stateDynamics s x u r = .ok (z, r')

theorem PredictedQ.after {dt : ℝ} {x z : Fin 19 → ℝ} {u : Fin 6 → ℝ} (h : PredictedQ R dt x u z) (hx : quatNormSq x = 1) : AfterQ dt x u z ∧ quatNormSq z = 1 ∧
    rotationOf z = turned (dt • seg 3 x 10 + (dt ^ 2 / 2) • seg 3 x 16) * rotationOf x := by
  obtain ⟨past, r0, r, r', s, h1, rfl, h2, h3⟩ := h
  obtain ⟨z', e, h4⟩ := C144_step past r0 r r s h1 h2 x u hx
  rw [h3] at e
  injection e with e
  injection e with e1 e2
  rw [e1]
  exact h4

/-- **C145** Predictions repeated over any number of sampling periods follow the exact motion, there is no error of discretisation: with a constant linear acceleration and an angular velocity
and acceleration about a fixed axis `e`, after `n` steps the position and the velocities are those at the time `n dt` of that motion, and the body has turned about the axis by the
angle at that time. (No step may turn by an angle that is not zero but below 1e-16: C34.) -/
theorem C145_motion (dt : ℝ) (xs : ℕ → Fin 19 → ℝ) (us : ℕ → Fin 6 → ℝ) (hp : ∀ n, PredictedQ R dt (xs n) (us n) (xs (n + 1))) (hx : quatNormSq (xs 0) = 1)
    (a e : V3) (w b : ℝ) (hu : ∀ n, seg 3 (us n) 0 = a ∧ seg 3 (us n) 3 = b • e)
    (ha : seg 3 (xs 0) 13 = a) (hα : seg 3 (xs 0) 16 = b • e) (hω : seg 3 (xs 0) 10 = w • e)
    (hs : ∀ n : ℕ, (dt * (w + n * dt * b) + dt ^ 2 / 2 * b) • e = 0 ∨ 1e-16 < nrm ((dt * (w + n * dt * b) + dt ^ 2 / 2 * b) • e)) (n : ℕ) :
    seg 3 (xs n) 0 = seg 3 (xs 0) 0 + (n * dt) • seg 3 (xs 0) 7 + ((n * dt) ^ 2 / 2) • a ∧ seg 3 (xs n) 7 = seg 3 (xs 0) 7 + (n * dt) • a ∧
      seg 3 (xs n) 10 = (w + n * dt * b) • e ∧ rotationOf (xs n) = NormedSpace.exp (hat ((n * dt * w + (n * dt) ^ 2 / 2 * b) • e)) * rotationOf (xs 0) := by
  suffices h : (seg 3 (xs n) 13 = a ∧ seg 3 (xs n) 16 = b • e ∧ quatNormSq (xs n) = 1) ∧
      seg 3 (xs n) 0 = seg 3 (xs 0) 0 + (n * dt) • seg 3 (xs 0) 7 + ((n * dt) ^ 2 / 2) • a ∧ seg 3 (xs n) 7 = seg 3 (xs 0) 7 + (n * dt) • a ∧
      seg 3 (xs n) 10 = (w + n * dt * b) • e ∧ rotationOf (xs n) = NormedSpace.exp (hat ((n * dt * w + (n * dt) ^ 2 / 2 * b) • e)) * rotationOf (xs 0) from h.2
  induction n with
  | zero =>
    have z : (((0 : ℕ) * dt * w + ((0 : ℕ) * dt) ^ 2 / 2 * b) • e : V3) = 0 := by simp
    refine ⟨⟨ha, hα, hx⟩, by simp, by simp, by simpa using hω, ?_⟩
    rw [z, hat_zero, NormedSpace.exp_zero, one_mul]
  | succ n ih =>
    obtain ⟨⟨i1, i2, i3⟩, i4, i5, i6, i7⟩ := ih
    obtain ⟨h1, h2, h3⟩ := (hp n).after i3
    refine ⟨⟨h1.linAcc.trans (hu n).1, h1.angAcc.trans (hu n).2, h2⟩, ?_, ?_, ?_, ?_⟩
    · rw [h1.pos, i4, i5, i1]
      push_cast
      module
    · rw [h1.linVel, i5, i1]
      push_cast
      module
    · rw [h1.angVel, i6, i2]
      push_cast
      module
    · have e0 : dt • seg 3 (xs n) 10 + (dt ^ 2 / 2) • seg 3 (xs n) 16 = (dt * (w + n * dt * b) + dt ^ 2 / 2 * b) • e := by
        rw [i6, i2]
        module
      have e1 : turned (dt • seg 3 (xs n) 10 + (dt ^ 2 / 2) • seg 3 (xs n) 16) = NormedSpace.exp (hat ((dt * (w + n * dt * b) + dt ^ 2 / 2 * b) • e)) := by
        rw [e0, turned]
        split
        · rename_i hle
          rcases hs n with h | h
          · rw [h, hat_zero, NormedSpace.exp_zero]
          · exact absurd hle (not_le.2 h)
        · rfl
      rw [h3, e1, i7, ← mul_assoc, ← Matrix.exp_add_of_commute]
      · rw [← hat_add, ← add_smul]
        congr 4
        push_cast
        ring
      · rw [hat_smul, hat_smul]
        exact ((Commute.refl (hat e)).smul_left _).smul_right _

/-- C145 is not vacuous: there are such sequences from every state, for every sampling period. -/
theorem C145_sequences (r : R) (dt : ℝ) (x0 : Fin 19 → ℝ) (us : ℕ → Fin 6 → ℝ) :
    ∃ xs : ℕ → Fin 19 → ℝ, xs 0 = x0 ∧ ∀ n, PredictedQ R dt (xs n) (us n) (xs (n + 1)) := by
  refine ⟨fun n => Nat.rec x0 (fun n x => nextState dt x (us n)) n, rfl, fun n => ⟨[.setSamplingPeriod dt], r, r, r, _, rfl, rfl, rfl, rfl⟩⟩

/-- The hypothesis on the steps holds for a turn of one radian per second sampled at 200 Hz. -/
example (n : ℕ) : ((0.005 : ℝ) * (1 + n * 0.005 * 0) + 0.005 ^ 2 / 2 * 0) • ez = 0 ∨ 1e-16 < nrm (((0.005 : ℝ) * (1 + n * 0.005 * 0) + 0.005 ^ 2 / 2 * 0) • ez) := by
  right
  rw [nrm]
  refine Real.lt_sqrt_of_sq_lt ?_
  simp [ez, dotProduct, Fin.sum_univ_three]
  norm_num

end StateObs.Mltp

namespace StateObs.Imu
open StateObs Matrix Rot Kine

variable {G : Type}

theorem turned_exp {v : V3} (h : v = 0 ∨ 1e-16 < nrm v) : turned v = NormedSpace.exp (hat v) := by
  rw [turned]
  split
  · rename_i hle
    rcases h with h | h
    · rw [h, hat_zero, NormedSpace.exp_zero]
    · exact absurd hle (not_le.2 h)
  · rfl

/-- **C145** The same for the flexibility with fixed contacts, whose accelerations stay what they are, whatever the inputs. (No rotation vector of a step or of a state may be shorter
than 1e-16 without being zero.) -/
theorem C145_fixed (dt : ℝ) (xs : ℕ → Fin 18 → ℝ) (hp : ∀ n, Predicted G .fixed dt (xs n) (xs (n + 1))) (e : V3) (w b : ℝ) (hα : seg 3 (xs 0) 15 = b • e) (hω : seg 3 (xs 0) 9 = w • e)
    (hs : ∀ n : ℕ, (dt * (w + n * dt * b) + dt ^ 2 / 2 * b) • e = 0 ∨ 1e-16 < nrm ((dt * (w + n * dt * b) + dt ^ 2 / 2 * b) • e))
    (hx : ∀ n, seg 3 (xs n) 3 = 0 ∨ 1e-16 < nrm (seg 3 (xs n) 3)) (n : ℕ) :
    seg 3 (xs n) 0 = seg 3 (xs 0) 0 + (n * dt) • seg 3 (xs 0) 6 + ((n * dt) ^ 2 / 2) • seg 3 (xs 0) 12 ∧ seg 3 (xs n) 6 = seg 3 (xs 0) 6 + (n * dt) • seg 3 (xs 0) 12 ∧
      seg 3 (xs n) 9 = (w + n * dt * b) • e ∧
      NormedSpace.exp (hat (seg 3 (xs n) 3)) = NormedSpace.exp (hat ((n * dt * w + (n * dt) ^ 2 / 2 * b) • e)) * NormedSpace.exp (hat (seg 3 (xs 0) 3)) := by
  have step : ∀ n, After dt (seg 3 (xs n) 12) (seg 3 (xs n) 15) (xs n) (xs (n + 1)) ∧ Accelerates (xs (n + 1)) (seg 3 (xs n) 12) (seg 3 (xs n) 15) := by
    intro n
    obtain ⟨dt0, past, r0, r, r', s, s', u, h1, rfl, h2, h3⟩ := hp n
    obtain ⟨z', s1, e, h4⟩ := C142_step .fixed dt0 past r0 r r s h1 h2 (xs n) u
    rw [h3] at e
    injection e with e
    injection e with e1 e2
    rw [e1]
    exact h4
  suffices h : (seg 3 (xs n) 12 = seg 3 (xs 0) 12 ∧ seg 3 (xs n) 15 = b • e) ∧
      seg 3 (xs n) 0 = seg 3 (xs 0) 0 + (n * dt) • seg 3 (xs 0) 6 + ((n * dt) ^ 2 / 2) • seg 3 (xs 0) 12 ∧ seg 3 (xs n) 6 = seg 3 (xs 0) 6 + (n * dt) • seg 3 (xs 0) 12 ∧
      seg 3 (xs n) 9 = (w + n * dt * b) • e ∧
      NormedSpace.exp (hat (seg 3 (xs n) 3)) = NormedSpace.exp (hat ((n * dt * w + (n * dt) ^ 2 / 2 * b) • e)) * NormedSpace.exp (hat (seg 3 (xs 0) 3)) from h.2
  induction n with
  | zero =>
    have z : (((0 : ℕ) * dt * w + ((0 : ℕ) * dt) ^ 2 / 2 * b) • e : V3) = 0 := by simp
    refine ⟨⟨rfl, hα⟩, by simp, by simp, by simpa using hω, ?_⟩
    rw [z, hat_zero, NormedSpace.exp_zero, one_mul]
  | succ n ih =>
    obtain ⟨⟨i1, i2⟩, i4, i5, i6, i7⟩ := ih
    obtain ⟨h1, h2⟩ := step n
    refine ⟨⟨h2.linAcc.trans i1, h2.angAcc.trans i2⟩, ?_, ?_, ?_, ?_⟩
    · rw [h1.pos, i4, i5, i1]
      push_cast
      module
    · rw [h1.linVel, i5, i1]
      push_cast
      module
    · rw [h1.angVel, i6, i2]
      push_cast
      module
    · have e0 : dt • seg 3 (xs n) 9 + (dt ^ 2 / 2) • seg 3 (xs n) 15 = (dt * (w + n * dt * b) + dt ^ 2 / 2 * b) • e := by
        rw [i6, i2]
        module
      rw [h1.ori, e0, turned_exp (hs n), turned_exp (hx n), i7, ← mul_assoc, ← Matrix.exp_add_of_commute]
      · rw [← hat_add, ← add_smul]
        congr 4
        push_cast
        ring
      · rw [hat_smul, hat_smul]
        exact ((Commute.refl (hat e)).smul_left _).smul_right _

theorem exp_hat_eq_one {z : V3} (h : NormedSpace.exp (hat z) = 1) (hz : nrm z ≤ Real.pi) : z = 0 := by
  by_contra hne
  have hp : 0 < nrm z := lt_of_le_of_ne (Real.sqrt_nonneg _) fun h => hne (nrm_eq_zero.1 h.symm)
  have hu : ((1 / nrm z) • z) ⬝ᵥ ((1 / nrm z) • z) = 1 := unit_normalized hp
  have e := toMat_eq_exp hu (nrm z)
  rw [← hat_smul, smul_smul, mul_one_div_cancel hp.ne', one_smul, h] at e
  generalize (1 / nrm z) • z = u at hu e
  have t := congrArg Matrix.trace e
  rw [Matrix.trace_fin_three, Matrix.trace_fin_three] at t
  simp [AngleAxis.toMat] at t
  rw [dot3] at hu
  have hc : Real.cos (nrm z) = 1 := by nlinarith
  have := Real.cos_lt_cos_of_nonneg_of_le_pi le_rfl hz hp
  rw [Real.cos_zero] at this
  linarith

/-- C145 is not vacuous for fixed contacts: from every state without rotation, angular velocity and angular acceleration there is a sequence that meets the hypotheses. -/
theorem C145_fixed_sequences (r : G) (dt : ℝ) (x0 : Fin 18 → ℝ) (h3 : seg 3 x0 3 = 0) (h9 : seg 3 x0 9 = 0) (h15 : seg 3 x0 15 = 0) :
    ∃ xs : ℕ → Fin 18 → ℝ, xs 0 = x0 ∧ (∀ n, Predicted G .fixed dt (xs n) (xs (n + 1))) ∧ ∀ n, seg 3 (xs n) 3 = 0 := by
  have ex : ∀ x, ∃ z, Predicted G .fixed dt x z ∧ (seg 3 x 3 = 0 ∧ seg 3 x 9 = 0 ∧ seg 3 x 15 = 0 → seg 3 z 3 = 0 ∧ seg 3 z 9 = 0 ∧ seg 3 z 15 = 0) := by
    intro x
    obtain ⟨z, s', e, h1, h2⟩ := C142_step (G := G) .fixed dt [] r r r (ctor dt) rfl rfl x 0
    refine ⟨z, ⟨dt, [], r, r, r, ctor dt, s', 0, rfl, rfl, rfl, e⟩, fun ⟨a1, a2, a3⟩ => ⟨exp_hat_eq_one ?_ h1.short, ?_, h2.angAcc.trans a3⟩⟩
    · have o := h1.ori
      rw [a1, a2, a3, smul_zero, smul_zero, add_zero, turned_exp (Or.inl rfl), hat_zero, NormedSpace.exp_zero, one_mul] at o
      exact o
    · have o := h1.angVel
      rw [a2, a3, smul_zero, add_zero] at o
      exact o
  choose f hf using ex
  refine ⟨fun n => f^[n] x0, rfl, fun n => by dsimp only; rw [Function.iterate_succ_apply']; exact (hf _).1, fun n => ?_⟩
  have : seg 3 (f^[n] x0) 3 = 0 ∧ seg 3 (f^[n] x0) 9 = 0 ∧ seg 3 (f^[n] x0) 15 = 0 := by
    induction n with
    | zero => exact ⟨h3, h9, h15⟩
    | succ n ih => rw [Function.iterate_succ_apply']; exact (hf _).2 ih
  exact this.1

end StateObs.Imu
