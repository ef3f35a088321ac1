import Verif.Kin.Lemmas
/-!
# C51: integration of kinematics
-/

namespace StateObs.Kine
open StateObs Matrix Rot

attribute [local instance] Matrix.linftyOpNormedRing Matrix.linftyOpNormedAlgebra Matrix.linftyOpNormedAddCommGroup Matrix.linftyOpNormedSpace

namespace Kin

/-- **C51** `integrate` never asserts, sets exactly the fields that were set, leaves the accelerations, and does nothing for a zero duration. -/
theorem C51_flags (k : Kin) (a : Value) (h : k.Has a) :
    (∀ dt, ∃ k' c, k.integrate dt = .ok k' ∧ k'.Has c ∧ c.flags = a.flags ∧ c.linAcc = a.linAcc ∧ c.angAcc = a.angAcc ∧
      (a.linVel = none → c.pos = a.pos) ∧ (a.linAcc = none → c.linVel = a.linVel) ∧
      (a.angVel = none → c.ori = a.ori) ∧ (a.angAcc = none → c.angVel = a.angVel)) ∧
    ∃ k', k.integrate 0 = .ok k' ∧ k'.Has a := by
  refine ⟨fun dt => ?_, ?_⟩
  · obtain ⟨k', e, h'⟩ := integrate_spec h dt
    refine ⟨k', _, e, h', ?_, rfl, rfl, fun e => ?_, fun e => ?_, fun e => ?_, fun e => ?_⟩
    · obtain ⟨p, o, v, w, x, y⟩ := a
      cases v <;> cases w <;> cases x <;> cases y <;> simp [intValue, Value.flags, velAfter]
    · simp [intValue, gain, e]
    · cases hv : a.linVel <;> simp [intValue, velAfter, e, hv]
    · simp [intValue, gain, e, vecRot_zero]
    · cases hv : a.angVel <;> simp [intValue, velAfter, e, hv]
  · obtain ⟨k', e, h'⟩ := integrate_spec h 0
    refine ⟨k', e, ?_⟩
    convert! h' using 1
    have g0 : ∀ v b, gain v b 0 = 0 := by
      intro v b; cases v <;> cases b <;> simp [gain]
    have v0 : ∀ v b, velAfter v b 0 = v := by
      intro v b; cases v <;> cases b <;> simp [velAfter]
    simp [intValue, g0, v0, vecRot_zero]

/-- **C51** The linear part is the exact motion with constant acceleration: the position and the velocity after `t` are the curves with the given derivatives
and initial values. -/
theorem C51_linear_motion (k : Kin) (a : Value) (h : k.Has a) (p v x : V3) (hp : a.pos = some p) (hv : a.linVel = some v)
    (hx : a.linAcc = some x ∨ a.linAcc = none ∧ x = 0) :
    ∃ P V : ℝ → V3, Deriv P V ∧ Deriv V (fun _ => x) ∧ P 0 = p ∧ V 0 = v ∧
      ∀ t, ∃ k' c, k.integrate t = .ok k' ∧ k'.Has c ∧ c.pos = some (P t) ∧ c.linVel = some (V t) := by
  refine ⟨fun t => p + (t • v + (t * t / 2) • x), fun t => v + t • x, fun t => ?_, fun t => ?_, by simp, by simp, fun t => ?_⟩
  · have h1 := (hasDerivAt_id t).smul_const v
    have h2 := (((hasDerivAt_id t).mul (hasDerivAt_id t)).div_const 2).smul_const x
    convert! (h1.add h2).const_add p using 1
    simp only [id, one_mul, mul_one, one_smul]
    congr 2; ring
  · convert! ((hasDerivAt_id t).smul_const x).const_add v using 1
    rw [one_smul]
  · obtain ⟨k', e, h'⟩ := integrate_spec h t
    refine ⟨k', _, e, h', ?_, ?_⟩
    · rcases hx with hx | ⟨hx, rfl⟩ <;> simp [intValue, gain, hp, hv, hx]
    · rcases hx with hx | ⟨hx, rfl⟩ <;> simp [intValue, velAfter, hv, hx]

/-- **C51** Integrating over `s` then over `t` is integrating over `s + t`, for the linear part, whichever fields are set. -/
theorem C51_linear_steps (k : Kin) (a : Value) (h : k.Has a) (s t : ℝ) :
    ∃ k1 k2 k' c c', k.integrate s = .ok k1 ∧ k1.integrate t = .ok k2 ∧ k.integrate (s + t) = .ok k' ∧ k2.Has c ∧ k'.Has c' ∧
      c.pos = c'.pos ∧ c.linVel = c'.linVel ∧ c.linAcc = c'.linAcc := by
  obtain ⟨k1, e1, h1⟩ := integrate_spec h s
  obtain ⟨k2, e2, h2⟩ := integrate_spec h1 t
  obtain ⟨k', e, h'⟩ := integrate_spec h (s + t)
  refine ⟨k1, k2, k', _, _, e1, e2, e, h2, h', ?_, ?_, rfl⟩
  · cases hv : a.linVel <;> cases hx : a.linAcc <;> cases hp : a.pos <;> simp [intValue, gain, velAfter, hv, hx, hp]
    · rw [add_assoc, ← add_smul]
    · rename_i v x p
      simp only [smul_add, smul_smul]
      funext i
      simp only [Pi.add_apply, Pi.smul_apply, smul_eq_mul]
      ring
  · cases hv : a.linVel <;> cases hx : a.linAcc <;> simp [intValue, velAfter, hv, hx]
    rw [add_assoc, ← add_smul]

/-- The rotation is not neglected by the code: the rotation vector is zero or longer than 1e-16. -/
def NotTiny (v : V3) : Prop := v = 0 ∨ 1e-16 < nrm v

theorem vecRot_exp {v : V3} (h : NotTiny v) : vecRot v = NormedSpace.exp (hat v) := by
  rw [vecRot]
  rcases h with rfl | h
  · rw [nrm_zero, if_pos (by norm_num), hat_zero, NormedSpace.exp_zero]
  · rw [if_neg (not_le.2 h)]

theorem exp_axis (u : V3) (x y : ℝ) : NormedSpace.exp (hat (x • u)) * NormedSpace.exp (hat (y • u)) = NormedSpace.exp (hat ((x + y) • u)) := by
  rw [add_smul, hat_add, Matrix.exp_add_of_commute]
  rw [hat_smul, hat_smul]
  exact ((Commute.refl (hat u)).smul_left x).smul_right y

theorem turns_axis (u : V3) (R : M3) (θ θ' : ℝ → ℝ) (h : ∀ t, HasDerivAt θ (θ' t) t) :
    Turns (fun t => NormedSpace.exp (hat (θ t • u)) * R) (fun t => θ' t • u) := by
  intro t x
  have h1 : HasDerivAt (fun t => NormedSpace.exp (θ t • hat u)) (θ' t • (hat u * NormedSpace.exp (θ t • hat u))) t :=
    (hasDerivAt_exp_smul_const' (hat u) (θ t)).scomp t (h t)
  let L : M3 →ₗ[ℝ] V3 :=
    { toFun := fun M => M *ᵥ (R *ᵥ x)
      map_add' := fun a b => add_mulVec _ _ _
      map_smul' := fun a b => smul_mulVec _ _ _ }
  have h2 := (LinearMap.toContinuousLinearMap L).hasFDerivAt.comp_hasDerivAt t h1
  simp only [hat_smul]
  convert! h2 using 1
  · funext s; exact (mulVec_mulVec _ _ _).symm
  · show _ = (θ' t • (hat u * NormedSpace.exp (θ t • hat u))) *ᵥ (R *ᵥ x)
    rw [smul_mulVec, smul_cross, ← mulVec_mulVec, ← mulVec_mulVec, hat_mulVec]

/-- **C51** With a constant rotation axis (the angular acceleration is along the angular velocity), the angular part is the exact motion with constant
angular acceleration, unless the angle is neglected. -/
theorem C51_angular_motion (k : Kin) (a : Value) (h : k.Has a) (R : M3) (u : V3) (m n : ℝ) (hR : a.ori = some R) (hw : a.angVel = some (m • u))
    (hb : a.angAcc = some (n • u) ∨ a.angAcc = none ∧ n = 0) :
    ∃ Q : ℝ → M3, Turns Q (fun t => (m + t * n) • u) ∧ Q 0 = R ∧
      ∀ t, NotTiny ((t * m + t * t / 2 * n) • u) →
        ∃ k' c, k.integrate t = .ok k' ∧ k'.Has c ∧ c.ori = some (Q t) ∧ c.angVel = some ((m + t * n) • u) := by
  refine ⟨fun t => NormedSpace.exp (hat ((t * m + t * t / 2 * n) • u)) * R, turns_axis u R _ _ fun t => ?_, by simp [hat_zero], fun t ht => ?_⟩
  · convert! ((hasDerivAt_id t).mul_const m).add ((((hasDerivAt_id t).mul (hasDerivAt_id t)).div_const 2).mul_const n) using 1
    simp only [id]; ring
  · obtain ⟨k', e, h'⟩ := integrate_spec h t
    refine ⟨k', _, e, h', ?_, ?_⟩
    · dsimp only
      rw [← vecRot_exp ht]
      rcases hb with hb | ⟨hb, rfl⟩ <;> simp [intValue, gain, hR, hw, hb, smul_smul, add_smul]
    · rcases hb with hb | ⟨hb, rfl⟩ <;> simp [intValue, velAfter, hw, hb, smul_smul, add_smul]

/-- **C51** Integrating over `s` then over `t` is integrating over `s + t`, for the angular part with a constant axis, unless an angle is neglected. -/
theorem C51_angular_steps (k : Kin) (a : Value) (h : k.Has a) (s t : ℝ)
    (hax : ∀ w b, a.angVel = some w → a.angAcc = some b → ∃ (u : V3) (m n : ℝ), w = m • u ∧ b = n • u)
    (hs : ∀ w, a.angVel = some w → NotTiny (s • w + (s * s / 2) • a.angAcc.getD 0))
    (ht : ∀ w, a.angVel = some w → NotTiny (t • (w + s • a.angAcc.getD 0) + (t * t / 2) • a.angAcc.getD 0))
    (hst : ∀ w, a.angVel = some w → NotTiny ((s + t) • w + ((s + t) * (s + t) / 2) • a.angAcc.getD 0)) :
    ∃ k1 k2 k' c c', k.integrate s = .ok k1 ∧ k1.integrate t = .ok k2 ∧ k.integrate (s + t) = .ok k' ∧ k2.Has c ∧ k'.Has c' ∧
      c.ori = c'.ori ∧ c.angVel = c'.angVel ∧ c.angAcc = c'.angAcc := by
  obtain ⟨k1, e1, h1⟩ := integrate_spec h s
  obtain ⟨k2, e2, h2⟩ := integrate_spec h1 t
  obtain ⟨k', e, h'⟩ := integrate_spec h (s + t)
  refine ⟨k1, k2, k', _, _, e1, e2, e, h2, h', ?_, ?_, rfl⟩
  · cases hw : a.angVel with
    | none => simp [intValue, gain, velAfter, hw, vecRot_zero, Option.map_map]
    | some w =>
      obtain ⟨u, m, n, q1, q2⟩ : ∃ (u : V3) (m n : ℝ), w = m • u ∧ a.angAcc.getD 0 = n • u := by
        cases hb : a.angAcc with
        | none => exact ⟨w, 1, 0, by simp, by simp⟩
        | some b => exact hax w b hw hb
      have hs := hs w hw
      have ht := ht w hw
      have hst := hst w hw
      rw [q2, q1] at hs ht hst
      have key : vecRot (t • (m • u + s • n • u) + (t * t / 2) • n • u) * vecRot (s • m • u + (s * s / 2) • n • u) =
          vecRot ((s + t) • m • u + ((s + t) * (s + t) / 2) • n • u) := by
        rw [vecRot_exp hs, vecRot_exp ht, vecRot_exp hst]
        simp only [smul_smul, smul_add, ← add_smul]
        rw [exp_axis]
        congr 3; ring
      cases hb : a.angAcc with
      | none =>
        rw [hb] at q2
        have : n • u = 0 := by rw [← q2]; rfl
        rw [this] at key
        simp only [smul_zero, add_zero] at key
        cases hR : a.ori with
        | none => simp [intValue, hR]
        | some R => simp only [intValue, gain, velAfter, hw, hb, hR, q1, Option.map_some, ← mul_assoc, key]
      | some b =>
        rw [hb] at q2
        simp only [Option.getD_some] at q2
        cases hR : a.ori with
        | none => simp [intValue, hR]
        | some R => simp only [intValue, gain, velAfter, hw, hb, hR, q1, q2, Option.map_some, ← mul_assoc, key]
  · cases hv : a.angVel <;> cases hx : a.angAcc <;> simp [intValue, velAfter, hv, hx]
    rw [add_assoc, ← add_smul]

/-- Kinematics to which C51 applies: one radian per second about the vertical axis, slowing down. -/
example : ∃ (k : Kin) (a : Value), k.Has a ∧ a.pos = some ![1, 2, 3] ∧ a.linVel = some ![4, 5, 6] ∧ a.linAcc = some ![0, 0, -10] ∧ a.ori = some 1 ∧
    a.angVel = some ((1 : ℝ) • ![0, 0, 1]) ∧ a.angAcc = some ((-0.5 : ℝ) • ![0, 0, 1]) :=
  ⟨⟨⟨true, some ![1, 2, 3]⟩, Ori.ofMat 1, ⟨true, some ![4, 5, 6]⟩, ⟨true, some ((1 : ℝ) • ![0, 0, 1])⟩, ⟨true, some ![0, 0, -10]⟩,
    ⟨true, some ((-0.5 : ℝ) • ![0, 0, 1])⟩⟩, ⟨some ![1, 2, 3], some 1, some ![4, 5, 6], some ((1 : ℝ) • ![0, 0, 1]), some ![0, 0, -10],
    some ((-0.5 : ℝ) • ![0, 0, 1])⟩, ⟨rfl, Ori.rep_m IsRot.one, rfl, rfl, rfl, rfl⟩, rfl, rfl, rfl, rfl, rfl, rfl⟩
example : NotTiny (((0.1 : ℝ) * 1 + 0.1 * 0.1 / 2 * (-0.5)) • ![0, 0, 1]) := by
  right
  rw [nrm_smul]
  simp [nrm, dot3]
  norm_num [abs_of_pos]

end Kin
end StateObs.Kine
