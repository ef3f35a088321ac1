import Verif.Kin.DepLemmas
import Verif.Kin.UpdProps
/-!
# C113: the previous version of the update of kinematics
-/

namespace StateObs.Kine
open StateObs Matrix Rot

namespace Kin

/-- **C113** `update_deprecated` never fails: any flags can be asked for, whatever is known. -/
theorem C113_defined (k n : Kin) (a b : Value) (h : k.Has a) (hn : n.Has b) (f : KFlags) (dt : ℝ) :
    ∃ k' c, k.updateDeprecated n dt f = .ok k' ∧ k'.Has c := by
  obtain ⟨k', D, e, -, h'⟩ := dep_spec h hn f dt
  exact ⟨k', _, e, h'⟩

/-- **C113** The flagged fields are set afterwards. -/
theorem C113_flags (k n k' : Kin) (a b c : Value) (h : k.Has a) (hn : n.Has b) (f : KFlags) (dt : ℝ) (e : k.updateDeprecated n dt f = .ok k') (hc : k'.Has c) :
    c.Provides f := by
  obtain ⟨D, hD, rfl⟩ := dep_val h hn e hc
  refine ⟨fun hf => ?_, fun hf => ?_, fun hf => ?_, fun hf => ?_, fun hf => ?_, fun hf => ?_⟩
  · simp only [depValue, dPos, hf, if_true]; cases b.pos <;> rfl
  · simp only [depValue, dOri, hf, if_true]; cases b.ori <;> rfl
  · simp only [depValue, dVel, hf, if_true]; cases b.linVel <;> cases incr a.pos b.pos <;> rfl
  · simp only [depValue, dVel, hf, if_true]; cases b.angVel <;> cases D <;> rfl
  · simp only [depValue, dAcc, hf, if_true]; cases b.linAcc <;> cases a.linVel <;> cases b.linVel <;> rfl
  · simp only [depValue, dAcc, hf, if_true]; cases b.angAcc <;> cases a.angVel <;> cases b.angVel <;> rfl

/-- **C113** The other fields are as before, set or not (`update` resets them: `C52_flags_linear`). -/
theorem C113_others (k n k' : Kin) (a b c : Value) (h : k.Has a) (hn : n.Has b) (f : KFlags) (dt : ℝ) (e : k.updateDeprecated n dt f = .ok k') (hc : k'.Has c) :
    c = Value.select f c a := by
  obtain ⟨D, hD, rfl⟩ := dep_val h hn e hc
  obtain ⟨f1, f2, f3, f4, f5, f6⟩ := f
  cases f1 <;> cases f2 <;> cases f3 <;> cases f4 <;> cases f5 <;> cases f6 <;> rfl

/-- **C113** The flagged fields that are given are copied. -/
theorem C113_provided (k n k' : Kin) (a b c : Value) (h : k.Has a) (hn : n.Has b) (f : KFlags) (dt : ℝ) (e : k.updateDeprecated n dt f = .ok k')
    (hc : k'.Has c) :
    (f.pos → b.pos.isSome → c.pos = b.pos) ∧ (f.linVel → b.linVel.isSome → c.linVel = b.linVel) ∧ (f.linAcc → b.linAcc.isSome → c.linAcc = b.linAcc) ∧
    (f.ori → b.ori.isSome → c.ori = b.ori) ∧ (f.angVel → b.angVel.isSome → c.angVel = b.angVel) ∧ (f.angAcc → b.angAcc.isSome → c.angAcc = b.angAcc) := by
  obtain ⟨D, hD, rfl⟩ := dep_val h hn e hc
  refine ⟨fun hf hb => ?_, fun hf hb => ?_, fun hf hb => ?_, fun hf hb => ?_, fun hf hb => ?_, fun hf hb => ?_⟩ <;> obtain ⟨x, hx⟩ := some_of hb
  · simp [depValue, dPos, hf, hx]
  · simp [depValue, dVel, hf, hx]
  · simp [depValue, dAcc, hf, hx]
  · simp [depValue, dOri, hf, hx]
  · simp [depValue, dVel, hf, hx]
  · simp [depValue, dAcc, hf, hx]

/-- **C113** The pose that is not given moves with the previous velocity and acceleration, and is the origin if it is not known. Neither the new velocities
and accelerations nor the other flags matter. -/
theorem C113_pose (k n k' : Kin) (a b c : Value) (h : k.Has a) (hn : n.Has b) (f : KFlags) (dt : ℝ) (e : k.updateDeprecated n dt f = .ok k')
    (hc : k'.Has c) :
    (f.pos → b.pos = none → (a.pos = none → c.pos = some 0) ∧ ∀ p, a.pos = some p → (a.linVel = none → c.pos = some p) ∧
      (∀ v, a.linVel = some v → c.pos = some (p + dt • v + (dt * dt / 2) • a.linAcc.getD 0))) ∧
    (f.ori → b.ori = none → (a.ori = none → c.ori = some 1) ∧ ∀ R, a.ori = some R → (a.angVel = none → c.ori = some R) ∧
      (∀ w, a.angVel = some w → c.ori = some (vecRot (dt • w + (dt * dt / 2) • a.angAcc.getD 0) * R))) := by
  obtain ⟨D, hD, rfl⟩ := dep_val h hn e hc
  refine ⟨fun hf hb => ⟨fun hp => ?_, fun p hp => ⟨fun hv => ?_, fun v hv => ?_⟩⟩, fun hf hb => ⟨fun hp => ?_, fun p hp => ⟨fun hv => ?_, fun v hv => ?_⟩⟩⟩
  · simp [depValue, dPos, hf, hb, hp]
  · simp [depValue, dPos, hf, hb, hp, hv, gain]
  · cases ha : a.linAcc <;> simp [depValue, dPos, hf, hb, hp, hv, gain, ha, add_assoc]
  · simp [depValue, dOri, hf, hb, hp]
  · simp [depValue, dOri, hf, hb, hp, hv, gain, vecRot_zero]
  · cases ha : a.angAcc <;> simp [depValue, dOri, hf, hb, hp, hv, gain, ha]

/-- **C113** The velocity that is not given is the one that leads from the known pose to the new one, whether the pose is flagged or not. -/
theorem C113_velocity (k n k' : Kin) (a b c : Value) (h : k.Has a) (hn : n.Has b) (f : KFlags) (dt : ℝ) (hdt : dt ≠ 0)
    (e : k.updateDeprecated n dt f = .ok k') (hc : k'.Has c) :
    (f.linVel → b.linVel = none → ∀ p q, a.pos = some p → b.pos = some q → ∃ v, c.linVel = some v ∧ p + dt • v = q) ∧
    (f.angVel → b.angVel = none → ∀ R S, a.ori = some R → b.ori = some S →
      ∃ w, c.angVel = some w ∧ NormedSpace.exp (hat (dt • w)) * R = S ∧ nrm (dt • w) ≤ Real.pi) := by
  obtain ⟨D, hD, rfl⟩ := dep_val h hn e hc
  refine ⟨fun hf hb p q hp hq => ⟨(1 / dt) • (q - p), by simp [depValue, dVel, hf, hb, hp, hq, incr], ?_⟩, fun hf hb R S hR hS => ?_⟩
  · rw [smul_smul, mul_one_div_cancel hdt, one_smul, add_sub_cancel]
  · rw [hR, hS] at hD
    obtain ⟨d, rfl, h1, h2⟩ := hD
    refine ⟨(1 / dt) • d, by simp [depValue, dVel, hf, hb], ?_⟩
    rw [smul_smul, mul_one_div_cancel hdt, one_smul]
    exact ⟨h1, h2⟩

/-- **C113** Without two poses, the velocity that is not given follows the previous acceleration, and is zero if it is not known. -/
theorem C113_velocity_kept (k n k' : Kin) (a b c : Value) (h : k.Has a) (hn : n.Has b) (f : KFlags) (dt : ℝ)
    (e : k.updateDeprecated n dt f = .ok k') (hc : k'.Has c) :
    (f.linVel → b.linVel = none → a.pos = none ∨ b.pos = none → (a.linVel = none → c.linVel = some 0) ∧
      ∀ v, a.linVel = some v → c.linVel = some (v + dt • a.linAcc.getD 0)) ∧
    (f.angVel → b.angVel = none → a.ori = none ∨ b.ori = none → (a.angVel = none → c.angVel = some 0) ∧
      ∀ v, a.angVel = some v → c.angVel = some (v + dt • a.angAcc.getD 0)) := by
  obtain ⟨D, hD, rfl⟩ := dep_val h hn e hc
  constructor
  · intro hf hb hp
    have hi : incr a.pos b.pos = none := by
      rcases hp with hp | hp
      · rw [hp]; rfl
      · rw [hp]; cases a.pos <;> rfl
    refine ⟨fun hv => ?_, fun v hv => ?_⟩
    · cases ha : a.linAcc <;> simp [depValue, dVel, hf, hb, hi, hv, velAfter]
    · cases ha : a.linAcc <;> simp [depValue, dVel, hf, hb, hi, hv, velAfter, ha]
  · intro hf hb hp
    have hi : D = none := by
      rcases hp with hp | hp
      · rw [hp] at hD; exact hD
      · rw [hp] at hD; cases hR : a.ori <;> rw [hR] at hD <;> exact hD
    refine ⟨fun hv => ?_, fun v hv => ?_⟩
    · cases ha : a.angAcc <;> simp [depValue, dVel, hf, hb, hi, hv, velAfter]
    · cases ha : a.angAcc <;> simp [depValue, dVel, hf, hb, hi, hv, velAfter, ha]

/-- **C113** The acceleration that is not given is the one that leads from the known velocity to the new one, whether the velocity is flagged or not. Without
two velocities it is kept, and is zero if it is not known. -/
theorem C113_acceleration (k n k' : Kin) (a b c : Value) (h : k.Has a) (hn : n.Has b) (f : KFlags) (dt : ℝ) (hdt : dt ≠ 0)
    (e : k.updateDeprecated n dt f = .ok k') (hc : k'.Has c) :
    (f.linAcc → b.linAcc = none → (∀ v u, a.linVel = some v → b.linVel = some u → ∃ x, c.linAcc = some x ∧ v + dt • x = u) ∧
      (a.linVel = none ∨ b.linVel = none → c.linAcc = some (a.linAcc.getD 0))) ∧
    (f.angAcc → b.angAcc = none → (∀ v u, a.angVel = some v → b.angVel = some u → ∃ x, c.angAcc = some x ∧ v + dt • x = u) ∧
      (a.angVel = none ∨ b.angVel = none → c.angAcc = some (a.angAcc.getD 0))) := by
  obtain ⟨D, hD, rfl⟩ := dep_val h hn e hc
  have key : ∀ V A NV : Option V3, (∀ v u, V = some v → NV = some u → ∃ x, dAcc true V A NV none dt = some x ∧ v + dt • x = u) ∧
      (V = none ∨ NV = none → dAcc true V A NV none dt = some (A.getD 0)) := by
    intro V A NV
    refine ⟨?_, ?_⟩
    · rintro v u rfl rfl
      exact ⟨(1 / dt) • (u - v), rfl, by rw [smul_smul, mul_one_div_cancel hdt, one_smul, add_sub_cancel]⟩
    · rintro (rfl | rfl)
      · cases NV <;> rfl
      · cases V <;> rfl
  refine ⟨fun hf hb => ?_, fun hf hb => ?_⟩
  · have := key a.linVel a.linAcc b.linVel
    simpa only [depValue, hf, hb] using this
  · have := key a.angVel a.angAcc b.angVel
    simpa only [depValue, hf, hb] using this

/-- **C113** Without new values, the flagged fields that are known are those of `integrate`, the flagged fields that are not known become zero, and the others
are kept. -/
theorem C113_nothing_new (k n k' : Kin) (a c : Value) (h : k.Has a) (hn : n.Has Value.empty) (f : KFlags) (dt : ℝ)
    (e : k.updateDeprecated n dt f = .ok k') (hc : k'.Has c) :
    ∃ i v, k.integrate dt = .ok i ∧ i.Has v ∧
      c = Value.select f ⟨some (v.pos.getD 0), some (v.ori.getD 1), some (v.linVel.getD 0), some (v.angVel.getD 0), some (v.linAcc.getD 0),
        some (v.angAcc.getD 0)⟩ a := by
  obtain ⟨D, hD, rfl⟩ := dep_val h hn e hc
  obtain ⟨i, ei, hi⟩ := integrate_spec h dt
  refine ⟨i, _, ei, hi, ?_⟩
  have hD' : D = none := by
    cases hR : a.ori <;> rw [hR] at hD <;> exact hD
  have hi' : incr a.pos none = none := by cases a.pos <;> rfl
  subst hD'
  ext1
  · simp only [depValue, Value.select, Value.empty, dPos, intValue]
  · simp only [depValue, Value.select, Value.empty, dOri, intValue]
  · simp only [depValue, Value.select, Value.empty, dVel, intValue, hi']
  · simp only [depValue, Value.select, Value.empty, dVel, intValue]
  · simp only [depValue, Value.select, Value.empty, dAcc, intValue]; cases a.linVel <;> rfl
  · simp only [depValue, Value.select, Value.empty, dAcc, intValue]; cases a.angVel <;> rfl

/-- **C113** `update` gives the same linear velocity, whenever it gives one. -/
theorem C113_velocity_agrees (k n k' k'' : Kin) (a b c d : Value) (h : k.Has a) (hn : n.Has b) (f : KFlags) (dt : ℝ) (hdt : dt ≠ 0)
    (e : k.updateDeprecated n dt f = .ok k') (hc : k'.Has c) (e' : k.update n dt f = .ok k'') (hd : k''.Has d) (hf : f.linVel) : c.linVel = d.linVel := by
  cases hv : b.linVel with
  | some u => rw [(C113_provided k n k' a b c h hn f dt e hc).2.1 hf (by rw [hv]; rfl), (C52_provided k n k'' a b d h hn f dt e' hd).2.1 hf (by rw [hv]; rfl)]
  | none =>
    have kept : a.pos = none ∨ b.pos = none → c.linVel = d.linVel := by
      intro hor
      cases hav : a.linVel with
      | none =>
        have hdd := (C52_defined k n a b h hn f dt).1.not.1 (by rw [e']; simp)
        have := (not_not.1 hdd).2.1 hf
        rcases this with h1 | h1 | ⟨h1, h2⟩
        · rw [hv] at h1; cases h1
        · rw [hav] at h1; cases h1
        · rcases hor with hor | hor
          · rw [hor] at h1; cases h1
          · rw [hor] at h2; cases h2
      | some v =>
        rw [((C113_velocity_kept k n k' a b c h hn f dt e hc).1 hf hv hor).2 v hav, (C52_kept k n k'' a b d h hn f dt e' hd hor hv).1 v hf hav]
    cases hp : a.pos with
    | none => exact kept (.inl hp)
    | some p =>
      cases hq : b.pos with
      | none => exact kept (.inr hq)
      | some q =>
        obtain ⟨v, h1, h2⟩ := (C113_velocity k n k' a b c h hn f dt hdt e hc).1 hf hv p q hp hq
        obtain ⟨u, h3, h4⟩ := C52_velocity_from_positions k n k'' a b d h hn f dt hdt e' hd p q hp hq hf hv
        rw [h1, h3, smul_right_injective _ hdt (add_left_cancel (h2.trans h4.symm))]

/-- **C113** `update` does not give the same acceleration: with a known velocity and two positions, `update` deduces the acceleration from the new velocity that it
deduces, while `update_deprecated` keeps the previous acceleration. The velocity then changes while the acceleration is zero. -/
theorem C113_acceleration_differs : ∃ (k n k' k'' : Kin) (a b c d : Value) (f : KFlags), k.Has a ∧ n.Has b ∧
    k.updateDeprecated n 1 f = .ok k' ∧ k'.Has c ∧ k.update n 1 f = .ok k'' ∧ k''.Has d ∧ f.linVel ∧ f.linAcc ∧
    a.linVel = some 0 ∧ c.linVel = some ![1, 0, 0] ∧ c.linAcc = some 0 ∧ d.linVel = some ![1, 0, 0] ∧ d.linAcc = some ![1, 0, 0] := by
  have h := ofFields_has (some 0) (some 0) none (some 0) none (Ori.new true) none hold_none
  have hn := ofFields_has (some ![1, 0, 0]) none none none none (Ori.new true) none hold_none
  obtain ⟨k', c, e, hc⟩ := C113_defined _ _ _ _ h hn ⟨true, false, true, false, true, false⟩ 1
  obtain ⟨k'', d, e', hd⟩ := (C52_defined _ _ _ _ h hn ⟨true, false, true, false, true, false⟩ 1).2
    (by simp [Value.Deducible, DeduciblePos, DeducibleVel, DeducibleAcc])
  obtain ⟨u, x, h1, h2, h3, h4⟩ := C52_acceleration_from_position_velocity _ _ _ _ _ _ h hn _ 1 one_ne_zero e' hd 0 0 ![1, 0, 0] rfl rfl rfl rfl rfl rfl rfl
  obtain ⟨v, g1, g2⟩ := (C113_velocity _ _ _ _ _ _ h hn _ 1 one_ne_zero e hc).1 rfl rfl 0 ![1, 0, 0] rfl rfl
  rw [zero_add, one_smul] at g2 h4 h3
  subst g2 h3 h4
  exact ⟨_, _, k', k'', _, _, c, d, _, h, hn, e, hc, e', hd, rfl, rfl, rfl, g1,
    ((C113_acceleration _ _ _ _ _ _ h hn _ 1 one_ne_zero e hc).1 rfl rfl).2 (.inr rfl), h1, h2⟩

/-- Kinematics, new values and flags to which the theorems apply: nothing is known of the orientation, and it is asked for; the velocity is not asked for. -/
example : ∃ (k n k' : Kin) (a b c : Value) (f : KFlags), k.Has a ∧ n.Has b ∧ k.updateDeprecated n 0.01 f = .ok k' ∧ k'.Has c ∧
    ¬ Value.Deducible f a b ∧ a.pos = some 0 ∧ a.linVel = some ![1, 0, 0] ∧ b.linVel = some ![3, 0, 0] ∧ f.linAcc ∧ f.linVel = false ∧
    c.linVel = some ![1, 0, 0] ∧ c.linAcc = some ![200, 0, 0] ∧ c.ori = some 1 := by
  have h := ofFields_has (some 0) (some ![1, 0, 0]) none none none (Ori.new true) none hold_none
  have hn := ofFields_has none (some ![3, 0, 0]) none none none (Ori.new true) none hold_none
  obtain ⟨k', c, e, hc⟩ := C113_defined _ _ _ _ h hn ⟨true, true, false, false, true, false⟩ 0.01
  obtain ⟨x, h1, h2⟩ := ((C113_acceleration _ _ _ _ _ _ h hn _ _ (by norm_num) e hc).1 rfl rfl).1 ![1, 0, 0] ![3, 0, 0] rfl rfl
  have h3 := congrArg Value.linVel (C113_others _ _ _ _ _ _ h hn _ _ e hc)
  refine ⟨_, _, k', _, _, c, _, h, hn, e, hc, ?_, rfl, rfl, rfl, rfl, rfl, h3, ?_, ((C113_pose _ _ _ _ _ _ h hn _ _ e hc).2 rfl rfl).1 rfl⟩
  · simp [Value.Deducible, DeduciblePos]
  · rw [h1]
    congr 1
    ext i
    have := congrFun h2 i
    fin_cases i <;> simp at this ⊢ <;> norm_num at this ⊢ <;> linarith

end Kin
end StateObs.Kine
