import Verif.Kin.UpdLemmas
/-!
# C52: update of kinematics with new values
-/

namespace StateObs.Kine
open StateObs Matrix Rot

namespace Kin

/-- **C52** `update` asserts exactly when a flagged field can be deduced neither from the new values nor from the old ones. -/
theorem C52_defined (k n : Kin) (a b : Value) (h : k.Has a) (hn : n.Has b) (f : KFlags) (dt : ℝ) :
    (k.update n dt f = .assertFail ↔ ¬ Value.Deducible f a b) ∧ (Value.Deducible f a b → ∃ k' c, k.update n dt f = .ok k' ∧ k'.Has c) := by
  rcases update_spec h hn f dt with ⟨h1, h2⟩ | ⟨h1, D, D', pm, vm, am, pm', vm', am', -, -, -, k', e, h'⟩
  · exact ⟨⟨fun _ => h1, fun _ => h2⟩, fun h => absurd h h1⟩
  · refine ⟨⟨fun h => ?_, fun h => absurd h1 h⟩, fun _ => ⟨k', _, e, h'⟩⟩
    rw [e] at h; cases h

theorem upd_val {k n k' : Kin} {a b c : Value} (h : k.Has a) (hn : n.Has b) {f : KFlags} {dt : ℝ} (e : k.update n dt f = .ok k') (hc : k'.Has c) :
    ∃ D D' pm vm am pm' vm' am',
      Chosen f.pos f.linVel f.linAcc a.pos.isSome a.linVel.isSome a.linAcc.isSome b.pos.isSome b.linVel.isSome b.linAcc.isSome pm vm am ∧
      Chosen f.ori f.angVel f.angAcc a.ori.isSome a.angVel.isSome a.angAcc.isSome b.ori.isSome b.angVel.isSome b.angAcc.isSome pm' vm' am' ∧
      (∀ R S, a.ori = some R → b.ori = some S → NormedSpace.exp (hat D) * R = S ∧ nrm D ≤ Real.pi ∧ NormedSpace.exp (hat D') * S = R ∧ nrm D' ≤ Real.pi) ∧
      c = updValue f a b dt D D' pm vm am pm' vm' am' := by
  rcases update_spec h hn f dt with ⟨h1, h2⟩ | ⟨h1, D, D', pm, vm, am, pm', vm', am', c1, c2, hD, k'', e', h'⟩
  · rw [e] at h2; cases h2
  · rw [e] at e'; cases e'
    exact ⟨D, D', pm, vm, am, pm', vm', am', c1, c2, hD, hc.inj h'⟩

theorem posMethod_cases {p v a np : Bool} {pm : Meth} (h : posMethod true p v a np = .ok pm) :
    (np = true ∧ pm = .usePosition) ∨ (np = false ∧ p = true ∧ v = true ∧ a = true ∧ pm = .useVelAndAcc) ∨
    (np = false ∧ p = true ∧ v = true ∧ a = false ∧ pm = .useVelocity) ∨ (np = false ∧ p = true ∧ v = false ∧ a = true ∧ pm = .useAcceleration) ∨
    (np = false ∧ p = true ∧ v = false ∧ a = false ∧ pm = .noUpdate) := by
  unfold posMethod at h; split_ifs at h <;> simp_all

theorem velMethod_cases {p v a np nv : Bool} {vm : Meth} (h : velMethod true p v a np nv = .ok vm) :
    (nv = true ∧ vm = .useVelocity) ∨ (nv = false ∧ p = true ∧ np = true ∧ vm = .usePosition) ∨
    (nv = false ∧ (p && np) = false ∧ v = true ∧ a = true ∧ vm = .useAcceleration) ∨
    (nv = false ∧ (p && np) = false ∧ v = true ∧ a = false ∧ vm = .noUpdate) := by
  unfold velMethod at h; split_ifs at h <;> simp_all

theorem velMethod_off {p v a np nv : Bool} {vm : Meth} (h : velMethod false p v a np nv = .ok vm) : vm = .noUpdate := by
  unfold velMethod at h; simp_all

theorem accMethod_cases {p v a np nv na : Bool} {vm am : Meth} (h : accMethod true p v a np nv na vm = .ok am) :
    (na = true ∧ am = .useAcceleration) ∨ (na = false ∧ v = true ∧ nv = true ∧ am = .useVelocity) ∨
    (na = false ∧ v = true ∧ nv = false ∧ vm = .usePosition ∧ am = .usePosAndVel) ∨
    (na = false ∧ v = true ∧ nv = true ∧ vm = .usePosition ∧ am = .useVelocity) ∨
    (na = false ∧ (v = false ∨ nv = false ∧ vm ≠ .usePosition) ∧ p = true ∧ np = true ∧ am = .usePosition) ∨
    (na = false ∧ (v = false ∨ nv = false ∧ vm ≠ .usePosition) ∧ (p && np) = false ∧ a = true ∧ am = .noUpdate) := by
  unfold accMethod at h; split_ifs at h <;> cases v <;> simp_all

theorem accMethod_off {p v a np nv na : Bool} {vm am : Meth} (h : accMethod false p v a np nv na vm = .ok am) : am = .noUpdate := by
  unfold accMethod at h; simp_all

theorem some_of {α : Type} {x : Option α} (h : x.isSome = true) : ∃ y, x = some y := Option.isSome_iff_exists.1 h
theorem none_of {α : Type} {x : Option α} (h : x.isSome = false) : x = none := by
  cases x
  · rfl
  · cases h

theorem vAcc1_isSome {P V A NP NV : Option V3} {dt : ℝ} {fa p v a np nv na : Bool} {vm am : Meth} (hA : A.isSome = true ∨ (am ≠ .noUpdate ∧ am ≠ .usePosAndVel ∧ am ≠ .useAcceleration))
    (h : accMethod fa P.isSome V.isSome A.isSome NP.isSome NV.isSome na vm = .ok am) : (vAcc1 P V A NP NV dt am).isSome = true := by
  obtain ⟨f1, f2, f3, f4, f5⟩ := accMethod_ok h
  cases am
  case useVelocity =>
    obtain ⟨g1, g2⟩ := f2 rfl
    obtain ⟨x, rfl⟩ := some_of g1
    obtain ⟨y, rfl⟩ := some_of g2
    rfl
  case usePosition =>
    obtain ⟨g1, g2⟩ := f3 rfl
    obtain ⟨x, rfl⟩ := some_of g1
    obtain ⟨y, rfl⟩ := some_of g2
    rfl
  all_goals
    rcases hA with hA | ⟨h1, h2, h3⟩
    · exact hA
    · first | exact absurd rfl h1 | exact absurd rfl h2 | exact absurd rfl h3 | exact absurd rfl f5

theorem lin_isSome {fp fv fa : Bool} {P V A NP NV NA : Option V3} {dt : ℝ} {pm vm am : Meth}
    (h : Chosen fp fv fa P.isSome V.isSome A.isSome NP.isSome NV.isSome NA.isSome pm vm am) :
    (fp = true → (vPos P V A NP NV dt pm vm am).isSome = true) ∧ (fv = true → (vVel2 P V A NP NV dt vm am).isSome = true) ∧
      (fa = true → (vAcc3 P V A NP NV NA dt vm am).isSome = true) := by
  obtain ⟨h1, h2, h3⟩ := h
  have d2 := (velMethod_ok h2).2.1
  have acc2 : (A.isSome = true ∨ (am ≠ .noUpdate ∧ am ≠ .usePosAndVel ∧ am ≠ .useAcceleration)) → (vAcc2 P V A NP NV dt vm am).isSome = true := by
    intro hA
    have k1 := vAcc1_isSome (dt := dt) (p := true) (v := true) (a := true) (np := true) (nv := true) hA h3
    cases vm
    case usePosition =>
      obtain ⟨g1, g2⟩ := d2 rfl
      by_cases ham : am = .usePosAndVel
      · obtain ⟨x, rfl⟩ := some_of g1
        obtain ⟨y, rfl⟩ := some_of g2
        obtain ⟨z, rfl⟩ := some_of ((accMethod_ok h3).2.2.2.1 ham)
        subst ham
        rfl
      · simpa [vAcc2, ham] using k1
    all_goals exact k1
  refine ⟨?_, ?_, ?_⟩
  · rintro rfl
    have hvm : NP.isSome = false → vVel1 P V NP dt vm = V := by
      intro hnp
      cases vm
      case usePosition => rw [(d2 rfl).2] at hnp; cases hnp
      all_goals rfl
    rcases posMethod_cases h1 with ⟨g, rfl⟩ | ⟨g0, g1, g2, g3, rfl⟩ | ⟨g0, g1, g2, g3, rfl⟩ | ⟨g0, g1, g2, g3, rfl⟩ | ⟨g0, g1, g2, g3, rfl⟩
    · exact g
    · obtain ⟨x, rfl⟩ := some_of g1
      obtain ⟨y, rfl⟩ := some_of g2
      obtain ⟨z, hz⟩ := some_of (acc2 (.inl g3))
      simp [vPos, hvm g0, hz]
    · obtain ⟨x, rfl⟩ := some_of g1
      obtain ⟨y, rfl⟩ := some_of g2
      simp [vPos, hvm g0]
    · obtain ⟨x, rfl⟩ := some_of g1
      obtain ⟨z, hz⟩ := some_of (acc2 (.inl g3))
      simp [vPos, hz]
    · exact g1
  · rintro rfl
    rcases velMethod_cases h2 with ⟨g, rfl⟩ | ⟨g0, g1, g2, rfl⟩ | ⟨g0, g1, g2, g3, rfl⟩ | ⟨g0, g1, g2, g3, rfl⟩
    · exact g
    · obtain ⟨x, rfl⟩ := some_of g1
      obtain ⟨y, rfl⟩ := some_of g2
      rfl
    · obtain ⟨y, rfl⟩ := some_of g2
      obtain ⟨z, hz⟩ := some_of (acc2 (.inl g3))
      simp [vVel2, hz]
    · exact g2
  · rintro rfl
    rcases accMethod_cases h3 with ⟨g, rfl⟩ | ⟨g0, g1, g2, rfl⟩ | ⟨g0, g1, g2, g3, rfl⟩ | ⟨g0, g1, g2, g3, rfl⟩ | ⟨g0, g1, g2, g3, rfl⟩ | ⟨g0, g1, g2, g3, rfl⟩
    · exact g
    · exact acc2 (.inr ⟨by simp, by simp, by simp⟩)
    · obtain ⟨g4, g5⟩ := d2 g3
      obtain ⟨x, rfl⟩ := some_of g4
      obtain ⟨y, rfl⟩ := some_of g5
      obtain ⟨z, rfl⟩ := some_of g1
      subst g3; rfl
    · exact acc2 (.inr ⟨by simp, by simp, by simp⟩)
    · exact acc2 (.inr ⟨by simp, by simp, by simp⟩)
    · exact acc2 (.inl g3)

theorem ang_isSome {fp fv fa : Bool} {O NO : Option M3} {V A NV NA : Option V3} {D D' : V3} {dt : ℝ} {pm vm am : Meth}
    (h : Chosen fp fv fa O.isSome V.isSome A.isSome NO.isSome NV.isSome NA.isSome pm vm am) :
    (fp = true → (wOri O NO V A NV D' dt pm am).isSome = true) ∧ (fv = true → (wVel2 V A NV D D' dt vm am).isSome = true) ∧
      (fa = true → ¬(fv = true ∧ A = none ∧ NA = none ∧ NV = none ∧ V.isSome = true ∧ O.isSome = true ∧ NO.isSome = true) →
        (wAcc3 V A NV NA D' dt am).isSome = true) := by
  obtain ⟨h1, h2, h3⟩ := h
  have acc1 : A.isSome = true ∨ am = .useVelocity ∨ am = .usePosition → (wAcc1 V A NV D' dt am).isSome = true := by
    intro hA
    cases am
    case useVelocity =>
      obtain ⟨g1, g2⟩ := (accMethod_ok h3).2.1 rfl
      obtain ⟨x, rfl⟩ := some_of g1
      obtain ⟨y, rfl⟩ := some_of g2
      rfl
    case usePosition => rfl
    all_goals simpa [wAcc1] using hA
  refine ⟨?_, ?_, ?_⟩
  · rintro rfl
    rcases posMethod_cases h1 with ⟨g, rfl⟩ | ⟨g0, g1, g2, g3, rfl⟩ | ⟨g0, g1, g2, g3, rfl⟩ | ⟨g0, g1, g2, g3, rfl⟩ | ⟨g0, g1, g2, g3, rfl⟩
    · exact g
    · obtain ⟨x, rfl⟩ := some_of g1
      obtain ⟨y, rfl⟩ := some_of g2
      obtain ⟨z, hz⟩ := some_of (acc1 (.inl g3))
      simp [wOri, hz]
    · obtain ⟨x, rfl⟩ := some_of g1
      obtain ⟨y, rfl⟩ := some_of g2
      simp [wOri]
    · obtain ⟨x, rfl⟩ := some_of g1
      obtain ⟨z, hz⟩ := some_of (acc1 (.inl g3))
      simp [wOri, hz]
    · exact g1
  · rintro rfl
    rcases velMethod_cases h2 with ⟨g, rfl⟩ | ⟨g0, g1, g2, rfl⟩ | ⟨g0, g1, g2, g3, rfl⟩ | ⟨g0, g1, g2, g3, rfl⟩
    · exact g
    · rfl
    · obtain ⟨y, rfl⟩ := some_of g2
      obtain ⟨z, hz⟩ := some_of (acc1 (.inl g3))
      simp [wVel2, hz]
    · exact g2
  · rintro rfl hb
    rcases accMethod_cases h3 with ⟨g, rfl⟩ | ⟨g0, g1, g2, rfl⟩ | ⟨g0, g1, g2, g3, rfl⟩ | ⟨g0, g1, g2, g3, rfl⟩ | ⟨g0, g1, g2, g3, rfl⟩ | ⟨g0, g1, g2, g3, rfl⟩
    · exact g
    · exact acc1 (.inr (.inl rfl))
    · subst g3
      have d2 := (velMethod_ok h2).2.1 rfl
      have hfv : fv = true := by
        cases fv
        · cases velMethod_off h2
        · rfl
      by_contra hcon
      apply hb
      refine ⟨hfv, ?_, none_of g0, none_of g2, g1, d2.1, d2.2⟩
      cases A
      · rfl
      · exact absurd rfl hcon
    · exact acc1 (.inr (.inl rfl))
    · exact acc1 (.inr (.inr rfl))
    · exact acc1 (.inl g3)

/-- **C52** After `update` exactly the flagged fields are set. Missing: the angular acceleration when it is known neither before nor in the new values,
and has to be deduced from the old orientation and angular velocity and the new orientation: see `C52_flags_false`. -/
theorem C52_flags_partial (k n k' : Kin) (a b c : Value) (h : k.Has a) (hn : n.Has b) (f : KFlags) (dt : ℝ) (e : k.update n dt f = .ok k') (hc : k'.Has c)
    (hb : ¬(f.angVel ∧ a.angAcc = none ∧ b.angAcc = none ∧ b.angVel = none ∧ a.angVel.isSome ∧ a.ori.isSome ∧ b.ori.isSome)) : c.flags = f := by
  obtain ⟨D, D', pm, vm, am, pm', vm', am', c1, c2, hD, rfl⟩ := upd_val h hn e hc
  obtain ⟨l1, l2, l3⟩ := lin_isSome (dt := dt) c1
  obtain ⟨m1, m2, m3⟩ := ang_isSome (dt := dt) (D := D) (D' := D') c2
  have key : ∀ {α : Type} (g : Bool) (x : Option α), (g = true → x.isSome = true) → (if g then x else none).isSome = g := by
    intro α g x hx
    cases g
    · rfl
    · exact hx rfl
  obtain ⟨f1, f2, f3, f4, f5, f6⟩ := f
  simp only [Value.flags, updValue, KFlags.mk.injEq]
  exact ⟨key _ _ l1, key _ _ m1, key _ _ l2, key _ _ m2, key _ _ l3, key _ _ fun hf => m3 hf hb⟩

/-- **C52** For the linear part, and for the orientation and the angular velocity, without restriction. -/
theorem C52_flags_linear (k n k' : Kin) (a b c : Value) (h : k.Has a) (hn : n.Has b) (f : KFlags) (dt : ℝ) (e : k.update n dt f = .ok k') (hc : k'.Has c) :
    c.pos.isSome = f.pos ∧ c.linVel.isSome = f.linVel ∧ c.linAcc.isSome = f.linAcc ∧ c.ori.isSome = f.ori ∧ c.angVel.isSome = f.angVel ∧
      (c.angAcc.isSome → f.angAcc) := by
  obtain ⟨D, D', pm, vm, am, pm', vm', am', c1, c2, hD, rfl⟩ := upd_val h hn e hc
  obtain ⟨l1, l2, l3⟩ := lin_isSome (dt := dt) c1
  obtain ⟨m1, m2, m3⟩ := ang_isSome (dt := dt) (D := D) (D' := D') c2
  have key : ∀ {α : Type} (g : Bool) (x : Option α), (g = true → x.isSome = true) → (if g then x else none).isSome = g := by
    intro α g x hx
    cases g
    · rfl
    · exact hx rfl
  refine ⟨key _ _ l1, key _ _ l2, key _ _ l3, key _ _ m1, key _ _ m2, ?_⟩
  simp only [updValue]
  cases f.angAcc <;> simp

/-- **C52** The flagged fields that are provided are copied. -/
theorem C52_provided (k n k' : Kin) (a b c : Value) (h : k.Has a) (hn : n.Has b) (f : KFlags) (dt : ℝ) (e : k.update n dt f = .ok k') (hc : k'.Has c) :
    (f.pos → b.pos.isSome → c.pos = b.pos) ∧ (f.linVel → b.linVel.isSome → c.linVel = b.linVel) ∧ (f.linAcc → b.linAcc.isSome → c.linAcc = b.linAcc) ∧
    (f.ori → b.ori.isSome → c.ori = b.ori) ∧ (f.angVel → b.angVel.isSome → c.angVel = b.angVel) ∧ (f.angAcc → b.angAcc.isSome → c.angAcc = b.angAcc) := by
  obtain ⟨D, D', pm, vm, am, pm', vm', am', ⟨e1, e2, e3⟩, ⟨g1, g2, g3⟩, hD, rfl⟩ := upd_val h hn e hc
  refine ⟨fun hf hb => ?_, fun hf hb => ?_, fun hf hb => ?_, fun hf hb => ?_, fun hf hb => ?_, fun hf hb => ?_⟩
  · rw [hf, hb] at e1; cases e1; simp [updValue, hf, vPos]
  · rw [hf, hb] at e2; cases e2; simp [updValue, hf, vVel2]
  · rw [hf, hb] at e3; cases e3; simp [updValue, hf, vAcc3]
  · rw [hf, hb] at g1; cases g1; simp [updValue, hf, wOri]
  · rw [hf, hb] at g2; cases g2; simp [updValue, hf, wVel2]
  · rw [hf, hb] at g3; cases g3; simp [updValue, hf, wAcc3]

theorem deduce_none {p v a : Bool} {fp fv fa : Bool} {pm vm am : Meth} (h : Chosen fp fv fa p v a false false false pm vm am) :
    vm ≠ .usePosition ∧ am = .noUpdate := by
  have h2 := (velMethod_ok h.vel).2.1
  have hv : vm ≠ .usePosition := fun hh => by cases (h2 hh).2
  refine ⟨hv, ?_⟩
  cases fa
  · exact accMethod_off h.acc
  · rcases accMethod_cases h.acc with ⟨g, rfl⟩ | ⟨g0, g1, g2, rfl⟩ | ⟨g0, g1, g2, g3, rfl⟩ | ⟨g0, g1, g2, g3, rfl⟩ | ⟨g0, g1, g2, g3, rfl⟩ | ⟨g0, g1, g2, g3, rfl⟩
    · cases g
    · cases g2
    · exact absurd g3 hv
    · cases g2
    · cases g3
    · rfl

/-- **C52** Without new values, the flagged fields are those that `integrate` computes. Missing: the case of an acceleration without a velocity, see
`C52_nothing_new_false`. -/
theorem C52_nothing_new_partial (k n k' : Kin) (a c : Value) (h : k.Has a) (hn : n.Has Value.empty) (f : KFlags) (dt : ℝ)
    (e : k.update n dt f = .ok k') (hc : k'.Has c) (hl : a.linAcc.isSome → a.linVel.isSome) (ha : a.angAcc.isSome → a.angVel.isSome) :
    ∃ i v, k.integrate dt = .ok i ∧ i.Has v ∧ c = Value.select f v Value.empty := by
  obtain ⟨D, D', pm, vm, am, pm', vm', am', c1, c2, -, rfl⟩ := upd_val h hn e hc
  obtain ⟨i, ei, hi⟩ := integrate_spec h dt
  refine ⟨i, _, ei, hi, ?_⟩
  have c1' := c1; have c2' := c2
  simp only [Value.empty, Option.isSome_none] at c1' c2'
  obtain ⟨v1, rfl⟩ := deduce_none c1'
  obtain ⟨v2, rfl⟩ := deduce_none c2'
  have iteEq : ∀ {α : Type} (g : Bool) (x y : Option α), (g = true → x = y) → (if g then x else none) = if g then y else none := by
    intro α g x y hx
    cases g
    · rfl
    · exact hx rfl
  have vel1 : ∀ P V, vVel1 P V none dt vm = V := by
    intro P V
    cases vm <;> first | rfl | exact absurd rfl v1
  have acc2 : ∀ P V A, vAcc2 P V A none none dt vm .noUpdate = A := by
    intro P V A
    cases vm <;> rfl
  simp only [updValue, Value.select, Value.empty, Value.mk.injEq]
  refine ⟨iteEq _ _ _ fun hf => ?_, iteEq _ _ _ fun hf => ?_, iteEq _ _ _ fun hf => ?_, iteEq _ _ _ fun hf => ?_, iteEq _ _ _ fun hf => ?_, iteEq _ _ _ fun hf => ?_⟩
  · have := c1'.pos; rw [hf] at this
    rcases posMethod_cases this with ⟨g, rfl⟩ | ⟨g0, g1, g2, g3, rfl⟩ | ⟨g0, g1, g2, g3, rfl⟩ | ⟨g0, g1, g2, g3, rfl⟩ | ⟨g0, g1, g2, g3, rfl⟩
    · cases g
    · obtain ⟨x, hx⟩ := some_of g1; obtain ⟨y, hy⟩ := some_of g2; obtain ⟨z, hz⟩ := some_of g3
      simp only [vPos, vel1, acc2, intValue, hx, hy, hz, gain]; rfl
    · obtain ⟨x, hx⟩ := some_of g1; obtain ⟨y, hy⟩ := some_of g2
      simp only [vPos, vel1, intValue, hx, hy, none_of g3, gain]; rfl
    · rw [hl g3] at g2; cases g2
    · simp only [vPos, intValue, none_of g2, gain, add_zero, Option.map_id']
  · have := c2'.pos; rw [hf] at this
    rcases posMethod_cases this with ⟨g, rfl⟩ | ⟨g0, g1, g2, g3, rfl⟩ | ⟨g0, g1, g2, g3, rfl⟩ | ⟨g0, g1, g2, g3, rfl⟩ | ⟨g0, g1, g2, g3, rfl⟩
    · cases g
    · obtain ⟨x, hx⟩ := some_of g1; obtain ⟨y, hy⟩ := some_of g2; obtain ⟨z, hz⟩ := some_of g3
      simp only [wOri, wAcc1, intValue, hx, hy, hz, gain]; rfl
    · obtain ⟨x, hx⟩ := some_of g1; obtain ⟨y, hy⟩ := some_of g2
      simp only [wOri, wAcc1, intValue, hx, hy, none_of g3, gain]; rfl
    · rw [ha g3] at g2; cases g2
    · simp only [wOri, intValue, none_of g2, gain, vecRot_zero, one_mul, Option.map_id']
  · have := c1'.vel; rw [hf] at this
    rcases velMethod_cases this with ⟨g, rfl⟩ | ⟨g0, g1, g2, rfl⟩ | ⟨g0, g1, g2, g3, rfl⟩ | ⟨g0, g1, g2, g3, rfl⟩
    · cases g
    · cases g2
    · obtain ⟨y, hy⟩ := some_of g2; obtain ⟨z, hz⟩ := some_of g3
      simp only [vVel2, acc2, intValue, velAfter, hy, hz]; rfl
    · obtain ⟨y, hy⟩ := some_of g2
      simp only [vVel2, vVel1, intValue, velAfter, hy, none_of g3]
  · have := c2'.vel; rw [hf] at this
    rcases velMethod_cases this with ⟨g, rfl⟩ | ⟨g0, g1, g2, rfl⟩ | ⟨g0, g1, g2, g3, rfl⟩ | ⟨g0, g1, g2, g3, rfl⟩
    · cases g
    · cases g2
    · obtain ⟨y, hy⟩ := some_of g2; obtain ⟨z, hz⟩ := some_of g3
      simp only [wVel2, wAcc1, intValue, velAfter, hy, hz]; rfl
    · obtain ⟨y, hy⟩ := some_of g2
      simp only [wVel2, wVel1, intValue, velAfter, hy, none_of g3]
  · exact acc2 _ _ _
  · rfl

/-- **C52** The linear velocity deduced from two positions: the motion with this velocity goes from the old position to the new one. -/
theorem C52_velocity_from_positions (k n k' : Kin) (a b c : Value) (h : k.Has a) (hn : n.Has b) (f : KFlags) (dt : ℝ) (hdt : dt ≠ 0)
    (e : k.update n dt f = .ok k') (hc : k'.Has c) (p q : V3) (hp : a.pos = some p) (hq : b.pos = some q) (hf : f.linVel) (hv : b.linVel = none) :
    ∃ v, c.linVel = some v ∧ p + dt • v = q := by
  obtain ⟨D, D', pm, vm, am, pm', vm', am', ⟨e1, e2, e3⟩, -, hD, rfl⟩ := upd_val h hn e hc
  rw [hf, hp, hq, hv] at e2
  cases e2
  refine ⟨(1 / dt) • (q - p), by simp [updValue, hf, vVel2, vVel1, hp, hq], ?_⟩
  rw [smul_smul, mul_one_div_cancel hdt, one_smul, add_sub_cancel]

/-- **C52** The linear acceleration deduced from two velocities: the motion with this acceleration goes from the old velocity to the new one. -/
theorem C52_acceleration_from_velocities (k n k' : Kin) (a b c : Value) (h : k.Has a) (hn : n.Has b) (f : KFlags) (dt : ℝ) (hdt : dt ≠ 0)
    (e : k.update n dt f = .ok k') (hc : k'.Has c) (v u : V3) (hv : a.linVel = some v) (hu : b.linVel = some u) (hf : f.linAcc) (ha : b.linAcc = none) :
    ∃ x, c.linAcc = some x ∧ v + dt • x = u := by
  obtain ⟨D, D', pm, vm, am, pm', vm', am', ⟨e1, e2, e3⟩, -, hD, rfl⟩ := upd_val h hn e hc
  rw [hf, hv, hu, ha] at e3
  cases e3
  refine ⟨(1 / dt) • (u - v), ?_, ?_⟩
  · cases vm <;> simp [updValue, hf, vAcc3, vAcc2, vAcc1, hv, hu]
  · rw [smul_smul, mul_one_div_cancel hdt, one_smul, add_sub_cancel]

/-- **C52** The linear acceleration deduced from the old position and velocity and the new position, with a flagged velocity: from the old velocity to the
deduced one, which goes from the old position to the new one. -/
theorem C52_acceleration_from_position_velocity (k n k' : Kin) (a b c : Value) (h : k.Has a) (hn : n.Has b) (f : KFlags) (dt : ℝ) (hdt : dt ≠ 0)
    (e : k.update n dt f = .ok k') (hc : k'.Has c) (p v q : V3) (hp : a.pos = some p) (hv : a.linVel = some v) (hq : b.pos = some q) (hf : f.linAcc)
    (hf' : f.linVel) (hu : b.linVel = none) (ha : b.linAcc = none) :
    ∃ u x, c.linVel = some u ∧ c.linAcc = some x ∧ v + dt • x = u ∧ p + dt • u = q := by
  obtain ⟨u, h1, h2⟩ := C52_velocity_from_positions k n k' a b c h hn f dt hdt e hc p q hp hq hf' hu
  obtain ⟨D, D', pm, vm, am, pm', vm', am', ⟨e1, e2, e3⟩, -, hD, rfl⟩ := upd_val h hn e hc
  rw [hf', hp, hq, hu] at e2
  cases e2
  rw [hf, hv, hu, ha] at e3
  cases e3
  refine ⟨u, (1 / dt) • (-v + (1 / dt) • (q - p)), h1, by simp [updValue, hf, vAcc3, vAcc2, hp, hq, hv], ?_, h2⟩
  rw [smul_smul, mul_one_div_cancel hdt, one_smul, add_neg_cancel_left, ← h2, add_sub_cancel_left, smul_smul, one_div_mul_cancel hdt, one_smul]

/-- **C52** The linear acceleration deduced from two positions, the velocity being unknown: the motion from rest with this acceleration goes from the old
position to the new one. -/
theorem C52_acceleration_from_positions (k n k' : Kin) (a b c : Value) (h : k.Has a) (hn : n.Has b) (f : KFlags) (dt : ℝ) (hdt : dt ≠ 0)
    (e : k.update n dt f = .ok k') (hc : k'.Has c) (p q : V3) (hp : a.pos = some p) (hv : a.linVel = none) (hq : b.pos = some q) (hf : f.linAcc)
    (ha : b.linAcc = none) : ∃ x, c.linAcc = some x ∧ p + (dt * dt / 2) • x = q := by
  obtain ⟨D, D', pm, vm, am, pm', vm', am', ⟨e1, e2, e3⟩, -, hD, rfl⟩ := upd_val h hn e hc
  rw [hf, hv, ha, hp, hq] at e3
  cases e3
  refine ⟨(2 / (dt * dt)) • (q - p), ?_, ?_⟩
  · cases vm <;> simp [updValue, hf, vAcc3, vAcc2, vAcc1, hp, hq]
  · rw [smul_smul]
    have : dt * dt / 2 * (2 / (dt * dt)) = 1 := by field_simp
    rw [this, one_smul, add_sub_cancel]

/-- **C52** The position deduced from the velocity, and from the acceleration if it is known: the acceleration is the one that leads to the new velocity, if
the acceleration is flagged and has to be deduced. -/
theorem C52_position (k n k' : Kin) (a b c : Value) (h : k.Has a) (hn : n.Has b) (f : KFlags) (dt : ℝ)
    (e : k.update n dt f = .ok k') (hc : k'.Has c) (p v : V3) (hp : a.pos = some p) (hv : a.linVel = some v) (hq : b.pos = none) (hf : f.pos) :
    (a.linAcc = none → c.pos = some (p + dt • v)) ∧
    (∀ x, a.linAcc = some x → (f.linAcc = false ∨ b.linAcc.isSome ∨ b.linVel = none) → c.pos = some (p + (dt • v + (dt * dt / 2) • x))) ∧
    (∀ x u, a.linAcc = some x → f.linAcc → b.linAcc = none → b.linVel = some u → dt ≠ 0 →
      ∃ x', v + dt • x' = u ∧ c.pos = some (p + (dt • v + (dt * dt / 2) • x'))) := by
  obtain ⟨D, D', pm, vm, am, pm', vm', am', ⟨e1, e2, e3⟩, -, hD, rfl⟩ := upd_val h hn e hc
  have hvm : vm ≠ .usePosition := by
    intro hh
    have := ((velMethod_ok e2).2.1 hh).2
    rw [hq] at this; cases this
  have vel1 : ∀ P V, vVel1 P V none dt vm = V := by
    intro P V
    cases vm <;> first | rfl | exact absurd rfl hvm
  have acc2 : ∀ P V A NV, vAcc2 P V A none NV dt vm am = vAcc1 P V A none NV dt am := by
    intro P V A NV
    cases vm <;> first | rfl | exact absurd rfl hvm
  rw [hf, hp, hv, hq] at e1
  refine ⟨fun hx => ?_, fun x hx hor => ?_, fun x u hx hfa hna hu hdt => ?_⟩
  · rw [hx] at e1; cases e1
    simp [updValue, hf, vPos, hq, vel1, hp, hv]
  · rw [hx] at e1; cases e1
    have : vAcc1 a.pos a.linVel a.linAcc none b.linVel dt am = some x := by
      rw [hq] at e3
      cases hfa : f.linAcc
      · rw [hfa] at e3
        rw [accMethod_off e3]; exact hx
      · rw [hfa] at e3 hor
        rcases accMethod_cases e3 with ⟨g, rfl⟩ | ⟨g0, g1, g2, rfl⟩ | ⟨g0, g1, g2, g3, rfl⟩ | ⟨g0, g1, g2, g3, rfl⟩ | ⟨g0, g1, g2, g3, rfl⟩ | ⟨g0, g1, g2, g3, rfl⟩
        · exact hx
        · rcases hor with h1 | h1 | h1
          · cases h1
          · rw [g0] at h1; cases h1
          · rw [h1] at g2; cases g2
        · exact absurd g3 hvm
        · exact absurd g3 hvm
        · cases g3
        · exact hx
    rw [hp, hv, hx] at this
    simp [updValue, hf, vPos, hq, vel1, acc2, this, hp, hv, hx]
  · rw [hx] at e1; cases e1
    rw [hfa, hv, hna, hu] at e3; cases e3
    refine ⟨(1 / dt) • (u - v), by rw [smul_smul, mul_one_div_cancel hdt, one_smul, add_sub_cancel], ?_⟩
    simp [updValue, hf, vPos, hq, vel1, hp, hv, hx, hu]
    cases vm <;> first | exact absurd rfl hvm | simp [vAcc2, vAcc1]

/-- **C52** The velocity, if it can be deduced neither from a new velocity nor from two positions, comes from the old velocity and acceleration, as in
`integrate`; in the same way the acceleration stays as it is. -/
theorem C52_kept (k n k' : Kin) (a b c : Value) (h : k.Has a) (hn : n.Has b) (f : KFlags) (dt : ℝ) (e : k.update n dt f = .ok k') (hc : k'.Has c)
    (hp : a.pos = none ∨ b.pos = none) (hu : b.linVel = none) :
    (∀ v, f.linVel → a.linVel = some v → c.linVel = some (v + dt • a.linAcc.getD 0)) ∧ (f.linAcc → b.linAcc = none → c.linAcc = a.linAcc) := by
  obtain ⟨D, D', pm, vm, am, pm', vm', am', ⟨e1, e2, e3⟩, -, hD, rfl⟩ := upd_val h hn e hc
  have hpb : (a.pos.isSome && b.pos.isSome) = false := by
    rcases hp with hp | hp <;> simp [hp]
  have hvm : vm ≠ .usePosition := by
    intro hh
    have := (velMethod_ok e2).2.1 hh
    rw [this.1, this.2] at hpb; cases hpb
  have acc2 : vAcc2 a.pos a.linVel a.linAcc b.pos none dt vm am = a.linAcc := by
    have : vAcc1 a.pos a.linVel a.linAcc b.pos none dt am = a.linAcc := by
      cases am
      case useVelocity => have := ((accMethod_ok e3).2.1 rfl).2; rw [hu] at this; cases this
      case usePosition => have := (accMethod_ok e3).2.2.1 rfl; rw [this.1, this.2] at hpb; cases hpb
      all_goals rfl
    cases vm <;> first | exact this | exact absurd rfl hvm
  constructor
  · intro v hf hv
    rw [hf] at e2
    rcases velMethod_cases e2 with ⟨g, rfl⟩ | ⟨g0, g1, g2, rfl⟩ | ⟨g0, g1, g2, g3, rfl⟩ | ⟨g0, g1, g2, g3, rfl⟩
    · rw [hu] at g; cases g
    · exact absurd rfl hvm
    · obtain ⟨z, hz⟩ := some_of g3
      rw [hv, hz] at acc2
      simp [updValue, hf, vVel2, hu, hv, hz, acc2]
    · simp [updValue, hf, vVel2, vVel1, hv, none_of g3]
  · intro hf ha
    simp only [updValue, hf, if_true]
    cases am
    case useAcceleration => have := (accMethod_ok e3).1 rfl; rw [ha] at this; cases this
    all_goals simp only [vAcc3, hu]; exact acc2

/-- **C52** The angular velocity deduced from two orientations: turning with this velocity goes from the old orientation to the new one, by the shortest way. -/
theorem C52_angular_velocity_from_orientations (k n k' : Kin) (a b c : Value) (h : k.Has a) (hn : n.Has b) (f : KFlags) (dt : ℝ) (hdt : dt ≠ 0)
    (e : k.update n dt f = .ok k') (hc : k'.Has c) (R S : M3) (hR : a.ori = some R) (hS : b.ori = some S) (hf : f.angVel) (hv : b.angVel = none) :
    ∃ w, c.angVel = some w ∧ NormedSpace.exp (hat (dt • w)) * R = S ∧ nrm (dt • w) ≤ Real.pi := by
  obtain ⟨D, D', pm, vm, am, pm', vm', am', -, ⟨e1, e2, e3⟩, hD, rfl⟩ := upd_val h hn e hc
  obtain ⟨d1, d2, -⟩ := hD R S hR hS
  rw [hf, hR, hS, hv] at e2
  cases e2
  refine ⟨(1 / dt) • D, by simp [updValue, hf, wVel2, wVel1], ?_⟩
  rw [smul_smul, mul_one_div_cancel hdt, one_smul]
  exact ⟨d1, d2⟩

/-- **C52** The angular acceleration deduced from two angular velocities. -/
theorem C52_angular_acceleration_from_velocities (k n k' : Kin) (a b c : Value) (h : k.Has a) (hn : n.Has b) (f : KFlags) (dt : ℝ) (hdt : dt ≠ 0)
    (e : k.update n dt f = .ok k') (hc : k'.Has c) (v u : V3) (hv : a.angVel = some v) (hu : b.angVel = some u) (hf : f.angAcc) (ha : b.angAcc = none) :
    ∃ x, c.angAcc = some x ∧ v + dt • x = u := by
  obtain ⟨D, D', pm, vm, am, pm', vm', am', -, ⟨e1, e2, e3⟩, hD, rfl⟩ := upd_val h hn e hc
  rw [hf, hv, hu, ha] at e3
  cases e3
  refine ⟨(1 / dt) • (u - v), ?_, ?_⟩
  · simp [updValue, hf, wAcc3, wAcc1, hv, hu]
  · rw [smul_smul, mul_one_div_cancel hdt, one_smul, add_sub_cancel]

/-- **C52** The orientation deduced from the angular velocity and acceleration. -/
theorem C52_orientation (k n k' : Kin) (a b c : Value) (h : k.Has a) (hn : n.Has b) (f : KFlags) (dt : ℝ)
    (e : k.update n dt f = .ok k') (hc : k'.Has c) (R : M3) (v : V3) (hR : a.ori = some R) (hv : a.angVel = some v) (hS : b.ori = none) (hf : f.ori) :
    (a.angAcc = none → c.ori = some (vecRot (dt • v) * R)) ∧
    (∀ x, a.angAcc = some x → (f.angAcc = false ∨ b.angAcc.isSome ∨ b.angVel = none) → c.ori = some (vecRot (dt • v + (dt * dt / 2) • x) * R)) ∧
    (∀ x u, a.angAcc = some x → f.angAcc → b.angAcc = none → b.angVel = some u → dt ≠ 0 →
      ∃ x', v + dt • x' = u ∧ c.ori = some (vecRot (dt • v + (dt * dt / 2) • x') * R)) := by
  obtain ⟨D, D', pm, vm, am, pm', vm', am', -, ⟨e1, e2, e3⟩, hD, rfl⟩ := upd_val h hn e hc
  have hvm : vm' ≠ .usePosition := by
    intro hh
    have := ((velMethod_ok e2).2.1 hh).2
    rw [hS] at this; cases this
  rw [hf, hR, hv, hS] at e1
  refine ⟨fun hx => ?_, fun x hx hor => ?_, fun x u hx hfa hna hu hdt => ?_⟩
  · rw [hx] at e1; cases e1
    simp [updValue, hf, wOri, hR, hv]
  · rw [hx] at e1; cases e1
    have : wAcc1 a.angVel a.angAcc b.angVel D' dt am' = some x := by
      rw [hS] at e3
      cases hfa : f.angAcc
      · rw [hfa] at e3
        rw [accMethod_off e3]; exact hx
      · rw [hfa] at e3 hor
        rcases accMethod_cases e3 with ⟨g, rfl⟩ | ⟨g0, g1, g2, rfl⟩ | ⟨g0, g1, g2, g3, rfl⟩ | ⟨g0, g1, g2, g3, rfl⟩ | ⟨g0, g1, g2, g3, rfl⟩ | ⟨g0, g1, g2, g3, rfl⟩
        · exact hx
        · rcases hor with h1 | h1 | h1
          · cases h1
          · rw [g0] at h1; cases h1
          · rw [h1] at g2; cases g2
        · exact absurd g3 hvm
        · exact absurd g3 hvm
        · cases g3
        · exact hx
    rw [hv, hx] at this
    simp [updValue, hf, wOri, this, hR, hv, hx]
  · rw [hx] at e1; cases e1
    rw [hfa, hv, hna, hu] at e3; cases e3
    refine ⟨(1 / dt) • (u - v), by rw [smul_smul, mul_one_div_cancel hdt, one_smul, add_sub_cancel], ?_⟩
    simp [updValue, hf, wOri, wAcc1, hR, hv, hu]

/-- **C52** The angular velocity and acceleration that are kept, as in `C52_kept`. -/
theorem C52_angular_kept (k n k' : Kin) (a b c : Value) (h : k.Has a) (hn : n.Has b) (f : KFlags) (dt : ℝ) (e : k.update n dt f = .ok k') (hc : k'.Has c)
    (hp : a.ori = none ∨ b.ori = none) (hu : b.angVel = none) :
    (∀ v, f.angVel → a.angVel = some v → c.angVel = some (v + dt • a.angAcc.getD 0)) ∧ (f.angAcc → b.angAcc = none → c.angAcc = a.angAcc) := by
  obtain ⟨D, D', pm, vm, am, pm', vm', am', -, ⟨e1, e2, e3⟩, hD, rfl⟩ := upd_val h hn e hc
  have hpb : (a.ori.isSome && b.ori.isSome) = false := by
    rcases hp with hp | hp <;> simp [hp]
  have hvm : vm' ≠ .usePosition := by
    intro hh
    have := (velMethod_ok e2).2.1 hh
    rw [this.1, this.2] at hpb; cases hpb
  have acc2 : wAcc1 a.angVel a.angAcc none D' dt am' = a.angAcc := by
    cases am'
    case useVelocity => have := ((accMethod_ok e3).2.1 rfl).2; rw [hu] at this; cases this
    case usePosition => have := (accMethod_ok e3).2.2.1 rfl; rw [this.1, this.2] at hpb; cases hpb
    all_goals rfl
  constructor
  · intro v hf hv
    rw [hf] at e2
    rcases velMethod_cases e2 with ⟨g, rfl⟩ | ⟨g0, g1, g2, rfl⟩ | ⟨g0, g1, g2, g3, rfl⟩ | ⟨g0, g1, g2, g3, rfl⟩
    · rw [hu] at g; cases g
    · exact absurd rfl hvm
    · obtain ⟨z, hz⟩ := some_of g3
      rw [hv, hz] at acc2
      simp [updValue, hf, wVel2, hu, hz, hv, acc2]
    · simp [updValue, hf, wVel2, wVel1, hv, none_of g3]
  · intro hf ha
    simp only [updValue, hf, if_true]
    cases am'
    case useAcceleration => have := (accMethod_ok e3).1 rfl; rw [ha] at this; cases this
    all_goals simp only [wAcc3, hu]; exact acc2

/-- A kinematics object with the given fields. -/
def ofFields (p v w x y : Option V3) (o : Ori) : Kin :=
  let item := fun i : Option V3 => (match i with | some z => ⟨true, some z⟩ | none => CItem.new true : CItem V3)
  ⟨item p, o, item v, item w, item x, item y⟩

theorem ofFields_has (p v w x y : Option V3) (o : Ori) (R : Option M3) (h : o.Holds R) : (ofFields p v w x y o).Has ⟨p, R, v, w, x, y⟩ := by
  have key : ∀ i : Option V3, Item (match i with | some z => ⟨true, some z⟩ | none => CItem.new true : CItem V3) i := by
    intro i; cases i <;> rfl
  exact ⟨key p, h, key v, key w, key x, key y⟩

theorem hold_none : (Ori.new true).Holds none := ⟨rfl, rfl⟩

/-- **C52** is false for the angular acceleration: with a known orientation and angular velocity, and a new orientation, the flagged angular acceleration is
not set (hxx 1538 tests for a method that is never chosen). -/
theorem C52_flags_false : ∃ (k n k' : Kin) (a b c : Value) (f : KFlags), k.Has a ∧ n.Has b ∧ Value.Deducible f a b ∧ k.update n 1 f = .ok k' ∧ k'.Has c ∧
    f.angAcc ∧ c.angAcc = none := by
  have h := ofFields_has none none (some 0) none none (Ori.ofMat 1) (some 1) (Ori.rep_m IsRot.one)
  have hn := ofFields_has none none none none none (Ori.ofMat 1) (some 1) (Ori.rep_m IsRot.one)
  rcases update_spec h hn ⟨false, false, false, true, false, true⟩ 1 with ⟨h1, -⟩ | ⟨h1, D, D', pm, vm, am, pm', vm', am', -, ⟨e1, e2, e3⟩, -, k', e, h'⟩
  · exact absurd (by simp [Value.Deducible, DeducibleVel, DeducibleAcc]) h1
  · refine ⟨_, _, k', _, _, _, _, h, hn, h1, e, h', rfl, ?_⟩
    cases e2; cases e3
    rfl

/-- **C52** is false for a position with an acceleration and no velocity: `update` moves it by `2 a dt²`, where a motion from rest moves it by `a dt² / 2` and
`integrate` does not move it (hxx 1373 and 1571 divide by 0.5). -/
theorem C52_nothing_new_false : ∃ (k n k' i : Kin) (a c v : Value) (f : KFlags), k.Has a ∧ n.Has Value.empty ∧ k.update n 1 f = .ok k' ∧ k'.Has c ∧
    a.pos = some 0 ∧ a.linAcc = some ![1, 0, 0] ∧ f.pos ∧ c.pos = some ![2, 0, 0] ∧ k.integrate 1 = .ok i ∧ i.Has v ∧ v.pos = some 0 := by
  have h := ofFields_has (some 0) none none (some ![1, 0, 0]) none (Ori.new true) none hold_none
  have hn := ofFields_has none none none none none (Ori.new true) none hold_none
  obtain ⟨i, ei, hi⟩ := integrate_spec h 1
  rcases update_spec h hn ⟨true, false, false, false, false, false⟩ 1 with ⟨h1, -⟩ | ⟨h1, D, D', pm, vm, am, pm', vm', am', ⟨e1, e2, e3⟩, -, -, k', e, h'⟩
  · exact absurd (by simp [Value.Deducible, DeduciblePos]) h1
  · refine ⟨_, _, k', i, _, _, _, _, h, hn, e, h', rfl, rfl, rfl, ?_, ei, hi, by simp [intValue, gain]⟩
    cases e1; cases e2; cases e3
    simp only [updValue, vPos, vAcc2, vAcc1]
    simp
    norm_num

/-- **C52** is false for a linear acceleration deduced from positions when the velocity is known but not flagged: the velocity is neglected. Here the known
velocity leads exactly to the new position, and yet an acceleration is found, with which `integrate` would not lead there. -/
theorem C52_acceleration_false : ∃ (k n k' : Kin) (a b c : Value) (f : KFlags), k.Has a ∧ n.Has b ∧ k.update n 1 f = .ok k' ∧ k'.Has c ∧
    a.pos = some 0 ∧ a.linVel = some ![1, 0, 0] ∧ b.pos = some ![1, 0, 0] ∧ f.linAcc ∧ c.linAcc = some ![2, 0, 0] ∧
    (0 : V3) + ((1 : ℝ) • ![1, 0, 0] + ((1 : ℝ) * 1 / 2) • ![2, 0, 0]) ≠ ![1, 0, 0] := by
  have h := ofFields_has (some 0) (some ![1, 0, 0]) none none none (Ori.new true) none hold_none
  have hn := ofFields_has (some ![1, 0, 0]) none none none none (Ori.new true) none hold_none
  rcases update_spec h hn ⟨false, false, false, false, true, false⟩ 1 with ⟨h1, -⟩ | ⟨h1, D, D', pm, vm, am, pm', vm', am', ⟨e1, e2, e3⟩, -, -, k', e, h'⟩
  · exact absurd (by simp [Value.Deducible, DeducibleAcc]) h1
  · refine ⟨_, _, k', _, _, _, _, h, hn, e, h', rfl, rfl, rfl, rfl, ?_, ?_⟩
    · cases e2; cases e3
      simp only [updValue, vAcc3, vAcc2, vAcc1]
      simp
    · intro hcon
      have := congrFun hcon 0
      norm_num at this

/-- A quarter turn about the vertical axis. -/
def quarter : M3 := !![0, -1, 0; 1, 0, 0; 0, 0, 1]
theorem quarter_rot : IsRot quarter := by
  constructor
  · apply mext3; intro i j; fin_cases i <;> fin_cases j <;> simp [quarter, mul_apply, Fin.sum_univ_three]
  · rw [det_fin_three]; simp [quarter]

/-- **C52** is false for an angular acceleration deduced from two orientations: it has the opposite sign (hxx 1532 exchanges the orientations), the motion
from rest with this acceleration does not lead to the new orientation. -/
theorem C52_angular_acceleration_false : ∃ (k n k' : Kin) (a b c : Value) (f : KFlags) (x : V3), k.Has a ∧ n.Has b ∧ k.update n 1 f = .ok k' ∧ k'.Has c ∧
    a.ori = some 1 ∧ a.angVel = none ∧ b.ori = some quarter ∧ f.angAcc ∧ c.angAcc = some x ∧
    NormedSpace.exp (hat (((1 : ℝ) * 1 / 2) • x)) * 1 ≠ quarter ∧ NormedSpace.exp (hat (((1 : ℝ) * 1 / 2) • x)) * quarter = 1 := by
  have h := ofFields_has none none none none none (Ori.ofMat 1) (some 1) (Ori.rep_m IsRot.one)
  have hn := ofFields_has none none none none none (Ori.ofMat quarter) (some quarter) (Ori.rep_m quarter_rot)
  rcases update_spec h hn ⟨false, false, false, false, false, true⟩ 1 with ⟨h1, -⟩ | ⟨h1, D, D', pm, vm, am, pm', vm', am', -, ⟨e1, e2, e3⟩, hD, k', e, h'⟩
  · exact absurd (by simp [Value.Deducible, DeducibleAcc]) h1
  · obtain ⟨-, -, hq, -⟩ := hD 1 quarter rfl rfl
    have hx : ((1 : ℝ) * 1 / 2) • ((2 : ℝ) / (1 * 1)) • D' = D' := by rw [smul_smul]; norm_num
    refine ⟨_, _, k', _, _, _, _, ((2 : ℝ) / (1 * 1)) • D', h, hn, e, h', rfl, rfl, rfl, rfl, ?_, ?_, ?_⟩
    · cases e2; cases e3
      rfl
    · rw [hx, mul_one]
      intro hcon
      rw [hcon] at hq
      have := congrFun (congrFun hq 0) 0
      simp [quarter, mul_apply, Fin.sum_univ_three] at this
      norm_num at this
    · rw [hx]; exact hq

/-- Kinematics, new values and flags to which the theorems apply: position and velocity, a new position, everything linear flagged. -/
example : ∃ (k n k' : Kin) (a b c : Value) (f : KFlags), k.Has a ∧ n.Has b ∧ Value.Deducible f a b ∧ k.update n 0.01 f = .ok k' ∧ k'.Has c ∧
    a.pos = some 0 ∧ a.linVel = some ![1, 0, 0] ∧ b.pos = some ![1, 0, 0] ∧ f.linAcc ∧ f.linVel ∧ b.linVel = none ∧ b.linAcc = none := by
  have h := ofFields_has (some 0) (some ![1, 0, 0]) none none none (Ori.new true) none hold_none
  have hn := ofFields_has (some ![1, 0, 0]) none none none none (Ori.new true) none hold_none
  have hd : Value.Deducible ⟨true, false, true, false, true, false⟩ ⟨some 0, none, some ![1, 0, 0], none, none, none⟩
      ⟨some ![1, 0, 0], none, none, none, none, none⟩ := by
    simp [Value.Deducible, DeducibleAcc, DeduciblePos, DeducibleVel]
  obtain ⟨k', c, e, hc⟩ := (C52_defined _ _ _ _ h hn _ 0.01).2 hd
  exact ⟨_, _, k', _, _, c, _, h, hn, hd, e, hc, rfl, rfl, rfl, rfl, rfl, rfl, rfl⟩

end Kin
end StateObs.Kine
