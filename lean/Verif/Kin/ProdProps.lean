import Verif.Kin.Lemmas
/-!
# C48, C49: composition and inverse of kinematics
-/

namespace StateObs.Kine
open StateObs Matrix Rot

namespace Kin

theorem Has.rot {k : Kin} {p v w x y : Option V3} {R : M3} (h : k.Has ⟨p, some R, v, w, x, y⟩) : IsRot R := Ori.Rep.rot h.ori

/-- **C48** The product is the composition of moving frames: if the operands are the kinematics of two moving frames, the second one seen from the first one,
the product is the position, the orientation, the velocities and the accelerations of the second frame in the fixed frame. -/
theorem C48_product (M N : Motion) : ∃ P : Motion, (∀ t, P.R t = M.R t * N.R t ∧ P.p t = M.p t + M.R t *ᵥ N.p t) ∧
    ∀ (t : ℝ) (k1 k2 : Kin), k1.Has (M.at t) → k2.Has (N.at t) →
      ∃ k k1' k2', k1.product k2 = .ok (k, k1', k2') ∧ k.Has (P.at t) ∧ k1'.Has (M.at t) ∧ k2'.Has (N.at t) := by
  let P : Motion :=
    { R := fun t => M.R t * N.R t
      ω := fun t => M.R t *ᵥ N.ω t + M.ω t
      α := fun t => M.R t *ᵥ N.α t + M.ω t ⨯₃ (M.R t *ᵥ N.ω t) + M.α t
      p := fun t => M.R t *ᵥ N.p t + M.p t
      v := fun t => M.ω t ⨯₃ (M.R t *ᵥ N.p t) + M.R t *ᵥ N.v t + M.v t
      a := fun t => M.R t *ᵥ N.a t + M.α t ⨯₃ (M.R t *ᵥ N.p t) + M.ω t ⨯₃ (M.ω t ⨯₃ (M.R t *ᵥ N.p t) + M.R t *ᵥ N.v t + M.R t *ᵥ N.v t) + M.a t
      rot := fun t => (M.rot t).mul (N.rot t)
      turns := by
        intro t w
        have := M.turns.mulVec (N.turns t w)
        simp only [← mulVec_mulVec]
        convert! this using 1
        rw [add_cross, (M.rot t).cross, add_comm]
      dω := by
        intro t
        convert! (M.turns.mulVec (N.dω t)).add (M.dω t) using 1
        abel
      dp := by
        intro t
        convert! (M.turns.mulVec (N.dp t)).add (M.dp t) using 1
      dv := by
        intro t
        have := ((hasDerivAt_cross (M.dω t) (M.turns.mulVec (N.dp t))).add (M.turns.mulVec (N.dv t))).add (M.dv t)
        convert! this using 1
        simp only [cross_add]
        abel }
  refine ⟨P, fun t => ⟨rfl, add_comm _ _⟩, fun t k1 k2 h1 h2 => ?_⟩
  obtain ⟨k, k1', k2', e, h, h1', h2'⟩ := product_spec (k := new) h1 h2 rfl (Or.inl rfl)
  exact ⟨k, k1', k2', e, h, h1', h2'⟩

/-- **C48** The inverse is the kinematics of the fixed frame seen from the moving one. -/
theorem C48_inverse (M : Motion) : ∃ P : Motion, (∀ t, P.R t = (M.R t)ᵀ ∧ P.p t = -((M.R t)ᵀ *ᵥ M.p t)) ∧
    ∀ (t : ℝ) (k : Kin), k.Has (M.at t) → ∃ i, k.getInverse = .ok i ∧ i.Has (P.at t) := by
  let P : Motion :=
    { R := fun t => (M.R t)ᵀ
      ω := fun t => -((M.R t)ᵀ *ᵥ M.ω t)
      α := fun t => (M.R t)ᵀ *ᵥ (M.ω t ⨯₃ M.ω t - M.α t)
      p := fun t => -((M.R t)ᵀ *ᵥ M.p t)
      v := fun t => (M.R t)ᵀ *ᵥ (M.ω t ⨯₃ M.p t - M.v t)
      a := fun t => (M.R t)ᵀ *ᵥ (M.ω t ⨯₃ ((2 : ℝ) • M.v t - M.ω t ⨯₃ M.p t) - M.a t + M.α t ⨯₃ M.p t)
      rot := fun t => (M.rot t).transpose
      turns := M.turns.transpose M.rot
      dω := by
        intro t
        convert! (M.turns.transpose_mulVec (M.dω t)).neg using 1
        rw [← mulVec_neg, neg_sub]
      dp := by
        intro t
        convert! (M.turns.transpose_mulVec (M.dp t)).neg using 1
        rw [← mulVec_neg, neg_sub]
      dv := by
        intro t
        convert! M.turns.transpose_mulVec ((hasDerivAt_cross (M.dω t) (M.dp t)).sub (M.dv t)) using 1
        simp only [Pi.sub_apply, cross_sub, two_smul, cross_add]
        congr 1
        abel }
  refine ⟨P, fun t => ⟨rfl, rfl⟩, fun t k h => ?_⟩
  obtain ⟨i, e, h'⟩ := inverse_spec h rfl
  exact ⟨i, e, h'⟩

/-- **C48** The product of fully set kinematics is associative: both sides succeed and have the same fields. -/
theorem C48_associative (k1 k2 k3 : Kin) (a b c : Value) (h1 : k1.Has a) (h2 : k2.Has b) (h3 : k3.Has c) (fa : a.Full) (fb : b.Full) (fc : c.Full) :
    ∃ k12 k1' k2' x k12' k3', k1.product k2 = .ok (k12, k1', k2') ∧ k12.product k3 = .ok (x, k12', k3') ∧
    ∃ k23 k2'' k3'' y k1'' k23', k2.product k3 = .ok (k23, k2'', k3'') ∧ k1.product k23 = .ok (y, k1'', k23') ∧
    ∃ v : Value, v.Full ∧ x.Has v ∧ y.Has v := by
  obtain ⟨p1, R1, v1, w1, a1, b1, rfl⟩ := fa
  obtain ⟨p2, R2, v2, w2, a2, b2, rfl⟩ := fb
  obtain ⟨p3, R3, v3, w3, a3, b3, rfl⟩ := fc
  have r1 := h1.rot
  obtain ⟨k12, k1', k2', e1, g1, -, -⟩ := product_spec (k := new) h1 h2 rfl (Or.inl rfl)
  obtain ⟨x, k12', k3', e2, g2, -, -⟩ := product_spec (k := new) g1 h3 rfl (Or.inl rfl)
  obtain ⟨k23, k2'', k3'', e3, g3, -, -⟩ := product_spec (k := new) h2 h3 rfl (Or.inl rfl)
  obtain ⟨y, k1'', k23', e4, g4, -, -⟩ := product_spec (k := new) h1 g3 rfl (Or.inl rfl)
  refine ⟨k12, k1', k2', x, k12', k3', e1, e2, k23, k2'', k3'', y, k1'', k23', e3, e4, _, ⟨_, _, _, _, _, _, rfl⟩, g2, ?_⟩
  convert! g4 using 1
  simp only [mulValue, Option.bind_eq_bind, Option.bind_some, Value.mk.injEq, Option.some.injEq, mulVec_add, ← mulVec_mulVec, Matrix.mul_assoc, r1.cross,
    true_and]
  generalize R1 *ᵥ p2 = p2, R1 *ᵥ (R2 *ᵥ p3) = p3, R1 *ᵥ v2 = v2, R1 *ᵥ (R2 *ᵥ v3) = v3, R1 *ᵥ w2 = w2, R1 *ᵥ (R2 *ᵥ w3) = w3, R1 *ᵥ a2 = a2,
    R1 *ᵥ (R2 *ᵥ a3) = a3, R1 *ᵥ b2 = b2, R1 *ᵥ (R2 *ᵥ b3) = b3
  refine ⟨?_, ?_, ?_, ?_, ?_⟩ <;> apply ext3 <;> simp only [Pi.add_apply, cross0, cross1, cross2] <;> ring

/-- **C48** The zero kinematics is neutral on both sides. -/
theorem C48_identity (z k : Kin) (a : Value) (hz : z.Has Value.zero) (h : k.Has a) (fa : a.Full) :
    (∃ x z' k', z.product k = .ok (x, z', k') ∧ x.Has a) ∧ ∃ x k' z', k.product z = .ok (x, k', z') ∧ x.Has a := by
  obtain ⟨p1, R1, v1, w1, a1, b1, rfl⟩ := fa
  obtain ⟨x, k1', k2', e1, g1, -, -⟩ := product_spec (k := new) hz h rfl (Or.inl rfl)
  obtain ⟨y, k12', k3', e2, g2, -, -⟩ := product_spec (k := new) h hz rfl (Or.inl rfl)
  refine ⟨⟨x, k1', k2', e1, ?_⟩, ⟨y, _, _, e2, ?_⟩⟩
  · convert! g1 using 1
    simp [mulValue, Value.zero]
  · convert! g2 using 1
    simp [mulValue, Value.zero]

/-- `setZero(Flags::all)` gives the zero kinematics, and the zero kinematics commute with nothing else needed: hypothesis of `C48_identity`. -/
theorem setZero_all (k : Kin) : (k.setZero KFlags.all).Has Value.zero := by
  refine ⟨rfl, ?_, rfl, rfl, rfl, rfl⟩
  refine ⟨IsRot.one, Or.inl rfl, fun _ => ⟨_, rfl, ?_, ?_⟩, ?_⟩
  · simp [Quat.normSq]
  · apply mext3; intro i j; fin_cases i <;> fin_cases j <;> simp [Quat.toMat]
  · intro h; exact absurd h (by simp [setZero, KFlags.all, Ori.setZeroQuat, Ori.assignQuat, CItem.reset])

/-- **C48** The product by the inverse, on either side, is the zero kinematics. -/
theorem C48_inverse_product (k : Kin) (a : Value) (h : k.Has a) (fa : a.Full) : ∃ i, k.getInverse = .ok i ∧
    (∃ x k' i', k.product i = .ok (x, k', i') ∧ x.Has Value.zero) ∧ ∃ x i' k', i.product k = .ok (x, i', k') ∧ x.Has Value.zero := by
  obtain ⟨p, R, v, w, a, b, rfl⟩ := fa
  have r := h.rot
  obtain ⟨i, e, hi⟩ := inverse_spec h rfl
  obtain ⟨x, k1', k2', e1, g1, -, -⟩ := product_spec (k := new) h hi rfl (Or.inl rfl)
  obtain ⟨y, k12', k3', e2, g2, -, -⟩ := product_spec (k := new) hi h rfl (Or.inl rfl)
  refine ⟨i, e, ⟨x, k1', k2', e1, ?_⟩, ⟨y, _, _, e2, ?_⟩⟩
  · convert! g1 using 1
    simp only [mulValue, invValue, Value.zero, Option.bind_eq_bind, Option.bind_some, Option.map_some, Value.mk.injEq, Option.some.injEq, mulVec_neg, r.cancel',
      r.orth', true_and]
    refine ⟨?_, ?_, ?_, ?_, ?_⟩ <;> apply ext3 <;> simp only [Pi.add_apply, Pi.neg_apply, Pi.sub_apply, Pi.smul_apply, smul_eq_mul, Pi.zero_apply, cross0, cross1, cross2] <;> ring
  · convert! g2 using 1
    simp only [mulValue, invValue, Value.zero, Option.bind_eq_bind, Option.bind_some, Option.map_some, Value.mk.injEq, Option.some.injEq, mulVec_add, mulVec_sub,
      mulVec_smul, r.transpose.cross, r.orth, true_and]
    refine ⟨?_, ?_, ?_, ?_, ?_⟩ <;> apply ext3 <;> simp only [Pi.add_apply, Pi.neg_apply, Pi.sub_apply, Pi.smul_apply, smul_eq_mul, Pi.zero_apply, cross0, cross1, cross2] <;> ring

/-- **C49** A product succeeds exactly when the orientation of the first operand is set and the second one has a position or an orientation (otherwise an
assertion fails); then exactly the derivable fields are set. -/
theorem C49_product_flags (k k1 k2 : Kin) (a b : Value) (h1 : k1.Has a) (h2 : k2.Has b) :
    (k.setToProductNoAlias k1 k2 = .assertFail ↔ ¬ (a.ori.isSome ∧ (b.pos.isSome ∨ b.ori.isSome))) ∧
    ((a.ori.isSome ∧ (b.pos.isSome ∨ b.ori.isSome)) → ∃ k' k1' k2' c, k.setToProductNoAlias k1 k2 = .ok (k', k1', k2') ∧ k1'.Has a ∧ k2'.Has b ∧ k'.Has c ∧
      (c.pos.isSome ↔ a.pos.isSome ∧ b.pos.isSome) ∧
      (c.ori.isSome ↔ b.ori.isSome) ∧
      (c.linVel.isSome ↔ (a.pos.isSome ∧ b.pos.isSome) ∧ a.linVel.isSome ∧ b.linVel.isSome ∧ a.angVel.isSome) ∧
      (c.angVel.isSome ↔ b.ori.isSome ∧ a.angVel.isSome ∧ b.angVel.isSome) ∧
      (c.linAcc.isSome ↔ ((a.pos.isSome ∧ b.pos.isSome) ∧ a.linVel.isSome ∧ b.linVel.isSome ∧ a.angVel.isSome) ∧
        a.linAcc.isSome ∧ b.linAcc.isSome ∧ a.angAcc.isSome) ∧
      (c.angAcc.isSome ↔ (b.ori.isSome ∧ a.angVel.isSome ∧ b.angVel.isSome) ∧ a.angAcc.isSome ∧ b.angAcc.isSome)) := by
  have key : (a.ori.isSome ∧ (b.pos.isSome ∨ b.ori.isSome)) → ∃ k' k1' k2', k.setToProductNoAlias k1 k2 = .ok (k', k1', k2') ∧
      k'.Has (mulValue a b) ∧ k1'.Has a ∧ k2'.Has b := fun h => product_spec h1 h2 h.1 h.2
  refine ⟨⟨fun h h' => ?_, fun h => product_fails h1 h2 ?_⟩, fun h => ?_⟩
  · obtain ⟨_, _, _, e, -⟩ := key h'
    rw [e] at h; cases h
  · revert h
    cases a.ori <;> cases b.pos <;> cases b.ori <;> simp
  · obtain ⟨k', k1', k2', e, h', h1', h2'⟩ := key h
    refine ⟨k', k1', k2', _, e, h1', h2', h', ?_⟩
    obtain ⟨R, hR⟩ := Option.isSome_iff_exists.1 h.1
    clear e h' h1' h2' key h1 h2 h
    obtain ⟨pa, oa, va, wa, xa, ya⟩ := a
    obtain ⟨pb, ob, vb, wb, xb, yb⟩ := b
    dsimp only at hR; subst hR
    refine ⟨?_, ?_, ?_, ?_, ?_, ?_⟩
    · cases pa <;> cases pb <;> simp only [mulValue, Option.bind_eq_bind, Option.bind_none, Option.bind_some, Option.isSome_none, Option.isSome_some, Bool.false_eq_true,
        and_false, false_and, and_true, true_and]
    · cases ob <;> simp only [mulValue, Option.bind_eq_bind, Option.bind_none, Option.bind_some, Option.isSome_none, Option.isSome_some, Bool.false_eq_true,
        and_false, false_and, and_true, true_and]
    · cases pa <;> cases pb <;> cases va <;> cases vb <;> cases wa <;> simp only [mulValue, Option.bind_eq_bind, Option.bind_none, Option.bind_some, Option.isSome_none, Option.isSome_some, Bool.false_eq_true,
        and_false, false_and, and_true, true_and]
    · cases ob <;> cases wa <;> cases wb <;> simp only [mulValue, Option.bind_eq_bind, Option.bind_none, Option.bind_some, Option.isSome_none, Option.isSome_some, Bool.false_eq_true,
        and_false, false_and, and_true, true_and]
    · cases pb
      · simp only [mulValue, Option.bind_eq_bind, Option.bind_none, Option.bind_some, Option.isSome_none, Option.isSome_some, Bool.false_eq_true,
        and_false, false_and, and_true, true_and]
      cases pa
      · simp only [mulValue, Option.bind_eq_bind, Option.bind_none, Option.bind_some, Option.isSome_none, Option.isSome_some, Bool.false_eq_true,
        and_false, false_and, and_true, true_and]
      cases vb
      · simp only [mulValue, Option.bind_eq_bind, Option.bind_none, Option.bind_some, Option.isSome_none, Option.isSome_some, Bool.false_eq_true,
        and_false, false_and, and_true, true_and]
      cases va
      · simp only [mulValue, Option.bind_eq_bind, Option.bind_none, Option.bind_some, Option.isSome_none, Option.isSome_some, Bool.false_eq_true,
        and_false, false_and, and_true, true_and]
      cases wa
      · simp only [mulValue, Option.bind_eq_bind, Option.bind_none, Option.bind_some, Option.isSome_none, Option.isSome_some, Bool.false_eq_true,
        and_false, false_and, and_true, true_and]
      cases xa <;> cases xb <;> cases ya <;> simp only [mulValue, Option.bind_eq_bind, Option.bind_none, Option.bind_some, Option.isSome_none, Option.isSome_some, Bool.false_eq_true,
        and_false, false_and, and_true, true_and]
    · cases ob <;> cases wa <;> cases wb <;> cases ya <;> cases yb <;> simp only [mulValue, Option.bind_eq_bind, Option.bind_none, Option.bind_some, Option.isSome_none, Option.isSome_some, Bool.false_eq_true,
        and_false, false_and, and_true, true_and]

/-- **C49** The inverse succeeds exactly when the orientation is set; then exactly the derivable fields are set. -/
theorem C49_inverse_flags (k : Kin) (a : Value) (h : k.Has a) :
    (k.getInverse = .assertFail ↔ ¬ a.ori.isSome) ∧
    (a.ori.isSome → ∃ i c, k.getInverse = .ok i ∧ i.Has c ∧
      c.ori.isSome ∧ (c.pos.isSome ↔ a.pos.isSome) ∧
      (c.linVel.isSome ↔ a.pos.isSome ∧ a.linVel.isSome ∧ a.angVel.isSome) ∧
      (c.angVel.isSome ↔ a.angVel.isSome) ∧
      (c.linAcc.isSome ↔ (a.pos.isSome ∧ a.linVel.isSome ∧ a.angVel.isSome) ∧ a.linAcc.isSome ∧ a.angAcc.isSome) ∧
      (c.angAcc.isSome ↔ a.angVel.isSome ∧ a.angAcc.isSome)) := by
  refine ⟨⟨fun e h' => ?_, fun e => ?_⟩, fun h' => ?_⟩
  · obtain ⟨i, e', -⟩ := inverse_spec h h'
    rw [e'] at e; cases e
  · simp [getInverse, Holds.isSet h.ori, e]
  · obtain ⟨i, e, hi⟩ := inverse_spec h h'
    refine ⟨i, _, e, hi, ?_⟩
    obtain ⟨R, hR⟩ := Option.isSome_iff_exists.1 h'
    clear e hi h h'
    obtain ⟨pa, oa, va, wa, xa, ya⟩ := a
    dsimp only at hR; subst hR
    refine ⟨rfl, ?_, ?_, ?_, ?_, ?_⟩
    · cases pa <;> simp [invValue]
    · cases pa <;> cases va <;> cases wa <;> simp [invValue]
    · cases wa <;> simp [invValue]
    · cases pa <;> cases va <;> cases wa <;> cases xa <;> cases ya <;> simp [invValue]
    · cases wa <;> cases ya <;> simp [invValue]

/-- **C49** The result depends on the set fields only: with other objects that have at least the same set fields (whatever is stored in the fields that are
not set, whichever representation of the orientation is cached), the product has at least the same fields, with the same values. -/
theorem C49_product_values (k k1 k2 l l1 l2 : Kin) (a b a' b' c : Value) (h1 : k1.Has a) (h2 : k2.Has b) (g1 : l1.Has a') (g2 : l2.Has b')
    (la : a.Le a') (lb : b.Le b') (k' k1' k2' : Kin) (e : k.setToProductNoAlias k1 k2 = .ok (k', k1', k2')) (hc : k'.Has c) :
    ∃ l' l1' l2' c', l.setToProductNoAlias l1 l2 = .ok (l', l1', l2') ∧ l'.Has c' ∧ c.Le c' := by
  have hok : a.ori.isSome ∧ (b.pos.isSome ∨ b.ori.isSome) := by
    by_contra hcon
    rw [(C49_product_flags k k1 k2 a b h1 h2).1.2 hcon] at e; cases e
  obtain ⟨x, x1, x2, e', hx, -, -⟩ := product_spec (k := k) h1 h2 hok.1 hok.2
  rw [e] at e'; cases e'
  rw [hc.inj hx]
  have up : ∀ {α : Type} {u v : Option α}, (∀ x, u = some x → v = some x) → u.isSome → v.isSome := by
    intro α u v h hs
    obtain ⟨x, hx⟩ := Option.isSome_iff_exists.1 hs
    rw [h x hx]; rfl
  obtain ⟨y, y1, y2, e', hy, -, -⟩ := product_spec (k := l) g1 g2 (up la.ori hok.1) (hok.2.imp (up lb.pos) (up lb.ori))
  refine ⟨y, y1, y2, _, e', hy, ?_⟩
  constructor <;> intro z hz <;> simp only [mulValue, Option.bind_eq_bind, Option.bind_eq_some_iff] at hz ⊢
  · obtain ⟨p2, q2, p1, q1, R, qR, q⟩ := hz
    exact ⟨p2, lb.pos _ q2, p1, la.pos _ q1, R, la.ori _ qR, q⟩
  · obtain ⟨p2, q2, p1, q1, q⟩ := hz
    exact ⟨p2, lb.ori _ q2, p1, la.ori _ q1, q⟩
  · obtain ⟨p2, q2, p1, q1, v2, r2, v1, r1, w1, s1, R, qR, q⟩ := hz
    exact ⟨p2, lb.pos _ q2, p1, la.pos _ q1, v2, lb.linVel _ r2, v1, la.linVel _ r1, w1, la.angVel _ s1, R, la.ori _ qR, q⟩
  · obtain ⟨p2, q2, w2, r2, w1, r1, R, qR, q⟩ := hz
    exact ⟨p2, lb.ori _ q2, w2, lb.angVel _ r2, w1, la.angVel _ r1, R, la.ori _ qR, q⟩
  · obtain ⟨p2, q2, p1, q1, v2, r2, v1, r1, w1, s1, a2, t2, a1, t1, b1, u1, R, qR, q⟩ := hz
    exact ⟨p2, lb.pos _ q2, p1, la.pos _ q1, v2, lb.linVel _ r2, v1, la.linVel _ r1, w1, la.angVel _ s1, a2, lb.linAcc _ t2, a1, la.linAcc _ t1, b1,
      la.angAcc _ u1, R, la.ori _ qR, q⟩
  · obtain ⟨p2, q2, w2, r2, w1, r1, b2, s2, b1, s1, R, qR, q⟩ := hz
    exact ⟨p2, lb.ori _ q2, w2, lb.angVel _ r2, w1, la.angVel _ r1, b2, lb.angAcc _ s2, b1, la.angAcc _ s1, R, la.ori _ qR, q⟩

/-- **C49** The same for the inverse. -/
theorem C49_inverse_values (k l i : Kin) (a a' c : Value) (h : k.Has a) (g : l.Has a') (la : a.Le a') (e : k.getInverse = .ok i) (hc : i.Has c) :
    ∃ j c', l.getInverse = .ok j ∧ j.Has c' ∧ c.Le c' := by
  have hok : a.ori.isSome := by
    by_contra hcon
    rw [(C49_inverse_flags k a h).1.2 hcon] at e; cases e
  obtain ⟨x, e', hx⟩ := inverse_spec h hok
  rw [e] at e'; cases e'
  rw [hc.inj hx]
  have hok' : a'.ori.isSome := by
    obtain ⟨x, hx⟩ := Option.isSome_iff_exists.1 hok
    rw [la.ori x hx]; rfl
  obtain ⟨y, e', hy⟩ := inverse_spec g hok'
  refine ⟨y, _, e', hy, ?_⟩
  constructor <;> intro z hz <;> simp only [invValue, Option.bind_eq_bind, Option.bind_eq_some_iff, Option.map_eq_some_iff] at hz ⊢
  · obtain ⟨R, qR, p, q1, q⟩ := hz
    exact ⟨R, la.ori _ qR, p, la.pos _ q1, q⟩
  · obtain ⟨R, qR, q⟩ := hz
    exact ⟨R, la.ori _ qR, q⟩
  · obtain ⟨R, qR, p, q1, v, q2, w, q3, q⟩ := hz
    exact ⟨R, la.ori _ qR, p, la.pos _ q1, v, la.linVel _ q2, w, la.angVel _ q3, q⟩
  · obtain ⟨R, qR, w, q3, q⟩ := hz
    exact ⟨R, la.ori _ qR, w, la.angVel _ q3, q⟩
  · obtain ⟨R, qR, p, q1, v, q2, w, q3, x, q4, b, q5, q⟩ := hz
    exact ⟨R, la.ori _ qR, p, la.pos _ q1, v, la.linVel _ q2, w, la.angVel _ q3, x, la.linAcc _ q4, b, la.angAcc _ q5, q⟩
  · obtain ⟨R, qR, w, q3, b, q5, q⟩ := hz
    exact ⟨R, la.ori _ qR, w, la.angVel _ q3, b, la.angAcc _ q5, q⟩

/-- A motion to which C48 applies: a frame that turns about the vertical axis, one radian per second, and falls. -/
noncomputable def fallingTop : Motion where
  R := fun t => !![Real.cos t, -Real.sin t, 0; Real.sin t, Real.cos t, 0; 0, 0, 1]
  ω := fun _ => ![0, 0, 1]
  α := fun _ => 0
  p := fun t => ![1, 2, -5 * t ^ 2]
  v := fun t => ![0, 0, -10 * t]
  a := fun _ => ![0, 0, -10]
  rot := by
    intro t
    constructor
    · apply mext3; intro i j
      have := Real.sin_sq_add_cos_sq t
      fin_cases i <;> fin_cases j <;> simp [mul_apply, Fin.sum_univ_three] <;> nlinarith
    · rw [det_fin_three]; simp; nlinarith [Real.sin_sq_add_cos_sq t]
  turns := by
    intro t w
    rw [hasDerivAt3]
    simp only [mulVec3, cross0, cross1, cross2]
    simp
    refine ⟨?_, ?_, ?_⟩
    · convert! ((Real.hasDerivAt_cos t).mul_const (w 0)).add ((Real.hasDerivAt_sin t).neg.mul_const (w 1)) using 1
      · funext; simp
      · ring
    · convert! ((Real.hasDerivAt_sin t).mul_const (w 0)).add ((Real.hasDerivAt_cos t).mul_const (w 1)) using 1
      ring
    · exact hasDerivAt_const _ _
  dω := fun t => hasDerivAt_const _ _
  dp := by
    intro t
    rw [hasDerivAt3]
    refine ⟨hasDerivAt_const _ _, hasDerivAt_const _ _, ?_⟩
    convert! ((hasDerivAt_id t).pow 2).const_mul (-5 : ℝ) using 1
    simp; ring
  dv := by
    intro t
    rw [hasDerivAt3]
    refine ⟨hasDerivAt_const _ _, hasDerivAt_const _ _, ?_⟩
    convert! (hasDerivAt_id t).const_mul (-10 : ℝ) using 1
    simp

/-- An object that holds this motion at time `t`. -/
noncomputable def fallingKin (t : ℝ) : Kin :=
  ⟨⟨true, some (fallingTop.p t)⟩, ⟨CItem.new true, ⟨true, some (fallingTop.R t)⟩⟩, ⟨true, some (fallingTop.v t)⟩, ⟨true, some (fallingTop.ω t)⟩,
    ⟨true, some (fallingTop.a t)⟩, ⟨true, some (fallingTop.α t)⟩⟩

theorem fallingKin_has (t : ℝ) : (fallingKin t).Has (fallingTop.at t) :=
  ⟨rfl, ⟨fallingTop.rot t, Or.inr rfl, fun h => absurd h (by simp [fallingKin, CItem.new]), fun _ => rfl⟩, rfl, rfl, rfl, rfl⟩

example (t : ℝ) := (C48_product fallingTop fallingTop).imp fun _ h => h.2 t _ _ (fallingKin_has t) (fallingKin_has t)
example (t s : ℝ) := C48_associative _ _ _ _ _ _ (fallingKin_has t) (fallingKin_has s) (setZero_all new) ⟨_, _, _, _, _, _, rfl⟩ ⟨_, _, _, _, _, _, rfl⟩
  ⟨_, _, _, _, _, _, rfl⟩
example (t : ℝ) := C48_inverse_product _ _ (fallingKin_has t) ⟨_, _, _, _, _, _, rfl⟩

/-- Kinematics without accelerations, to which C49 applies. -/
noncomputable def slowKin (t : ℝ) : Kin := { fallingKin t with linAcc := ⟨false, some ![7, 7, 7]⟩, angAcc := CItem.new true }
example (t : ℝ) : (slowKin t).Has { fallingTop.at t with linAcc := none, angAcc := none } :=
  ⟨rfl, (fallingKin_has t).ori, rfl, rfl, rfl, rfl⟩
example (t : ℝ) : Value.Le { fallingTop.at t with linAcc := none, angAcc := none } (fallingTop.at t) :=
  ⟨fun _ h => h, fun _ h => h, fun _ h => h, fun _ h => h, fun _ h => (nomatch h), fun _ h => (nomatch h)⟩

end Kin
end StateObs.Kine
