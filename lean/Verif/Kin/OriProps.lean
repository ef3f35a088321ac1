import Verif.Kin.OriLemmas
/-!
# C46, C47: the two representations of an `Orientation`, integration and differentiation
-/

namespace StateObs.Kine
open StateObs Matrix Rot

/-- The variables hold the rotations of the specification. -/
def Stores (s : OriStore) (t : RotStore) : Prop := ∀ d, (s d).Holds (t d)

theorem Stores.put {s : OriStore} {t : RotStore} (h : Stores s t) (d : ℕ) {o : Ori} {R : Option M3} (ho : o.Holds R) :
    Stores (s.put d o) (t.put d R) := by
  intro i
  simp only [OriStore.put, RotStore.put]
  split
  · exact ho
  · exact h i

theorem Stores.same {s : OriStore} {t : RotStore} (h : Stores s t) (d : ℕ) {o : Ori} (ho : o.Holds (t d)) : Stores (s.put d o) t := by
  intro i
  simp only [OriStore.put]
  split
  · rename_i e; rw [e]; exact ho
  · exact h i

theorem Holds_copy {o c : Ori} {R : Option M3} (h : c.Holds R) : (o.copyFrom c).Holds R := by
  have : o.copyFrom c = c := rfl
  rwa [this]

/-- One call: it returns what the specification says, or fails an assertion exactly if the specification reads a variable without value. -/
def StepOk (s : OriStore) (t : RotStore) (op : OriOp) : Prop :=
  (∃ out s' t', op.effect t = some t' ∧ op.exec s = .ok (out, s') ∧ op.Returns t out ∧ Stores s' t') ∨
  (op.effect t = none ∧ op.exec s = .assertFail)

theorem step_const {s : OriStore} {t : RotStore} (hs : Stores s t) {d : ℕ} {op : OriOp} {α : Type} {r : Res (α × Ori)} {f : α → OriOut}
    (he : op.effect t = (t d).bind fun _ => some t) (hx : op.exec s = s.const d r f)
    (hn : t d = none → r = .assertFail) (hr : ∀ R, t d = some R → ∃ a o, r = .ok (a, o) ∧ o.Rep R ∧ op.Returns t (f a)) : StepOk s t op := by
  cases htd : t d with
  | none => exact .inr ⟨by rw [he, htd]; rfl, by rw [hx, hn htd]; rfl⟩
  | some R =>
    obtain ⟨a, o, e, ho, hret⟩ := hr R htd
    exact .inl ⟨f a, s.put d o, t, by rw [he, htd]; rfl, by rw [hx, e]; rfl, hret, hs.same d (by rw [htd]; exact ho)⟩

theorem step (s : OriStore) (t : RotStore) (op : OriOp) (hs : Stores s t) (hv : op.Valid) : StepOk s t op := by
  have set : ∀ {o : Ori} {R : Option M3} (d : ℕ), o.Holds R → op.exec s = .ok (.none, s.put d o) → op.effect t = some (t.put d R) →
      (op.Returns t .none) → StepOk s t op := by
    intro o R d ho h1 h2 h3
    exact .inl ⟨.none, s.put d o, t.put d R, h2, h1, h3, hs.put d ho⟩
  have bad : ∀ d, t d = none → (s d).check = .assertFail := fun d h => Ori.unset_check (h ▸ hs d)
  have good : ∀ d R, t d = some R → (s d).Rep R := fun d R h => by
    have := hs d; rw [h] at this; exact this
  cases op with
  | newVar d => exact set (R := none) d (o := Ori.new true) ⟨rfl, rfl⟩ rfl rfl rfl
  | reset d => exact set (R := none) d (o := (s d).reset) ⟨rfl, rfl⟩ rfl rfl rfl
  | constructVector d v =>
    exact set (R := some _) d (o := Ori.ofVector v) (Ori.rep_q (rvq_unit v) (by rw [rvq_toMat, vecRot_eq])) rfl rfl rfl
  | assignVector d v =>
    exact set (R := some _) d (o := (s d).assignVector v) (Ori.rep_q (rvq_unit v) (by rw [rvq_toMat, vecRot_eq])) rfl rfl rfl
  | constructQuat d q => exact set (R := some _) d (o := Ori.ofQuat q) (Ori.rep_q hv rfl) rfl rfl rfl
  | assignQuat d q => exact set (R := some _) d (o := (s d).assignQuat q) (Ori.rep_q hv rfl) rfl rfl rfl
  | constructMat d m => exact set (R := some _) d (o := Ori.ofMat m) (Ori.rep_m hv) rfl rfl rfl
  | assignMat d m => exact set (R := some _) d (o := (s d).assignMat m) (Ori.rep_m hv) rfl rfl rfl
  | constructAngleAxis d a =>
    exact set (R := some _) d (o := Ori.ofAngleAxis a)
      (Ori.rep_q (AngleAxis.normSq_ofAngleAxis hv) (by rw [AngleAxis.toMat_ofAngleAxis hv, exp_ofAngleAxis a hv])) rfl rfl rfl
  | assignAngleAxis d a =>
    exact set (R := some _) d (o := (s d).assignAngleAxis a)
      (Ori.rep_q (AngleAxis.normSq_ofAngleAxis hv) (by rw [AngleAxis.toMat_ofAngleAxis hv, exp_ofAngleAxis a hv])) rfl rfl rfl
  | constructRPY d r p y =>
    have hu : (rollPitchYawToQuaternion r p y).normSq = 1 := by
      rw [rollPitchYawToQuaternion, Quat.normSq_mul, Quat.normSq_mul, AngleAxis.normSq_ofAngleAxis ez_unit,
        AngleAxis.normSq_ofAngleAxis (by simp [dot3, ey]), AngleAxis.normSq_ofAngleAxis (by simp [dot3, ex])]
      norm_num
    exact set (R := some _) d (o := Ori.ofRPY r p y) (Ori.rep_q hu (C36_product r p y)) rfl rfl rfl
  | constructBoth d q m => exact set (R := some _) d (o := Ori.ofBoth q m) (Ori.rep_qm hv.1 hv.2.symm) rfl rfl rfl
  | setValue d q m => exact set (R := some _) d (o := (s d).setValue q m) (Ori.rep_qm hv.1 hv.2.symm) rfl rfl rfl
  | fromVector4 d v =>
    have hu : (Quat.mk (v 3) (v 0) (v 1) (v 2)).normSq = 1 := by
      rw [← show v 0 ^ 2 + v 1 ^ 2 + v 2 ^ 2 + v 3 ^ 2 = 1 from hv]; simp only [Quat.normSq]; ring
    exact set (R := some _) d (o := (s d).fromVector4 v) (Ori.rep_q hu rfl) rfl rfl rfl
  | constructCopy d a => exact set d (o := (Ori.new true).copyFrom (s a)) (Holds_copy (hs a)) rfl rfl rfl
  | copy d a => exact set d (o := (s d).copyFrom (s a)) (Holds_copy (hs a)) rfl rfl rfl
  | zeroRotation d => exact set (R := some _) d (o := Ori.zeroRotation) (Ori.rep_qm Quat.normSq_one Quat.toMat_one) rfl rfl rfl
  | setZeroQuat d => exact set (R := some _) d (o := (s d).setZeroQuat) (Ori.rep_q Quat.normSq_one Quat.toMat_one) rfl rfl rfl
  | setZeroMat d => exact set (R := some _) d (o := (s d).setZeroMat) (Ori.rep_m IsRot.one) rfl rfl rfl
  | constructProduct d a b =>
    cases ha : t a with
    | none => exact .inr ⟨by simp [OriOp.effect, ha], by simp [OriOp.exec, Ori.product, Ori.setToProductNoAlias, bad a ha]⟩
    | some A =>
      cases hb : t b with
      | none => exact .inr ⟨by simp [OriOp.effect, ha, hb], by simp [OriOp.exec, Ori.product, Ori.setToProductNoAlias, (good a A ha).check, bad b hb]⟩
      | some B =>
        obtain ⟨o, A', B', e, h1, h2, h3, h4⟩ := Ori.Rep.mul (Ori.new false) (good a A ha) (good b B hb)
        refine .inl ⟨.none, ((s.put a A').put b B').put d o, t.put d (some (A * B)), by simp [OriOp.effect, ha, hb],
          by simp [OriOp.exec, Ori.product, e], rfl, ?_⟩
        exact ((hs.same a (by rw [ha]; exact h2)).same b (by rw [hb]; exact h3)).put d h1
  | productNoAlias d a b =>
    have hd : ¬(d = a ∨ d = b) := fun h => h.elim hv.1 hv.2
    cases ha : t a with
    | none => exact .inr ⟨by simp [OriOp.effect, ha], by simp [OriOp.exec, if_neg hd, Ori.setToProductNoAlias, bad a ha]⟩
    | some A =>
      cases hb : t b with
      | none => exact .inr ⟨by simp [OriOp.effect, ha, hb], by simp [OriOp.exec, if_neg hd, Ori.setToProductNoAlias, (good a A ha).check, bad b hb]⟩
      | some B =>
        obtain ⟨o, A', B', e, h1, h2, h3, h4⟩ := Ori.Rep.mul (s d) (good a A ha) (good b B hb)
        refine .inl ⟨.none, ((s.put a A').put b B').put d o, t.put d (some (A * B)), by simp [OriOp.effect, ha, hb],
          by simp [OriOp.exec, if_neg hd, e], rfl, ?_⟩
        exact ((hs.same a (by rw [ha]; exact h2)).same b (by rw [hb]; exact h3)).put d h1
  | inverse d a =>
    cases ha : t a with
    | none => exact .inr ⟨by simp [OriOp.effect, ha], by simp [OriOp.exec, Ori.inverse, bad a ha]⟩
    | some A =>
      obtain ⟨o, e, h⟩ := (good a A ha).inverse
      rw [← (good a A ha).rot.inv] at h
      exact .inl ⟨.none, s.put d o, t.put d (some A⁻¹), by simp [OriOp.effect, ha], by simp [OriOp.exec, e], rfl, hs.put d h⟩
  | integrate d v =>
    cases ha : t d with
    | none => exact .inr ⟨by simp [OriOp.effect, ha], by simp [OriOp.exec, Ori.integrate, bad d ha]⟩
    | some A =>
      obtain ⟨o, e, h⟩ := (good d A ha).integrate v
      exact .inl ⟨.none, s.put d o, t.put d (some (vecRot v * A)), by simp [OriOp.effect, ha], by simp [OriOp.exec, e], rfl, hs.put d h⟩
  | synchronize d =>
    cases ha : t d with
    | none => exact .inr ⟨by simp [OriOp.effect, ha], by simp [OriOp.exec, Ori.synchronize, bad d ha]⟩
    | some A =>
      obtain ⟨o, e, h, _⟩ := (good d A ha).synchronize
      exact .inl ⟨.none, s.put d o, t, by simp [OriOp.effect, ha], by simp [OriOp.exec, e], rfl, hs.same d (by rw [ha]; exact h)⟩
  | toMatrix3 d =>
    refine step_const hs (d := d) rfl rfl (fun h => by simp [Ori.toMatrix3, bad d h]) fun R h => ?_
    obtain ⟨o, e, ho⟩ := (good d R h).toMatrix3
    exact ⟨R, o, e, ho, h⟩
  | toQuaternion d =>
    refine step_const hs (d := d) rfl rfl (fun h => by simp [Ori.toQuaternion, bad d h]) fun R h => ?_
    obtain ⟨q, o, e, ho, h1, h2⟩ := (good d R h).toQuaternion
    exact ⟨q, o, e, ho, h1, by rw [h2, h]⟩
  | toVector4 d =>
    refine step_const hs (d := d) rfl rfl (fun h => by simp [Ori.toVector4, Ori.toQuaternion, bad d h]) fun R h => ?_
    obtain ⟨q, o, e, ho, h1, h2⟩ := (good d R h).toVector4
    refine ⟨_, o, e, ho, ?_, ?_⟩
    · rw [← h1]; simp [Quat.normSq]; ring
    · rw [h, ← h2]; simp
  | toRotationVector d =>
    cases ha : t d with
    | none => exact .inr ⟨by simp [OriOp.effect, ha], by simp [OriOp.exec, Ori.toRotationVector, bad d ha]⟩
    | some A =>
      obtain ⟨v, e, h1, h2⟩ := (good d A ha).toRotationVector
      exact .inl ⟨.rotVec v, s, t, by simp [OriOp.effect, ha], by simp [OriOp.exec, e], ⟨by rw [h1, ha], h2⟩, hs⟩
  | toRollPitchYaw d =>
    refine step_const hs (d := d) rfl rfl (fun h => by simp [Ori.toRollPitchYaw, bad d h]) fun R h => ?_
    obtain ⟨o, e, ho⟩ := (good d R h).toRollPitchYaw
    exact ⟨_, o, e, ho, R, h, fun hp => by rw [← C36_product, C36_matrix R ho.rot hp]⟩
  | toAngleAxis d =>
    cases ha : t d with
    | none => exact .inr ⟨by simp [OriOp.effect, ha], by simp [OriOp.exec, Ori.toAngleAxis, bad d ha]⟩
    | some A =>
      obtain ⟨a, e, h1, h2⟩ := (good d A ha).toAngleAxis
      exact .inl ⟨.angleAxis a, s, t, by simp [OriOp.effect, ha], by simp [OriOp.exec, e], ⟨by rw [h1, ha], h2⟩, hs⟩
  | rotate d v =>
    refine step_const hs (d := d) rfl rfl (fun h => by simp [Ori.rotate, bad d h]) fun R h => ?_
    obtain ⟨o, e, ho⟩ := (good d R h).rotate v
    exact ⟨_, o, e, ho, R, h, rfl⟩
  | differentiate d a =>
    cases hd : t d with
    | none => exact .inr ⟨by simp [OriOp.effect, hd], by simp [OriOp.exec, Ori.differentiate, bad d hd]⟩
    | some R =>
      cases ha : t a with
      | none =>
        obtain ⟨i, e, _⟩ := (good d R hd).inverse
        exact .inr ⟨by simp [OriOp.effect, ha, hd],
          by simp [OriOp.exec, Ori.differentiate, (good d R hd).check, e, Ori.product, Ori.setToProductNoAlias, bad a ha]⟩
      | some S =>
        obtain ⟨v, e, h1, h2⟩ := (good d R hd).differentiate (good a S ha)
        exact .inl ⟨.diff v, s, t, by simp [OriOp.effect, ha, hd], by simp [OriOp.exec, e], ⟨R, S, hd, ha, h1, h2⟩, hs⟩

/-- **C46** Refinement. Whatever the sequence of constructions, assignments, products, inverses, integrations, conversions and synchronisations, on any
number of variables, every call returns what it must for the rotations the variables hold, in either representation; the sequence is interrupted by an
assertion exactly when a variable without value is read. -/
theorem C46_refines (s : OriStore) (t : RotStore) (hs : Stores s t) (ops : List OriOp) (hv : ∀ op ∈ ops, op.Valid) :
    (∃ outs s' t', OriOp.effects t ops = some t' ∧ OriOp.run s ops = .ok (outs, s') ∧ OriOp.ReturnsAll t ops outs ∧ Stores s' t') ∨
    (OriOp.effects t ops = none ∧ OriOp.run s ops = .assertFail) := by
  induction ops generalizing s t with
  | nil => exact .inl ⟨[], s, t, rfl, rfl, rfl, hs⟩
  | cons op ops ih =>
    rcases step s t op hs (hv op (by simp)) with ⟨o, s1, t1, h1, h2, h3, h4⟩ | ⟨h1, h2⟩
    · rcases ih s1 t1 h4 (fun op h => hv op (by simp [h])) with ⟨os, s', t', k1, k2, k3, k4⟩ | ⟨k1, k2⟩
      · exact .inl ⟨o :: os, s', t', by simp [OriOp.effects, h1, k1], by simp [OriOp.run, h2, k2], ⟨o, os, t1, rfl, h3, h1, k3⟩, k4⟩
      · exact .inr ⟨by simp [OriOp.effects, h1, k1], by simp [OriOp.run, h2, k2]⟩
    · exact .inr ⟨by simp [OriOp.effects, h1], by simp [OriOp.run, h2]⟩

/-- **C46** From new variables. -/
theorem C46_history (ops : List OriOp) (hv : ∀ op ∈ ops, op.Valid) :
    (∃ outs s' t', OriOp.effects (fun _ => none) ops = some t' ∧ OriOp.run (fun _ => Ori.new true) ops = .ok (outs, s') ∧
      OriOp.ReturnsAll (fun _ => none) ops outs ∧ Stores s' t') ∨
    (OriOp.effects (fun _ => none) ops = none ∧ OriOp.run (fun _ => Ori.new true) ops = .assertFail) :=
  C46_refines (fun _ => Ori.new true) (fun _ => none) (fun _ => ⟨rfl, rfl⟩) ops hv

/-- **C46** Whenever both representations of a variable are set they are the same rotation. -/
theorem C46_coherent (ops : List OriOp) (hv : ∀ op ∈ ops, op.Valid) (outs : List OriOut) (s' : OriStore)
    (hr : OriOp.run (fun _ => Ori.new true) ops = .ok (outs, s')) (d : ℕ) (q : Quat) (m : M3)
    (hq : (s' d).isQuaternionSet = true) (hm : (s' d).isMatrixSet = true) (eq : (s' d).q.v = some q) (em : (s' d).m.v = some m) :
    q.toMat = m ∧ q.normSq = 1 ∧ IsRot m := by
  rcases C46_history ops hv with ⟨_, s1, t', _, h2, _, h4⟩ | ⟨_, h2⟩
  · rw [hr] at h2
    obtain rfl : s' = s1 := by cases h2; rfl
    have hd := h4 d
    cases htd : t' d with
    | none => rw [htd] at hd; rw [show (s' d).isQuaternionSet = (s' d).q.flag from rfl, hd.1] at hq; cases hq
    | some R =>
      rw [htd] at hd
      obtain ⟨hrot, _, h5, h6⟩ := hd
      obtain ⟨q', e1, e2, e3⟩ := h5 hq
      have e4 := h6 hm
      rw [eq] at e1; rw [em] at e4
      obtain rfl : q = q' := by cases e1; rfl
      obtain rfl : m = R := by cases e4; rfl
      exact ⟨e3, e2, hrot⟩
  · rw [hr] at h2; cases h2

/-- The hypotheses of C46 are met by a sequence that mixes the representations, computes products with both kinds of operands and fails nowhere. -/
example : ∃ outs s', OriOp.run (fun _ => Ori.new true)
    [.constructQuat 0 ⟨0, 1, 0, 0⟩, .constructMat 1 !![0, -1, 0; 1, 0, 0; 0, 0, 1], .constructProduct 2 0 1, .synchronize 2, .integrate 2 ![0, 0, 1],
     .inverse 3 2, .productNoAlias 4 3 0, .toQuaternion 4, .toMatrix3 2] = .ok (outs, s') := by
  have hv : ∀ op ∈ ([.constructQuat 0 ⟨0, 1, 0, 0⟩, .constructMat 1 !![0, -1, 0; 1, 0, 0; 0, 0, 1], .constructProduct 2 0 1, .synchronize 2,
      .integrate 2 ![0, 0, 1], .inverse 3 2, .productNoAlias 4 3 0, .toQuaternion 4, .toMatrix3 2] : List OriOp), op.Valid := by
    simp [OriOp.Valid, Quat.normSq]
    refine ⟨?_, by simp [det_fin_three]⟩
    ext i j; fin_cases i <;> fin_cases j <;> simp [mul_apply, Fin.sum_univ_three]
  rcases C46_history _ hv with ⟨outs, s', _, _, h, _⟩ | ⟨h, _⟩
  · exact ⟨outs, s', h⟩
  · simp [OriOp.effects, OriOp.effect, RotStore.put] at h

/-- **C47** Integrating the difference of two orientations gives the second one: exactly if the difference is longer than 1e-16 or is zero. -/
theorem C47_integrate_differentiate (o A : Ori) (R S : M3) (ho : o.Rep R) (hA : A.Rep S) :
    ∃ v o', o.differentiate A = .ok v ∧ NormedSpace.exp (hat v) * R = S ∧ nrm v ≤ Real.pi ∧
      o.integrate v = .ok o' ∧ (1e-16 < nrm v ∨ v = 0 → o'.Rep S) := by
  obtain ⟨v, e, h1, h2⟩ := ho.differentiate hA
  obtain ⟨o', e', h3⟩ := ho.integrate v
  refine ⟨v, o', e, h1, h2, e', fun h => ?_⟩
  have : vecRot v * R = S := by
    rw [← h1, vecRot]
    rcases h with h | h
    · rw [if_neg (not_le.2 h)]
    · subst h
      rw [if_pos (by rw [nrm_zero]; norm_num), hat_zero, NormedSpace.exp_zero]
  rwa [this] at h3

/-- **C47** Differentiating after integrating returns the rotation vector. -/
theorem C47_differentiate_integrate (o : Ori) (R : M3) (ho : o.Rep R) (v : V3) (h0 : 1e-16 < nrm v) (h1 : nrm v < Real.pi) :
    ∃ o', o.integrate v = .ok o' ∧ o.differentiate o' = .ok v := by
  obtain ⟨o', e, h⟩ := ho.integrate v
  refine ⟨o', e, ?_⟩
  obtain ⟨i, e1, hi⟩ := ho.inverse
  obtain ⟨p, A', i', e2, hp, _, _, _⟩ := Ori.Rep.mul (Ori.new false) h hi
  rw [mul_assoc, ho.rot.orth', mul_one] at hp
  simp [Ori.differentiate, ho.check, e1, Ori.product, e2, hp.toRotationVector_vecRot h0 h1]

/-- Objects to which C47 applies. -/
example : (Ori.ofQuat ⟨0, 1, 0, 0⟩).Rep !![1, 0, 0; 0, -1, 0; 0, 0, -1] ∧ (Ori.ofMat 1).Rep 1 := by
  refine ⟨Ori.rep_q (by simp [Quat.normSq]) ?_, Ori.rep_m IsRot.one⟩
  apply mext3; intro i j; fin_cases i <;> fin_cases j <;> simp [Quat.toMat] <;> norm_num

end StateObs.Kine
