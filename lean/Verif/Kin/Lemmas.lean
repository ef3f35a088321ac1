import Verif.Kin.Spec
/-!
# Helper lemmas on `Kinematics`: composition, inverse
-/

namespace StateObs.Kine
open StateObs Matrix Rot

theorem Item.isSet {i : CItem V3} {x : Option V3} (h : Item i x) : i.isSet dbg = x.isSome := by
  cases x with
  | none => exact h
  | some x => rw [show i = _ from h]; rfl

theorem Item.read {i : CItem V3} {x : V3} (h : Item i (some x)) : i.read dbg = .ok x := by
  rw [show i = _ from h]; exact Ori.read_true x

theorem Item.assign (i : CItem V3) (x : V3) : Item (i.assign x) (some x) := rfl
theorem Item.reset (i : CItem V3) : Item i.reset none := rfl
theorem Item.new : Item (CItem.new true) none := rfl

theorem Item.inj {i : CItem V3} {x y : Option V3} (h : Item i x) (h' : Item i y) : x = y := by
  cases x <;> cases y <;> simp only [Item] at h h'
  · rfl
  · rw [h'] at h; cases h
  · rw [h] at h'; cases h'
  · rw [h] at h'; cases h'; rfl

theorem Holds.isSet {o : Ori} {R : Option M3} (h : o.Holds R) : o.isSet = R.isSome := by
  cases R with
  | none => simp only [Ori.isSet, Ori.isMatrixSet, Ori.isQuaternionSet, CItem.isSet, dbg, CheckCfg.doCheck]; simp [h.1, h.2]
  | some R =>
    rcases h.cases with ⟨q, mv, rfl, -⟩ | ⟨qv, rfl, -⟩ | ⟨q, rfl, -⟩ <;>
      simp [Ori.isSet, Ori.isMatrixSet, Ori.isQuaternionSet, CItem.isSet, dbg, CheckCfg.doCheck]

theorem Holds.inj {o : Ori} {R S : Option M3} (h : o.Holds R) (h' : o.Holds S) : R = S := by
  have e := (Holds.isSet h).symm.trans (Holds.isSet h')
  cases R <;> cases S
  · rfl
  · cases e
  · cases e
  · rename_i R S
    rcases h.cases with ⟨q, mv, rfl, -, h2, -⟩ | ⟨qv, rfl, -⟩ | ⟨q, rfl, -, h2, -⟩
    · obtain ⟨q', e1, _, e2⟩ := h'.quat rfl
      cases e1; rw [← h2, e2]
    · exact h'.mat rfl
    · exact h'.mat rfl

theorem Kin.Has.inj {k : Kin} {a b : Value} (h : k.Has a) (h' : k.Has b) : a = b := by
  ext1
  · exact h.pos.inj h'.pos
  · exact Holds.inj h.ori h'.ori
  · exact h.linVel.inj h'.linVel
  · exact h.angVel.inj h'.angVel
  · exact h.linAcc.inj h'.linAcc
  · exact h.angAcc.inj h'.angAcc

namespace Kin

/-- The value of the product (helper: the properties characterise it). -/
def mulValue (a b : Value) : Value where
  pos := do
    let p2 ← b.pos
    let p1 ← a.pos
    let R ← a.ori
    some (R *ᵥ p2 + p1)
  ori := do
    let S ← b.ori
    let R ← a.ori
    some (R * S)
  linVel := do
    let p2 ← b.pos
    let _ ← a.pos
    let v2 ← b.linVel
    let v1 ← a.linVel
    let w1 ← a.angVel
    let R ← a.ori
    some (w1 ⨯₃ (R *ᵥ p2) + R *ᵥ v2 + v1)
  angVel := do
    let _ ← b.ori
    let w2 ← b.angVel
    let w1 ← a.angVel
    let R ← a.ori
    some (R *ᵥ w2 + w1)
  linAcc := do
    let p2 ← b.pos
    let _ ← a.pos
    let v2 ← b.linVel
    let _ ← a.linVel
    let w1 ← a.angVel
    let a2 ← b.linAcc
    let a1 ← a.linAcc
    let b1 ← a.angAcc
    let R ← a.ori
    some (R *ᵥ a2 + b1 ⨯₃ (R *ᵥ p2) + w1 ⨯₃ (w1 ⨯₃ (R *ᵥ p2) + R *ᵥ v2 + R *ᵥ v2) + a1)
  angAcc := do
    let _ ← b.ori
    let w2 ← b.angVel
    let w1 ← a.angVel
    let b2 ← b.angAcc
    let b1 ← a.angAcc
    let R ← a.ori
    some (R *ᵥ b2 + w1 ⨯₃ (R *ᵥ w2) + b1)

/-- The value of the inverse (helper). -/
def invValue (a : Value) : Value where
  pos := do
    let R ← a.ori
    let p ← a.pos
    some (-(Rᵀ *ᵥ p))
  ori := a.ori.map transpose
  linVel := do
    let R ← a.ori
    let p ← a.pos
    let v ← a.linVel
    let w ← a.angVel
    some (Rᵀ *ᵥ (w ⨯₃ p - v))
  angVel := do
    let R ← a.ori
    let w ← a.angVel
    some (-(Rᵀ *ᵥ w))
  linAcc := do
    let R ← a.ori
    let p ← a.pos
    let v ← a.linVel
    let w ← a.angVel
    let x ← a.linAcc
    let b ← a.angAcc
    some (Rᵀ *ᵥ (w ⨯₃ ((2 : ℝ) • v - w ⨯₃ p) - x + b ⨯₃ p))
  angAcc := do
    let R ← a.ori
    let w ← a.angVel
    let b ← a.angAcc
    some (Rᵀ *ᵥ (w ⨯₃ w - b))

theorem Has.setOri {k : Kin} {a : Value} (h : k.Has a) {o : Ori} {R : M3} (e : a.ori = some R) (ho : o.Rep R) : Has { k with ori := o } a :=
  ⟨h.pos, by rw [e]; exact ho, h.linVel, h.angVel, h.linAcc, h.angAcc⟩

theorem productLinAcc_spec {k k1 k2 : Kin} {a b : Value} {R : M3} {w1 x xd s : V3} (h1 : k1.Has a) (h2 : k2.Has b) (hR : a.ori = some R)
    (hw : a.angVel = some w1) :
    ∃ k1' c, productLinAcc k k1 k2 x xd s = .ok ({ k with linAcc := c }, k1') ∧ k1'.Has a ∧
      Item c (do
        let a2 ← b.linAcc
        let a1 ← a.linAcc
        let b1 ← a.angAcc
        some (R *ᵥ a2 + b1 ⨯₃ x + w1 ⨯₃ (s + xd) + a1)) := by
  have r1 := h1.ori; rw [hR] at r1
  have hw1 := h1.angVel; rw [hw] at hw1
  have e1 := h1.linAcc; have e2 := h1.angAcc; have e3 := h2.linAcc
  have s1 := e1.isSet; have s2 := e2.isSet; have s3 := e3.isSet
  cases ha : b.linAcc <;> cases hb : a.linAcc <;> cases hc : a.angAcc <;> rw [ha] at e3 s3 <;> rw [hb] at e1 s1 <;> rw [hc] at e2 s2
  case some.some.some a2 a1 b1 =>
    obtain ⟨o, e, ho⟩ := Ori.Rep.rotate r1 a2
    exact ⟨{ k1 with ori := o }, _, by simp [productLinAcc, s1, s2, s3, e1.read, e2.read, e3.read, hw1.read, e]; rfl, h1.setOri hR ho, Item.assign _ _⟩
  all_goals exact ⟨k1, k.linAcc.reset, by simp [productLinAcc, s1, s2, s3], h1, Item.reset _⟩

theorem productLinVel_spec {k k1 k2 : Kin} {a b : Value} {R : M3} {x : V3} (h1 : k1.Has a) (h2 : k2.Has b) (hR : a.ori = some R) :
    ∃ k1' u c, productLinVel k k1 k2 x = .ok ({ k with linVel := u, linAcc := c }, k1') ∧ k1'.Has a ∧
      Item u (do
        let v2 ← b.linVel
        let v1 ← a.linVel
        let w1 ← a.angVel
        some (w1 ⨯₃ x + R *ᵥ v2 + v1)) ∧
      Item c (do
        let v2 ← b.linVel
        let _ ← a.linVel
        let w1 ← a.angVel
        let a2 ← b.linAcc
        let a1 ← a.linAcc
        let b1 ← a.angAcc
        some (R *ᵥ a2 + b1 ⨯₃ x + w1 ⨯₃ (w1 ⨯₃ x + R *ᵥ v2 + R *ᵥ v2) + a1)) := by
  have r1 := h1.ori; rw [hR] at r1
  have e1 := h1.linVel; have e2 := h1.angVel; have e3 := h2.linVel
  have s1 := e1.isSet; have s2 := e2.isSet; have s3 := e3.isSet
  cases ha : b.linVel <;> cases hb : a.linVel <;> cases hc : a.angVel <;> rw [ha] at e3 s3 <;> rw [hb] at e1 s1 <;> rw [hc] at e2 s2
  case some.some.some v2 v1 w1 =>
    obtain ⟨o, e, ho⟩ := Ori.Rep.rotate r1 v2
    obtain ⟨k1', c, e', h', hc'⟩ := productLinAcc_spec (k := k) (x := x) (xd := R *ᵥ v2) (s := w1 ⨯₃ x + R *ᵥ v2) (h1.setOri hR ho) h2 hR hc
    exact ⟨k1', _, c, by simp [productLinVel, s1, s2, s3, e1.read, e2.read, e3.read, e, e']; rfl, h', Item.assign _ _, hc'⟩
  all_goals exact ⟨k1, k.linVel.reset, k.linAcc.reset, by simp [productLinVel, s1, s2, s3], h1, Item.reset _, Item.reset _⟩

theorem productLin_spec {k k1 k2 : Kin} {a b : Value} {R : M3} (h1 : k1.Has a) (h2 : k2.Has b) (hR : a.ori = some R) :
    ∃ k1' p u c, productLin k k1 k2 = .ok ({ k with pos := p, linVel := u, linAcc := c }, k1') ∧ k1'.Has a ∧
      Item p (mulValue a b).pos ∧ Item u (mulValue a b).linVel ∧ Item c (mulValue a b).linAcc := by
  have r1 := h1.ori; rw [hR] at r1
  have e1 := h1.pos; have e3 := h2.pos
  have s1 := e1.isSet; have s3 := e3.isSet
  cases ha : b.pos <;> cases hb : a.pos <;> rw [ha] at e3 s3 <;> rw [hb] at e1 s1
  case some.some p2 p1 =>
    obtain ⟨o, e, ho⟩ := Ori.Rep.rotate r1 p2
    obtain ⟨k1', u, c, e', h', hu', hc'⟩ := productLinVel_spec (k := k) (x := R *ᵥ p2) (h1.setOri hR ho) h2 hR
    refine ⟨k1', _, u, c, by simp [productLin, s1, s3, e1.read, e3.read, e, e']; rfl, h', ?_, ?_, ?_⟩
    · simp only [mulValue, ha, hb, hR]; exact Item.assign _ _
    · simpa only [mulValue, ha, hb, hR, Option.bind_eq_bind, Option.bind_some] using hu'
    · simpa only [mulValue, ha, hb, hR, Option.bind_eq_bind, Option.bind_some] using hc'
  all_goals
    refine ⟨k1, k.pos.reset, k.linVel.reset, k.linAcc.reset, by simp [productLin, s1, s3], h1, ?_, ?_, ?_⟩ <;>
      simp only [mulValue, ha, hb, hR, Option.bind_eq_bind, Option.bind_none, Option.bind_some] <;> exact Item.reset _

theorem productAngAcc_spec {k k1 k2 : Kin} {a b : Value} {R : M3} {w1 y : V3} (h1 : k1.Has a) (h2 : k2.Has b) (hR : a.ori = some R)
    (hw : a.angVel = some w1) :
    ∃ k1' c, productAngAcc k k1 k2 y = .ok ({ k with angAcc := c }, k1') ∧ k1'.Has a ∧
      Item c (do
        let b2 ← b.angAcc
        let b1 ← a.angAcc
        some (R *ᵥ b2 + w1 ⨯₃ y + b1)) := by
  have r1 := h1.ori; rw [hR] at r1
  have hw1 := h1.angVel; rw [hw] at hw1
  have e1 := h1.angAcc; have e3 := h2.angAcc
  have s1 := e1.isSet; have s3 := e3.isSet
  cases ha : b.angAcc <;> cases hb : a.angAcc <;> rw [ha] at e3 s3 <;> rw [hb] at e1 s1
  case some.some b2 b1 =>
    obtain ⟨o, e, ho⟩ := Ori.Rep.rotate r1 b2
    exact ⟨{ k1 with ori := o }, _, by simp [productAngAcc, s1, s3, e1.read, e3.read, hw1.read, e]; rfl, h1.setOri hR ho, Item.assign _ _⟩
  all_goals exact ⟨k1, k.angAcc.reset, by simp [productAngAcc, s1, s3], h1, Item.reset _⟩

theorem productAngVel_spec {k k1 k2 : Kin} {a b : Value} {R : M3} (h1 : k1.Has a) (h2 : k2.Has b) (hR : a.ori = some R) :
    ∃ k1' u c, productAngVel k k1 k2 = .ok ({ k with angVel := u, angAcc := c }, k1') ∧ k1'.Has a ∧
      Item u (do
        let w2 ← b.angVel
        let w1 ← a.angVel
        some (R *ᵥ w2 + w1)) ∧
      Item c (do
        let w2 ← b.angVel
        let w1 ← a.angVel
        let b2 ← b.angAcc
        let b1 ← a.angAcc
        some (R *ᵥ b2 + w1 ⨯₃ (R *ᵥ w2) + b1)) := by
  have r1 := h1.ori; rw [hR] at r1
  have e1 := h1.angVel; have e3 := h2.angVel
  have s1 := e1.isSet; have s3 := e3.isSet
  cases ha : b.angVel <;> cases hb : a.angVel <;> rw [ha] at e3 s3 <;> rw [hb] at e1 s1
  case some.some w2 w1 =>
    obtain ⟨o, e, ho⟩ := Ori.Rep.rotate r1 w2
    obtain ⟨k1', c, e', h', hc'⟩ := productAngAcc_spec (k := k) (y := R *ᵥ w2) (h1.setOri hR ho) h2 hR hb
    exact ⟨k1', _, c, by simp [productAngVel, s1, s3, e1.read, e3.read, e, e']; rfl, h', Item.assign _ _, hc'⟩
  all_goals exact ⟨k1, k.angVel.reset, k.angAcc.reset, by simp [productAngVel, s1, s3], h1, Item.reset _, Item.reset _⟩

theorem productAng_spec {k k1 k2 : Kin} {a b : Value} {R : M3} (h1 : k1.Has a) (h2 : k2.Has b) (hR : a.ori = some R) :
    ∃ k1' k2' o u c, productAng k k1 k2 = .ok ({ k with ori := o, angVel := u, angAcc := c }, k1', k2') ∧ k1'.Has a ∧ k2'.Has b ∧
      o.Holds (mulValue a b).ori ∧ Item u (mulValue a b).angVel ∧ Item c (mulValue a b).angAcc := by
  have r1 := h1.ori; rw [hR] at r1
  have e3 := h2.ori
  have s3 := Holds.isSet e3
  cases ha : b.ori <;> rw [ha] at e3 s3
  case some S =>
    obtain ⟨o, o1, o2, e, ho, ho1, ho2, -⟩ := Ori.Rep.mul k.ori r1 e3
    obtain ⟨k1', u, c, e', h', hu', hc'⟩ := productAngVel_spec (k := { k with ori := o }) (h1.setOri hR ho1) (h2.setOri ha ho2) hR
    refine ⟨k1', { k2 with ori := o2 }, o, u, c, by simp [productAng, s3, e, e'], h', h2.setOri ha ho2, ?_, ?_, ?_⟩
    · simp only [mulValue, ha, hR]; exact ho
    · simpa only [mulValue, ha, hR, Option.bind_eq_bind, Option.bind_some] using hu'
    · simpa only [mulValue, ha, hR, Option.bind_eq_bind, Option.bind_some] using hc'
  case none =>
    refine ⟨k1, k2, k.ori.reset, k.angVel.reset, k.angAcc.reset, by simp [productAng, s3], h1, h2, ?_, ?_, ?_⟩ <;>
      simp only [mulValue, ha, hR, Option.bind_eq_bind, Option.bind_none, Option.bind_some]
    · exact ⟨rfl, rfl⟩
    · exact Item.reset _
    · exact Item.reset _

theorem product_spec {k k1 k2 : Kin} {a b : Value} (h1 : k1.Has a) (h2 : k2.Has b) (hR : a.ori.isSome = true)
    (hs : b.pos.isSome = true ∨ b.ori.isSome = true) :
    ∃ k' k1' k2', setToProductNoAlias k k1 k2 = .ok (k', k1', k2') ∧ k'.Has (mulValue a b) ∧ k1'.Has a ∧ k2'.Has b := by
  obtain ⟨R, hR'⟩ := Option.isSome_iff_exists.1 hR
  obtain ⟨k1', p, u, c, e, h1', hp, hu, hc⟩ := productLin_spec (k := k) h1 h2 hR'
  obtain ⟨k1'', k2', o, x, y, e', h1'', h2', ho, hx, hy⟩ := productAng_spec (k := { k with pos := p, linVel := u, linAcc := c }) h1' h2 hR'
  refine ⟨⟨p, o, u, x, c, y⟩, k1'', k2', ?_, ⟨hp, ho, hu, hx, hc, hy⟩, h1'', h2'⟩
  have : (b.pos.isSome || b.ori.isSome) = true := by simpa using hs
  simp [setToProductNoAlias, Holds.isSet h1.ori, Holds.isSet h2.ori, h2.pos.isSet, hR, this, e, e']

theorem product_fails {k k1 k2 : Kin} {a b : Value} (h1 : k1.Has a) (h2 : k2.Has b) (h : a.ori = none ∨ (b.pos = none ∧ b.ori = none)) :
    setToProductNoAlias k k1 k2 = .assertFail := by
  rcases h with h | ⟨h, h'⟩
  · simp [setToProductNoAlias, Holds.isSet h1.ori, h]
  · cases ho : a.ori <;> simp [setToProductNoAlias, Holds.isSet h1.ori, Holds.isSet h2.ori, h2.pos.isSet, h, h', ho]

/-! ## The inverse -/

theorem inverseAng_spec {k : Kin} {a : Value} {R : M3} {o : Ori} (h : k.Has a) (hR : a.ori = some R) (ho : o.Rep Rᵀ) :
    ∃ o' u c, inverseAng k { new with ori := o } = .ok { new with ori := o', angVel := u, angAcc := c } ∧ o'.Rep Rᵀ ∧
      Item u (invValue a).angVel ∧ Item c (invValue a).angAcc := by
  have e1 := h.angVel; have e2 := h.angAcc
  have s1 := e1.isSet; have s2 := e2.isSet
  cases hw : a.angVel <;> rw [hw] at e1 s1
  case none =>
    refine ⟨o, CItem.new true, CItem.new true, by simp [inverseAng, s1]; exact ⟨rfl, rfl⟩, ho, ?_, ?_⟩ <;>
      simp only [invValue, hw, hR, Option.bind_eq_bind, Option.bind_none, Option.bind_some] <;> exact Item.new
  case some w =>
    obtain ⟨o1, q1, r1⟩ := ho.rotate w
    cases hb : a.angAcc <;> rw [hb] at e2 s2
    case none =>
      refine ⟨o1, _, CItem.new true, by simp [inverseAng, inverseAngAcc, s1, s2, e1.read, q1]; exact ⟨rfl, rfl⟩, r1, ?_, ?_⟩ <;>
        simp only [invValue, hw, hb, hR, Option.bind_eq_bind, Option.bind_none, Option.bind_some]
      · exact Item.assign _ _
      · exact Item.new
    case some b =>
      obtain ⟨o2, q2, r2⟩ := r1.rotate (w ⨯₃ w - b)
      refine ⟨o2, _, _, by simp only [inverseAng, inverseAngAcc, s1, s2, e1.read, e2.read, q1, q2, Option.isSome_some, if_true, Res.ok_bind]; rfl, r2, ?_, ?_⟩ <;>
        simp only [invValue, hw, hb, hR, Option.bind_eq_bind, Option.bind_none, Option.bind_some]
      · exact Item.assign _ _
      · exact Item.assign _ _

theorem inverseLin_spec {k i : Kin} {a : Value} {R : M3} (h : k.Has a) (hR : a.ori = some R) (ho : i.ori.Rep Rᵀ) (hp : Item i.pos none)
    (hv : Item i.linVel none) (ha : Item i.linAcc none) :
    ∃ o' p u c, inverseLin k i = .ok { i with ori := o', pos := p, linVel := u, linAcc := c } ∧ o'.Rep Rᵀ ∧
      Item p (invValue a).pos ∧ Item u (invValue a).linVel ∧ Item c (invValue a).linAcc := by
  have e1 := h.pos; have e2 := h.linVel; have e3 := h.angVel; have e4 := h.linAcc; have e5 := h.angAcc
  have s1 := e1.isSet; have s2 := e2.isSet; have s3 := e3.isSet; have s4 := e4.isSet; have s5 := e5.isSet
  cases hp1 : a.pos <;> rw [hp1] at e1 s1
  case none =>
    refine ⟨i.ori, i.pos, i.linVel, i.linAcc, by simp [inverseLin, s1], ho, ?_, ?_, ?_⟩ <;>
      simp only [invValue, hp1, hR, Option.bind_eq_bind, Option.bind_none, Option.bind_some] <;> assumption
  case some p =>
    obtain ⟨o1, q1, r1⟩ := ho.rotate p
    cases hv1 : a.linVel <;> cases hw1 : a.angVel <;> rw [hv1] at e2 s2 <;> rw [hw1] at e3 s3
    case some.some v w =>
      obtain ⟨o2, q2, r2⟩ := r1.rotate (w ⨯₃ p - v)
      cases ha1 : a.linAcc <;> cases hb1 : a.angAcc <;> rw [ha1] at e4 s4 <;> rw [hb1] at e5 s5
      case some.some x b =>
        obtain ⟨o3, q3, r3⟩ := r2.rotate (w ⨯₃ ((2 : ℝ) • v - w ⨯₃ p) - x + b ⨯₃ p)
        refine ⟨o3, _, _, _, by simp only [inverseLin, inverseLinVel, inverseLinAcc, s1, s2, s3, s4, s5, e1.read, e2.read, e3.read, e4.read, e5.read, q1, q2,
          q3, Option.isSome_some, if_true, Res.ok_bind, Bool.and_self]; rfl, r3, ?_, ?_, ?_⟩ <;>
          simp only [invValue, hp1, hv1, hw1, ha1, hb1, hR, Option.bind_eq_bind, Option.bind_none, Option.bind_some] <;> exact Item.assign _ _
      all_goals
        refine ⟨o2, _, _, i.linAcc, by simp only [inverseLin, inverseLinVel, inverseLinAcc, s1, s2, s3, s4, s5, e1.read, e2.read, e3.read, q1, q2,
          Option.isSome_some, Option.isSome_none, if_true, Res.ok_bind, Bool.and_self, Bool.and_false, Bool.false_and, Bool.false_eq_true, if_false]; rfl, r2, ?_, ?_, ?_⟩ <;>
          simp only [invValue, hp1, hv1, hw1, ha1, hb1, hR, Option.bind_eq_bind, Option.bind_none, Option.bind_some] <;>
          first | exact Item.assign _ _ | exact ha
    all_goals
      refine ⟨o1, _, i.linVel, i.linAcc, by simp only [inverseLin, inverseLinVel, s1, s2, s3, e1.read, q1,
        Option.isSome_some, Option.isSome_none, if_true, Res.ok_bind, Bool.and_self, Bool.and_false, Bool.false_and, Bool.false_eq_true, if_false]; rfl, r1, ?_, ?_, ?_⟩ <;>
        simp only [invValue, hp1, hv1, hw1, hR, Option.bind_eq_bind, Option.bind_none, Option.bind_some] <;>
        first | exact Item.assign _ _ | exact ha | exact hv

theorem inverse_spec {k : Kin} {a : Value} (h : k.Has a) (hR : a.ori.isSome = true) : ∃ i, k.getInverse = .ok i ∧ i.Has (invValue a) := by
  obtain ⟨R, hR'⟩ := Option.isSome_iff_exists.1 hR
  have r1 := h.ori; rw [hR'] at r1
  obtain ⟨o, e, ho⟩ := Ori.Rep.inverse r1
  obtain ⟨o1, u, c, e1, ho1, hu, hc⟩ := inverseAng_spec h hR' ho
  obtain ⟨o2, p, v, x, e2, ho2, hp, hv, hx⟩ := inverseLin_spec (i := { new with ori := o1, angVel := u, angAcc := c }) h hR' ho1 Item.new Item.new Item.new
  refine ⟨⟨p, o2, v, u, x, c⟩, by simp only [getInverse, Holds.isSet h.ori, hR, Res.assert_true, Res.ok_bind, e, e1, e2], ⟨hp, ?_, hv, hu, hx, hc⟩⟩
  simp only [invValue, hR', Option.map_some]; exact ho2

/-! ## Integration -/

/-- Position or rotation vector gained in `dt` (helper). -/
noncomputable def gain (v a : Option V3) (dt : ℝ) : V3 :=
  match v, a with
  | some v, some a => dt • v + (dt * dt / 2) • a
  | some v, none => dt • v
  | none, _ => 0

/-- Velocity after `dt` (helper). -/
noncomputable def velAfter (v a : Option V3) (dt : ℝ) : Option V3 :=
  match v, a with
  | some v, some a => some (v + dt • a)
  | v, _ => v

/-- The value after `integrate` (helper). -/
noncomputable def intValue (a : Value) (dt : ℝ) : Value where
  pos := a.pos.map (· + gain a.linVel a.linAcc dt)
  ori := a.ori.map (vecRot (gain a.angVel a.angAcc dt) * ·)
  linVel := velAfter a.linVel a.linAcc dt
  angVel := velAfter a.angVel a.angAcc dt
  linAcc := a.linAcc
  angAcc := a.angAcc

theorem vecRot_zero : vecRot 0 = 1 := by
  rw [vecRot, nrm_zero, if_pos (by norm_num)]

theorem oriStep {o : Ori} {R : Option M3} (h : o.Holds R) (v : V3) :
    ∃ o', integrateOri o v = .ok o' ∧ o'.Holds (R.map (vecRot v * ·)) := by
  cases R with
  | none => exact ⟨o, by simp [integrateOri, Holds.isSet h], h⟩
  | some R =>
    obtain ⟨o', e, h'⟩ := Ori.Rep.integrate h v
    exact ⟨o', by simp [integrateOri, Holds.isSet h, e], h'⟩

theorem posStep {i : CItem V3} {x : Option V3} (h : Item i x) (v : V3) :
    ∃ j, integratePos i v = .ok j ∧ Item j (x.map (· + v)) := by
  cases x with
  | none => exact ⟨i, by simp [integratePos, h.isSet], h⟩
  | some x => exact ⟨i.assign (x + v), by simp [integratePos, h.isSet, h.read], rfl⟩

theorem integrate_spec {k : Kin} {a : Value} (h : k.Has a) (dt : ℝ) : ∃ k', k.integrate dt = .ok k' ∧ k'.Has (intValue a dt) := by
  have ang : ∃ o w, k.integrateAng dt = .ok { k with ori := o, angVel := w } ∧ o.Holds (intValue a dt).ori ∧ Item w (intValue a dt).angVel := by
    have e1 := h.angVel; have e2 := h.angAcc
    have s1 := e1.isSet; have s2 := e2.isSet
    cases hw : a.angVel <;> cases hb : a.angAcc <;> rw [hw] at e1 s1 <;> rw [hb] at e2 s2
    case some.some w b =>
      obtain ⟨o, e, ho⟩ := oriStep h.ori (dt • w + (dt * dt / 2) • b)
      exact ⟨o, _, by simp [integrateAng, s1, s2, e1.read, e2.read, e]; rfl, by simpa [intValue, hw, hb, gain] using ho,
        by simp only [intValue, hw, hb, velAfter]; exact Item.assign _ _⟩
    case some.none w =>
      obtain ⟨o, e, ho⟩ := oriStep h.ori (dt • w)
      exact ⟨o, k.angVel, by simp [integrateAng, s1, s2, e1.read, e], by simpa [intValue, hw, hb, gain] using ho,
        by simp only [intValue, hw, hb, velAfter]; exact e1⟩
    all_goals
      refine ⟨k.ori, k.angVel, by simp [integrateAng, s1], ?_, by simp only [intValue, hw, hb, velAfter]; exact e1⟩
      simp only [intValue, hw, hb, gain, vecRot_zero, one_mul]
      convert! h.ori using 1
      cases a.ori <;> rfl
  obtain ⟨o, w, e, ho, hw⟩ := ang
  have e1 := h.linVel; have e2 := h.linAcc
  have s1 := e1.isSet; have s2 := e2.isSet
  cases hv : a.linVel <;> cases hb : a.linAcc <;> rw [hv] at e1 s1 <;> rw [hb] at e2 s2
  case some.some v b =>
    obtain ⟨p, e', hp⟩ := posStep h.pos (dt • v + (dt * dt / 2) • b)
    refine ⟨⟨p, o, k.linVel.assign (v + dt • b), w, k.linAcc, k.angAcc⟩, ?_, ?_, ho, ?_, hw, ?_, h.angAcc⟩
    · simp only [integrate, e, Res.ok_bind, integrateLin, s1, s2, e1.read, e2.read, Option.isSome_some, if_true, e']
    · simpa [intValue, hv, hb, gain] using hp
    · simp only [intValue, hv, hb, velAfter]; exact Item.assign _ _
    · simpa only [intValue, hb] using e2
  case some.none v =>
    obtain ⟨p, e', hp⟩ := posStep h.pos (dt • v)
    refine ⟨⟨p, o, k.linVel, w, k.linAcc, k.angAcc⟩, ?_, ?_, ho, ?_, hw, ?_, h.angAcc⟩
    · simp only [integrate, e, Res.ok_bind, integrateLin, s1, s2, e1.read, Option.isSome_some, Option.isSome_none, Bool.false_eq_true, if_true, if_false, e']
    · simpa [intValue, hv, hb, gain] using hp
    · simp only [intValue, hv, hb, velAfter]; exact e1
    · simpa only [intValue, hb] using e2
  all_goals
    refine ⟨⟨k.pos, o, k.linVel, w, k.linAcc, k.angAcc⟩, ?_, ?_, ho, ?_, hw, ?_, h.angAcc⟩
    · simp [integrate, e, integrateLin, s1]
    · simp only [intValue, hv, hb, gain, add_zero]
      convert! h.pos using 1
      cases a.pos <;> rfl
    · simp only [intValue, hv, hb, velAfter]; exact e1
    · simpa only [intValue, hb] using e2

end Kin
end StateObs.Kine
