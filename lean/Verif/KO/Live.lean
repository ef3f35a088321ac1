import Verif.KO.NewtonFalse
import Verif.KO.PackLemmas
import Verif.KO.InvLemmas
import Verif.Kin.VecProps
/-!
# When the dynamics, the measurement model and the arithmetic of the observer return
-/

namespace StateObs

theorem Res.foldlM_live {α β : Type} {f : β → α → Res β} (P : β → Prop) :
    ∀ (l : List α) (b : β), (∀ b, ∀ a ∈ l, P b → ∃ b', f b a = .ok b' ∧ P b') → P b → ∃ b', l.foldlM f b = .ok b' ∧ P b'
  | [], b, _, hb => ⟨b, rfl, hb⟩
  | a :: l, b, hf, hb => by
    obtain ⟨b1, e1, h1⟩ := hf b a (by simp) hb
    obtain ⟨b2, e2, h2⟩ := Res.foldlM_live P l b1 (fun b a ha => hf b a (by simp [ha])) h1
    exact ⟨b2, by rw [List.foldlM_cons, e1, Res.ok_bind, e2], h2⟩

namespace KO
open StateObs Matrix Rot Kine KF
open Observer

/-! ## Vectors -/

theorem seg_live {n i : ℕ} {v : DVec} (h : i + n ≤ v.size) : ∃ w, v.seg n i = .ok w := by
  rw [DVec.seg, dif_pos h]; exact ⟨_, rfl⟩

theorem setSeg_live {n i : ℕ} {v : DVec} (w : Fin n → ℝ) (h : i + n ≤ v.size) :
    ∃ v', v.setSeg n i w = .ok v' ∧ v'.size = v.size ∧ (∀ j, j < i ∨ i + n ≤ j → at1 v' j = at1 v j) ∧ ∀ j (hj : j < n), at1 v' (i + j) = w ⟨j, hj⟩ := by
  rw [DVec.setSeg, if_pos h]
  refine ⟨_, rfl, rfl, fun j hj => ?_, fun j hj => ?_⟩
  · unfold at1
    split_ifs with h1
    · dsimp only
      rw [dif_neg (by omega)]
    · rfl
  · unfold at1
    rw [dif_pos (by dsimp only; omega)]
    dsimp only
    rw [dif_pos (by omega)]
    congr 1
    ext
    simp

theorem setList_live {n i : ℕ} {v : DVec} {l : List ℝ} (hl : l.length = n) (h : i + n ≤ v.size) :
    ∃ v', v.setList n i l = .ok v' ∧ v'.size = v.size ∧ (∀ j, j < i ∨ i + n ≤ j → at1 v' j = at1 v j) ∧ ∀ j (hj : j < n), at1 v' (i + j) = l.getD j 0 := by
  rw [DVec.setList, dif_pos hl]
  obtain ⟨v', e, h1, h2, h3⟩ := setSeg_live (v := v) (i := i) (fun j => l.get (Fin.cast hl.symm j)) h
  refine ⟨v', e, h1, h2, fun j hj => ?_⟩
  rw [h3 j hj, List.getD_eq_getElem?_getD, List.getElem?_eq_getElem (by omega)]
  rfl

theorem addSeg_live {n i j : ℕ} {v t : DVec} (h : i + n ≤ v.size) (h' : j + n ≤ t.size) :
    ∃ v', v.addSeg n i t j = .ok v' ∧ v'.size = v.size ∧ ∀ k, k < i ∨ i + n ≤ k → at1 v' k = at1 v k := by
  obtain ⟨a, ea⟩ := seg_live h
  obtain ⟨b, eb⟩ := seg_live h'
  obtain ⟨v', e, h1, h2, -⟩ := setSeg_live (v := v) (i := i) (a + b) h
  exact ⟨v', by rw [DVec.addSeg, ea, Res.ok_bind, eb, Res.ok_bind, e], h1, h2⟩

theorem seg4_at1 {x : DVec} {i : ℕ} (h : i + 4 ≤ x.size) : ∃ q, x.seg 4 i = .ok q ∧ ∀ j : Fin 4, q j = at1 x (i + j) := by
  rw [DVec.seg, dif_pos h]
  refine ⟨_, rfl, fun j => ?_⟩
  rw [at1, dif_pos (by have := j.2; omega)]

/-- Four numbers from `i` on are a unit quaternion. -/
def UnitAt (x : DVec) (i : ℕ) : Prop := at1 x i ^ 2 + at1 x (i + 1) ^ 2 + at1 x (i + 2) ^ 2 + at1 x (i + 3) ^ 2 = 1

theorem UnitAt.same {x y : DVec} {i : ℕ} (h : UnitAt x i) (e : ∀ j, j < 4 → at1 y (i + j) = at1 x (i + j)) : UnitAt y i := by
  unfold UnitAt
  rw [e 1 (by omega), e 2 (by omega), e 3 (by omega), show at1 y i = at1 x i from e 0 (by omega)]
  exact h

/-- The integration of an orientation stored in a vector always returns; a unit quaternion stays one. -/
theorem integrateSeg_live {s x t : DVec} {i j : ℕ} (h : i + 4 ≤ s.size) (hx : i + 4 ≤ x.size) (ht : j + 3 ≤ t.size) :
    ∃ s', integrateSeg s x i t j = .ok s' ∧ s'.size = s.size ∧ (∀ k, k < i ∨ i + 4 ≤ k → at1 s' k = at1 s k) ∧ (UnitAt x i → UnitAt s' i) := by
  obtain ⟨q, eq, hq⟩ := seg4_at1 hx
  obtain ⟨v, ev⟩ := seg_live ht
  obtain ⟨s', e, h1, h2, h3⟩ := setSeg_live (v := s) (i := i)
    ![(rotationVectorToQuaternion v * (⟨q 3, q 0, q 1, q 2⟩ : Quat)).x, (rotationVectorToQuaternion v * (⟨q 3, q 0, q 1, q 2⟩ : Quat)).y,
      (rotationVectorToQuaternion v * (⟨q 3, q 0, q 1, q 2⟩ : Quat)).z, (rotationVectorToQuaternion v * (⟨q 3, q 0, q 1, q 2⟩ : Quat)).w] h
  refine ⟨s', ?_, h1, h2, fun hu => ?_⟩
  · rw [integrateSeg, eq, Res.ok_bind, ev, Res.ok_bind]
    exact e
  · have hn := Quat.normSq_mul (rotationVectorToQuaternion v) ⟨q 3, q 0, q 1, q 2⟩
    have h1 := rvq_unit v
    have h4 : Quat.normSq ⟨q 3, q 0, q 1, q 2⟩ = 1 := by
      rw [Quat.normSq]
      simp only [hq]
      have := hu
      unfold UnitAt at this
      simp only [Fin.val_zero, Fin.val_one, Fin.val_two, add_zero, show ((3 : Fin 4) : ℕ) = 3 from rfl]
      linarith
    rw [h1, h4, one_mul, Quat.normSq] at hn
    unfold UnitAt
    have a0 := h3 0 (by omega)
    have a1 := h3 1 (by omega)
    have a2 := h3 2 (by omega)
    have a3 := h3 3 (by omega)
    rw [add_zero] at a0
    rw [a0, a1, a2, a3]
    show (rotationVectorToQuaternion v * (⟨q 3, q 0, q 1, q 2⟩ : Quat)).x ^ 2 + (rotationVectorToQuaternion v * (⟨q 3, q 0, q 1, q 2⟩ : Quat)).y ^ 2 +
      (rotationVectorToQuaternion v * (⟨q 3, q 0, q 1, q 2⟩ : Quat)).z ^ 2 + (rotationVectorToQuaternion v * (⟨q 3, q 0, q 1, q 2⟩ : Quat)).w ^ 2 = 1
    linarith

theorem bufSet_live {n i : ℕ} {b : Buf} (w : Fin n → ℝ) (h : i + n ≤ b.size) : ∃ b', b.setSeg n i w = .ok b' ∧ b'.size = b.size ∧
    ((∀ j, (b.val j).isSome) → ∀ j, (b'.val j).isSome) := by
  rw [Buf.setSeg, if_pos h]
  refine ⟨_, rfl, rfl, fun hb j => ?_⟩
  dsimp only
  split_ifs
  · rfl
  · exact hb j

theorem diffSeg_live {n i j : ℕ} {d : Buf} {v w : DVec} (h : i + n ≤ d.size) (hv : j + n ≤ v.size) (hw : j + n ≤ w.size) :
    ∃ d', diffSeg n d i v w j = .ok d' ∧ d'.size = d.size ∧ ((∀ j, (d.val j).isSome) → ∀ j, (d'.val j).isSome) := by
  obtain ⟨a, ea⟩ := seg_live hv
  obtain ⟨b, eb⟩ := seg_live hw
  obtain ⟨d', e, h1, h2⟩ := bufSet_live (b := d) (i := i) (a - b) h
  exact ⟨d', by rw [diffSeg, ea, Res.ok_bind, eb, Res.ok_bind, e], h1, h2⟩

theorem differentiateSeg_live {i j : ℕ} {d : Buf} {v w : DVec} (h : j + 3 ≤ d.size) (hv : i + 4 ≤ v.size) (hw : i + 4 ≤ w.size) :
    ∃ d', differentiateSeg d v w i j = .ok d' ∧ d'.size = d.size ∧ ((∀ j, (d.val j).isSome) → ∀ j, (d'.val j).isSome) := by
  obtain ⟨a, ea⟩ := seg_live hv
  obtain ⟨b, eb⟩ := seg_live hw
  obtain ⟨x, ex⟩ : ∃ x, ((Ori.new true).fromVector4 b).differentiate ((Ori.new true).fromVector4 a) = .ok x := by
    exact ⟨_, rfl⟩
  obtain ⟨d', e, h1, h2⟩ := bufSet_live (b := d) (i := j) x h
  exact ⟨d', by rw [differentiateSeg, ea, Res.ok_bind, eb, Res.ok_bind, ex, Res.ok_bind, e], h1, h2⟩

/-! ## What is asked of the observer -/

/-- The kinematics of a contact, a set one: position, orientation and velocities are known. -/
def Moving (k : Kin) : Prop := ∃ p R v w x y, k.Has ⟨some p, some R, some v, some w, x, y⟩

/-- A set contact that the dynamics can use. -/
structure ContactReady (nc ni : ℕ) (c : Contact) : Prop where
  idx : ∃ a b, c.index = .ok a ∧ c.indexTangent = .ok b ∧ 19 ≤ a ∧ a + 13 ≤ 19 + ni * 3 + nc * 13 ∧ b + 12 ≤ 18 + ni * 3 + 12 * nc
  kin : Moving c.localKine
  visco : ∃ v, c.visco = some v

/-- An observer whose dynamics can be evaluated. -/
structure Ready (nc ni : ℕ) (o : Observer) : Prop where
  pos : 0 < ni
  maxC : o.maxContacts = nc
  maxI : o.maxIMU = ni
  imuLen : o.imus.length = ni
  con : ∀ c ∈ o.contacts, c.isSet = true → ContactReady nc ni c
  body : ∃ b, o.body = .ok b ∧ o.mass ≠ 0 ∧ (inertiaAtOrigin b o.mass).det ≠ 0

/-- A state vector with a unit quaternion for the orientation of the robot. -/
structure GoodState (nc ni : ℕ) (x : DVec) : Prop where
  size : x.size = 19 + ni * 3 + nc * 13
  quat : UnitAt x 3

variable {nc ni : ℕ} {o : Observer}

theorem Ready.unmodeled (h : Ready nc ni o) : o.unmodeledWrenchIndex = .ok (13 + 3 * ni) := by
  have := h.pos
  simp [unmodeledWrenchIndex, gyroBiasIndex, angVelIndex, linVelIndex, oriIndex, posIndex, h.maxI, this]

theorem Ready.unmodeledT (h : Ready nc ni o) : o.unmodeledWrenchIndexTangent = .ok (12 + 3 * ni) := by
  have := h.pos
  simp [unmodeledWrenchIndexTangent, gyroBiasIndexTangent, angVelIndexTangent, linVelIndexTangent, oriIndexTangent, posIndexTangent, h.maxI, this]

theorem Ready.gyro (h : Ready nc ni o) {i : ℕ} (hi : i < ni) : o.gyroBiasIndex i = .ok (13 + 3 * i) ∧ o.gyroBiasIndexTangent i = .ok (12 + 3 * i) := by
  simp [gyroBiasIndex, angVelIndex, linVelIndex, oriIndex, posIndex, gyroBiasIndexTangent, angVelIndexTangent, linVelIndexTangent, oriIndexTangent, posIndexTangent,
    h.maxI, hi]

/-! ## Arithmetic of the states -/

theorem stateSum_live (hr : Ready nc ni o) {x t : DVec} (hx : x.size = 19 + ni * 3 + nc * 13) (ht : t.size = 18 + ni * 3 + 12 * nc) :
    ∃ s, o.stateSum x t = .ok s ∧ s.size = 19 + ni * 3 + nc * 13 ∧ (UnitAt x 3 → UnitAt s 3) := by
  obtain ⟨s1, e1, z1, -⟩ := addSeg_live (n := 3) (i := posIndex) (j := posIndexTangent) (v := x) (t := t) (by simp [posIndex]; omega) (by simp [posIndexTangent]; omega)
  obtain ⟨s2, e2, z2, -, u2⟩ := integrateSeg_live (s := s1) (x := x) (i := oriIndex) (t := t) (j := oriIndexTangent) (by simp [oriIndex, posIndex]; omega) (by simp [oriIndex, posIndex]; omega)
    (by simp [oriIndexTangent, posIndexTangent]; omega)
  obtain ⟨s3, e3, z3, k3⟩ := addSeg_live (n := 6) (i := linVelIndex) (j := linVelIndexTangent) (v := s2) (t := t) (by simp [linVelIndex, oriIndex, posIndex]; omega)
    (by simp [linVelIndexTangent, oriIndexTangent, posIndexTangent]; omega)
  have u3 : UnitAt x 3 → UnitAt s3 3 := fun h => (u2 h).same fun j hj => k3 _ (by simp [linVelIndex, oriIndex, posIndex]; omega)
  let P := fun s : DVec => s.size = 19 + ni * 3 + nc * 13 ∧ (UnitAt x 3 → UnitAt s 3)
  have p3 : P s3 := ⟨by omega, u3⟩
  have g4 : ∃ s4, opt (o.withGyroBias) ((List.range o.imus.length).foldlM (sumGyro o t) s3) s3 = .ok s4 ∧ P s4 := by
    cases o.withGyroBias
    · exact ⟨s3, rfl, p3⟩
    · refine Res.foldlM_live P _ _ (fun b a ha hb => ?_) p3
      have ha' : a < ni := by simpa [hr.imuLen] using ha
      obtain ⟨i1, i2⟩ := hr.gyro ha'
      obtain ⟨b', e, z, k⟩ := addSeg_live (n := 3) (i := 13 + 3 * a) (j := 12 + 3 * a) (v := b) (t := t) (by have := hb.1; omega) (by omega)
      refine ⟨b', by rw [sumGyro, i1, Res.ok_bind, i2, Res.ok_bind, e], by rw [z]; exact hb.1, fun h => (hb.2 h).same fun j hj => k _ (by omega)⟩
  obtain ⟨s4, e4, p4⟩ := g4
  have g5 : ∃ s5, opt (o.withUnmodeledWrench) (o.sumWrench t s4) s4 = .ok s5 ∧ P s5 := by
    cases o.withUnmodeledWrench
    · exact ⟨s4, rfl, p4⟩
    · obtain ⟨b', e, z, k⟩ := addSeg_live (n := 6) (i := 13 + 3 * ni) (j := 12 + 3 * ni) (v := s4) (t := t) (by have := p4.1; omega) (by omega)
      refine ⟨b', by rw [opt, if_pos rfl, sumWrench, hr.unmodeled, Res.ok_bind, hr.unmodeledT, Res.ok_bind, e], by rw [z]; exact p4.1,
        fun h => (p4.2 h).same fun j hj => k _ (by omega)⟩
  obtain ⟨s5, e5, p5⟩ := g5
  have g6 : ∃ s6, o.contacts.foldlM (sumContact x t) s5 = .ok s6 ∧ P s6 := by
    refine Res.foldlM_live P _ _ (fun s c hc hs => ?_) p5
    unfold sumContact
    split_ifs with hset
    · obtain ⟨⟨a, b, ea, eb, h1, h2, h3⟩, -, -⟩ := hr.con c hc hset
      obtain ⟨t1, f1, z1, k1⟩ := addSeg_live (n := 3) (i := a) (j := b) (v := s) (t := t) (by have := hs.1; omega) (by omega)
      obtain ⟨t2, f2, z2, k2, -⟩ := integrateSeg_live (s := t1) (x := x) (i := a + 3) (t := t) (j := b + 3) (by have := hs.1; omega) (by omega) (by omega)
      obtain ⟨t3, f3, z3, k3⟩ := addSeg_live (n := 6) (i := a + 7) (j := b + 6) (v := t2) (t := t) (by have := hs.1; omega) (by omega)
      refine ⟨t3, by rw [ea, Res.ok_bind, eb, Res.ok_bind, f1, Res.ok_bind, f2, Res.ok_bind, f3], by have := hs.1; omega, fun h => (hs.2 h).same fun j hj => ?_⟩
      rw [k3 _ (by omega), k2 _ (by omega), k1 _ (by omega)]
    · exact ⟨s, rfl, hs⟩
  obtain ⟨s6, e6, p6⟩ := g6
  exact ⟨s6, by rw [stateSum, e1, Res.ok_bind, e2, Res.ok_bind, e3, Res.ok_bind, e4, Res.ok_bind, e5, Res.ok_bind, e6], p6.1, p6.2⟩

theorem GoodState.sum (hr : Ready nc ni o) {x t : DVec} (hx : GoodState nc ni x) (ht : t.size = 18 + ni * 3 + 12 * nc) :
    ∃ s, o.stateSum x t = .ok s ∧ GoodState nc ni s := by
  obtain ⟨s, e, h1, h2⟩ := stateSum_live hr hx.size ht
  exact ⟨s, e, h1, h2 hx.quat⟩

/-- With an output that has the size of the tangent space already, `stateDifference` always returns. -/
theorem stateDifference_live (hr : Ready nc ni o) {old x y : DVec} (ho : old.size = 18 + ni * 3 + 12 * nc) (hx : x.size = 19 + ni * 3 + nc * 13)
    (hy : y.size = 19 + ni * 3 + nc * 13) : ∃ d, o.stateDifference old x y = .ok d ∧ d.size = 18 + ni * 3 + 12 * nc := by
  let P := fun d : Buf => d.size = 18 + ni * 3 + 12 * nc ∧ ∀ j, (d.val j).isSome
  have hts : o.tangentSize = 18 + ni * 3 + 12 * nc := by rw [tangentSize, hr.maxI, hr.maxC]
  have p0 : P (Buf.resize old o.tangentSize) := by
    unfold Buf.resize
    rw [dif_pos (by omega)]
    exact ⟨hts, fun j => rfl⟩
  obtain ⟨d1, e1, z1, k1⟩ := diffSeg_live (n := 3) (i := posIndexTangent) (j := posIndex) (d := Buf.resize old o.tangentSize) (v := x) (w := y)
    (by have := p0.1; simp [posIndexTangent]; omega) (by simp [posIndex]; omega) (by simp [posIndex]; omega)
  obtain ⟨d2, e2, z2, k2⟩ := differentiateSeg_live (i := oriIndex) (j := oriIndexTangent) (d := d1) (v := x) (w := y)
    (by have := p0.1; simp [oriIndexTangent, posIndexTangent]; omega) (by simp [oriIndex, posIndex]; omega) (by simp [oriIndex, posIndex]; omega)
  obtain ⟨d3, e3, z3, k3⟩ := diffSeg_live (n := 6) (i := linVelIndexTangent) (j := linVelIndex) (d := d2) (v := x) (w := y)
    (by have := p0.1; simp [linVelIndexTangent, oriIndexTangent, posIndexTangent]; omega) (by simp [linVelIndex, oriIndex, posIndex]; omega)
    (by simp [linVelIndex, oriIndex, posIndex]; omega)
  have p3 : P d3 := ⟨by have := p0.1; omega, k3 (k2 (k1 p0.2))⟩
  have g4 : ∃ d4, opt (o.withGyroBias) ((List.range o.imus.length).foldlM (diffGyro o x y) d3) d3 = .ok d4 ∧ P d4 := by
    cases o.withGyroBias
    · exact ⟨d3, rfl, p3⟩
    · refine Res.foldlM_live P _ _ (fun b a ha hb => ?_) p3
      have ha' : a < ni := by simpa [hr.imuLen] using ha
      obtain ⟨i1, i2⟩ := hr.gyro ha'
      obtain ⟨b', e, z, k⟩ := diffSeg_live (n := 3) (i := 12 + 3 * a) (j := 13 + 3 * a) (d := b) (v := x) (w := y) (by have := hb.1; omega) (by omega) (by omega)
      exact ⟨b', by rw [diffGyro, i1, Res.ok_bind, i2, Res.ok_bind, e], by rw [z]; exact hb.1, k hb.2⟩
  obtain ⟨d4, e4, p4⟩ := g4
  have g5 : ∃ d5, opt (o.withUnmodeledWrench) (o.diffWrench x y d4) d4 = .ok d5 ∧ P d5 := by
    cases o.withUnmodeledWrench
    · exact ⟨d4, rfl, p4⟩
    · obtain ⟨b', e, z, k⟩ := diffSeg_live (n := 6) (i := 12 + 3 * ni) (j := 13 + 3 * ni) (d := d4) (v := x) (w := y) (by have := p4.1; omega) (by omega) (by omega)
      exact ⟨b', by rw [opt, if_pos rfl, diffWrench, hr.unmodeled, Res.ok_bind, hr.unmodeledT, Res.ok_bind, e], by rw [z]; exact p4.1, k p4.2⟩
  obtain ⟨d5, e5, p5⟩ := g5
  have g6 : ∃ d6, o.contacts.foldlM (diffContact x y) d5 = .ok d6 ∧ P d6 := by
    refine Res.foldlM_live P _ _ (fun s c hc hs => ?_) p5
    unfold diffContact
    split_ifs with hset
    · obtain ⟨⟨a, b, ea, eb, h1, h2, h3⟩, -, -⟩ := hr.con c hc hset
      obtain ⟨t1, f1, z1, k1⟩ := diffSeg_live (n := 3) (i := b) (j := a) (d := s) (v := x) (w := y) (by have := hs.1; omega) (by omega) (by omega)
      obtain ⟨t2, f2, z2, k2⟩ := differentiateSeg_live (i := a + 3) (j := b + 3) (d := t1) (v := x) (w := y) (by have := hs.1; omega) (by omega) (by omega)
      obtain ⟨t3, f3, z3, k3⟩ := diffSeg_live (n := 6) (i := b + 6) (j := a + 7) (d := t2) (v := x) (w := y) (by have := hs.1; omega) (by omega) (by omega)
      exact ⟨t3, by rw [ea, Res.ok_bind, eb, Res.ok_bind, f1, Res.ok_bind, f2, Res.ok_bind, f3], by have := hs.1; omega, k3 (k2 (k1 hs.2))⟩
    · exact ⟨s, rfl, hs⟩
  obtain ⟨d6, e6, p6⟩ := g6
  refine ⟨⟨d6.size, fun j => (d6.val j).getD 0⟩, ?_, p6.1⟩
  rw [stateDifference, e1, Res.ok_bind, e2, Res.ok_bind, e3, Res.ok_bind, e4, Res.ok_bind, e5, Res.ok_bind, e6, Res.ok_bind, Buf.done, if_pos p6.2]

/-! ## Dynamics -/

theorem addWrench_live (hr : Ready nc ni o) {x : DVec} (hx : x.size = 19 + ni * 3 + nc * 13) (w : V3 × V3) : ∃ w', o.addUnmodeledAndContactWrench x w = .ok w' := by
  obtain ⟨f, ef⟩ := seg_live (n := 3) (i := 13 + 3 * ni) (v := x) (by omega)
  obtain ⟨t, et⟩ := seg_live (n := 3) (i := 13 + 3 * ni + 3) (v := x) (by omega)
  have h : ∃ w', o.contacts.foldlM (addContactWrench x) (w.1 + f, w.2 + t) = .ok w' ∧ True := by
    refine Res.foldlM_live (fun _ => True) _ _ (fun s c hc _ => ?_) trivial
    unfold addContactWrench
    split_ifs with hset
    · obtain ⟨⟨a, b, ea, eb, h1, h2, h3⟩, ⟨p, R, v, w, y, z, hk⟩, -⟩ := hr.con c hc hset
      obtain ⟨f, ef⟩ := seg_live (n := 3) (i := a + 7) (v := x) (by omega)
      obtain ⟨t, et⟩ := seg_live (n := 3) (i := a + 7 + 3) (v := x) (by omega)
      obtain ⟨o1, e1, -⟩ := hk.ori.rotate f
      obtain ⟨o2, e2, -⟩ := hk.ori.rotate t
      have r1 : Contact.rotate c f = .ok (R *ᵥ f) := by rw [Contact.rotate, e1]; rfl
      have r2 : Contact.rotate c t = .ok (R *ᵥ t) := by rw [Contact.rotate, e2]; rfl
      exact ⟨_, by rw [ea, Res.ok_bind, ef, Res.ok_bind, r1, Res.ok_bind, et, Res.ok_bind, r2, Res.ok_bind, hk.pos.read, Res.ok_bind], trivial⟩
    · exact ⟨s, rfl, trivial⟩
  obtain ⟨w', e, -⟩ := h
  refine ⟨w', ?_⟩
  rw [addUnmodeledAndContactWrench, unmodeledTorqueIndex, hr.unmodeled, Res.ok_bind, ef, Res.ok_bind, Res.ok_bind, Res.ok_bind, et, Res.ok_bind, e]

theorem stateKine_live (hr : Ready nc ni o) {x : DVec} (hx : GoodState nc ni x) :
    ∃ k a, o.stateKine x = .ok k ∧ k.Has a ∧ a.Full := by
  obtain ⟨w, ew⟩ := addWrench_live hr hx.size (o.addForce, o.addTorque)
  obtain ⟨s, es⟩ := seg_live (n := 13) (i := kineIndex) (v := x) (by simp [kineIndex, hx.size]; omega)
  obtain ⟨b, hb, hm, hd⟩ := hr.body
  have hk := loaded_has Kin.new (x := x) hx.quat rfl rfl
  obtain ⟨a, α, k', ec, hk'⟩ := computeAccelerations_live (F := w.1) (M := w.2) hk hb hm hd
  refine ⟨{ k' with linAcc := k'.linAcc.assign a, angAcc := k'.angAcc.assign α }, ⟨_, _, _, _, some a, some α⟩, ?_,
    ⟨hk'.pos, hk'.ori, hk'.linVel, hk'.angVel, rfl, rfl⟩, ⟨_, _, _, _, _, _, rfl⟩⟩
  rw [stateKine, ew, Res.ok_bind, es, Res.ok_bind, fromVector_loaded _ es, Res.ok_bind, ec]
  rfl

theorem contactDynamics_live {c : Contact} {s : DVec × Kin} (hs : GoodState nc ni s.1 ∧ Moving s.2) (hc : c.isSet = true → ContactReady nc ni c) :
    ∃ s', contactDynamics s c = .ok s' ∧ GoodState nc ni s'.1 ∧ Moving s'.2 := by
  unfold contactDynamics
  split_ifs with hset
  · obtain ⟨⟨a, b, ea, eb, h1, h2, h3⟩, ⟨p, R, v, w, y, z, hk⟩, ⟨vv, hv⟩⟩ := hc hset
    obtain ⟨hx, ⟨p1, R1, v1, w1, y1, z1, hk1⟩⟩ := hs
    obtain ⟨of, ef, rf, -⟩ := hk.ori.fillMatrix
    have hlk := hk.setOri rfl rf
    have elk : Contact.filled c = .ok { c.localKine with ori := of } := by rw [Contact.filled, ef]; rfl
    obtain ⟨g, g1, g2, eg, hg, hg1, hg2⟩ := Kin.product_spec (k := Kin.new) hk1 hlk rfl (Or.inl rfl)
    obtain ⟨i, ei, hi⟩ := Kin.inverse_spec hg2 rfl
    obtain ⟨e, e1, e2, ee, he, he1, he2⟩ := Kin.product_spec (k := Kin.new) hg hi rfl (Or.inl rfl)
    obtain ⟨Rc, eR, hR⟩ := he1.ori.inverse
    obtain ⟨q, hq⟩ : ∃ q, e.pos.read dbg = .ok q := ⟨_, he.pos.read⟩
    obtain ⟨qd, hqd⟩ : ∃ q, e.linVel.read dbg = .ok q := ⟨_, he.linVel.read⟩
    obtain ⟨u, hu⟩ : ∃ q, e.angVel.read dbg = .ok q := ⟨_, he.angVel.read⟩
    obtain ⟨r, S, er, hr⟩ : ∃ r S, Rc.rotate (vv.linStiff *ᵥ q + vv.linDamp *ᵥ qd) = .ok r ∧ r.2.Rep S := by
      obtain ⟨f, fe, hf⟩ := hR.rotate (vv.linStiff *ᵥ q + vv.linDamp *ᵥ qd)
      exact ⟨_, _, fe, hf⟩
    obtain ⟨qt, eq⟩ : ∃ r, e.ori.toQuaternion = .ok r := by
      obtain ⟨qt, qo, eq, -⟩ := he.ori.toQuaternion
      exact ⟨_, eq⟩
    obtain ⟨r', er'⟩ : ∃ r', r.2.rotate ((0.5 : ℝ) • (vv.angStiff *ᵥ vectorComponent qt.1) + vv.angDamp *ᵥ u) = .ok r' := by
      obtain ⟨f, fe, hf⟩ := hr.rotate ((0.5 : ℝ) • (vv.angStiff *ᵥ vectorComponent qt.1) + vv.angDamp *ᵥ u)
      exact ⟨_, fe⟩
    obtain ⟨x1, ex1, sx1, kx1, -⟩ := setSeg_live (n := 3) (i := a + 7) (v := s.1) (-r.1) (by have := hx.size; omega)
    obtain ⟨x2, ex2, sx2, kx2, -⟩ := setSeg_live (n := 3) (i := a + 7 + 3) (v := x1) (-r'.1) (by have := hx.size; omega)
    refine ⟨(x2, g1), ?_, ⟨by rw [sx2, sx1]; exact hx.size, hx.quat.same fun j hj => ?_⟩, ⟨_, _, _, _, _, _, hg1⟩⟩
    · rw [elk, Res.ok_bind, hv, rd, Res.ok_bind, Kin.product, eg, Res.ok_bind]
      simp only [ei, Res.ok_bind, Kin.product, ee, eR, ea, hq, hqd, er, ex1, eq, hu, er', ex2]
    · rw [kx2 _ (by omega), kx1 _ (by omega)]
  · exact ⟨s, rfl, hs⟩

theorem stateDynamics_live (hr : Ready nc ni o) {x : DVec} (hx : GoodState nc ni x) : ∃ x', o.stateDynamics x = .ok x' ∧ GoodState nc ni x' := by
  obtain ⟨k, a, ek, hk, ⟨p, R, v, w, y, z, rfl⟩⟩ := stateKine_live hr hx
  obtain ⟨k1, e1, h1⟩ := Kin.integrate_spec hk o.dt
  obtain ⟨q, oq, eq, ho, hn, -⟩ := h1.ori.toVector4
  obtain ⟨c1, hc1⟩ : ∃ q, k1.pos.read dbg = .ok q := ⟨_, h1.pos.read⟩
  obtain ⟨c2, hc2⟩ : ∃ q, k1.linVel.read dbg = .ok q := ⟨_, h1.linVel.read⟩
  obtain ⟨c3, hc3⟩ : ∃ q, k1.angVel.read dbg = .ok q := ⟨_, h1.angVel.read⟩
  have ev : k1.toVector flagsStateKine = .ok ([c1 0, c1 1, c1 2, q.x, q.y, q.z, q.w, c2 0, c2 1, c2 2, c3 0, c3 1, c3 2], { k1 with ori := oq }) := by
    simp only [Kin.toVector, flagsStateKine, Kin.storeItem, Kin.storeOri, hc1, hc2, hc3, eq, Res.ok_bind, if_true]
    rfl
  obtain ⟨x1, ex, sx, kx, lx⟩ := setList_live (n := 13) (i := kineIndex) (v := x)
    (l := [c1 0, c1 1, c1 2, q.x, q.y, q.z, q.w, c2 0, c2 1, c2 2, c3 0, c3 1, c3 2]) rfl
    (by simp [kineIndex, hx.size]; omega)
  have hx1 : GoodState nc ni x1 := by
    refine ⟨sx.trans hx.size, ?_⟩
    have a3 := lx 3 (by omega)
    have a4 := lx 4 (by omega)
    have a5 := lx 5 (by omega)
    have a6 := lx 6 (by omega)
    simp only [kineIndex, zero_add] at a3 a4 a5 a6
    unfold UnitAt
    rw [a3, a4, a5, a6]
    simp only [Quat.normSq] at hn
    simp
    linarith
  obtain ⟨s, es, hs⟩ := Res.foldlM_live (f := contactDynamics) (fun s : DVec × Kin => GoodState nc ni s.1 ∧ Moving s.2) o.contacts (x1, { k1 with ori := oq })
    (fun s c hc hs => contactDynamics_live hs (hr.con c hc)) ⟨hx1, ⟨_, _, _, _, _, _, h1.setOri rfl ho⟩⟩
  refine ⟨s.1, ?_, hs.1⟩
  rw [stateDynamics, ek, Res.ok_bind, e1, Res.ok_bind, ev, Res.ok_bind, ex, Res.ok_bind, es]
  rfl

end KO
end StateObs
