import Verif.Kin.Lemmas
/-!
# C50: kinematics to vector and back
-/

namespace StateObs.Kine
open StateObs Matrix Rot

namespace Kin

/-- What `toVector` writes for one field (helper). -/
def flat (f : Bool) (x : Option V3) : List ℝ := if f then (match x with | some x => [x 0, x 1, x 2] | none => []) else []

theorem storeItem_ok {f : Bool} {i : CItem V3} {x : Option V3} (h : Item i x) (hf : f = true → x.isSome = true) : storeItem f i = .ok (flat f x) := by
  cases f
  · rfl
  · obtain ⟨y, rfl⟩ := Option.isSome_iff_exists.1 (hf rfl)
    simp [storeItem, h.read, flat]

theorem storeItem_fail {i : CItem V3} (h : Item i none) : storeItem true i = .assertFail := by
  have : i.flag = false := h
  simp [storeItem, CItem.read, CItem.isSet, this, dbg, CheckCfg.doCheck]

theorem flat_length (f : Bool) (x : Option V3) (hf : f = true → x.isSome = true) : (flat f x).length = 3 * f.toNat := by
  cases f
  · rfl
  · obtain ⟨y, rfl⟩ := Option.isSome_iff_exists.1 (hf rfl)
    rfl

theorem storeOri_ok {f : Bool} {o : Ori} {x : Option M3} (h : o.Holds x) (hf : f = true → x.isSome = true) :
    ∃ l o', storeOri f o = .ok (l, o') ∧ o'.Holds x ∧ l.length = 4 * f.toNat ∧
      (f = true → ∃ (q : Quat), l = [q.x, q.y, q.z, q.w] ∧ q.normSq = 1 ∧ some q.toMat = x) := by
  cases f
  · exact ⟨[], o, rfl, h, rfl, fun h => by cases h⟩
  · obtain ⟨R, rfl⟩ := Option.isSome_iff_exists.1 (hf rfl)
    obtain ⟨q, o', e, hr, hq, hm⟩ := Ori.Rep.toVector4 h
    exact ⟨[q.x, q.y, q.z, q.w], o', by simp [storeOri, e], hr, rfl, fun _ => ⟨q, rfl, hq, by rw [hm]⟩⟩

theorem storeOri_fail {o : Ori} (h : o.Holds none) : storeOri true o = .assertFail := by
  simp [storeOri, Ori.toVector4, Ori.toQuaternion, Ori.unset_check h]

theorem getElem?_at (l s : List ℝ) (j : ℕ) : (l ++ s)[l.length + j]? = s[j]? := by
  rw [List.getElem?_append_right (by omega), Nat.add_sub_cancel_left]

theorem seg3_append (l r : List ℝ) (x y z : ℝ) : seg3 (l ++ ([x, y, z] ++ r)) l.length = ![x, y, z] := by
  have h0 := getElem?_at l ([x, y, z] ++ r) 0
  rw [add_zero] at h0
  simp only [seg3, List.getD_eq_getElem?_getD, h0, getElem?_at]
  simp

theorem seg4_append (l r : List ℝ) (x y z w : ℝ) : seg4 (l ++ ([x, y, z, w] ++ r)) l.length = ![x, y, z, w] := by
  have h0 := getElem?_at l ([x, y, z, w] ++ r) 0
  rw [add_zero] at h0
  simp only [seg4, List.getD_eq_getElem?_getD, h0, getElem?_at]
  simp

theorem loadItem_ok {f : Bool} {x y : Option V3} {i : CItem V3} (hi : Item i y) (pre post l : List ℝ) (n : ℕ) (hf : f = true → x.isSome = true)
    (hl : l = pre ++ (flat f x ++ post)) (hn : n = pre.length) :
    ∃ j, loadItem f l n i = .ok (j, (pre ++ flat f x).length) ∧ Item j (if f then x else y) := by
  subst hl hn
  cases f
  · exact ⟨i, by simp [loadItem, flat], hi⟩
  · obtain ⟨z, rfl⟩ := Option.isSome_iff_exists.1 (hf rfl)
    refine ⟨i.assign z, ?_, Item.assign _ _⟩
    have e : ![z 0, z 1, z 2] = z := by apply ext3 <;> rfl
    rw [loadItem, if_pos rfl, if_pos (by simp [flat])]
    simp only [flat, if_true]
    rw [seg3_append, e]
    simp

theorem loadOri_ok {f : Bool} {x y : Option M3} {o : Ori} (ho : o.Holds y) (pre s post l : List ℝ) (n : ℕ)
    (hs : f = true → ∃ (q : Quat), s = [q.x, q.y, q.z, q.w] ∧ q.normSq = 1 ∧ some q.toMat = x) (hs' : s.length = 4 * f.toNat)
    (hl : l = pre ++ (s ++ post)) (hn : n = pre.length) :
    ∃ o', loadOri f l n o = .ok (o', (pre ++ s).length) ∧ o'.Holds (if f then x else y) := by
  subst hl hn
  cases f
  · have : s = [] := List.length_eq_zero_iff.1 hs'
    subst this
    exact ⟨o, by simp [loadOri], ho⟩
  · obtain ⟨q, rfl, hq, rfl⟩ := hs rfl
    refine ⟨o.assignQuat q, ?_, Ori.rep_q hq rfl⟩
    rw [loadOri, if_pos rfl, if_pos (by simp)]
    rw [seg4_append]
    simp [Ori.fromVector4]

/-- **C50** `setZero(flags)` gives the zero position, velocities and accelerations and the zero rotation to the flagged fields and leaves the others. -/
theorem C50_setZero (k : Kin) (a : Value) (h : k.Has a) (f : KFlags) : (k.setZero f).Has
    ⟨if f.pos then some 0 else a.pos, if f.ori then some 1 else a.ori, if f.linVel then some 0 else a.linVel, if f.angVel then some 0 else a.angVel,
      if f.linAcc then some 0 else a.linAcc, if f.angAcc then some 0 else a.angAcc⟩ := by
  have hz : ∀ (b : Bool) (i : CItem V3) (x : Option V3), Item i x → Item (zeroItem b i) (if b then some 0 else x) := by
    intro b i x hi
    cases b
    · exact hi
    · exact Item.assign i 0
  refine ⟨hz _ _ _ h.pos, ?_, hz _ _ _ h.linVel, hz _ _ _ h.angVel, hz _ _ _ h.linAcc, hz _ _ _ h.angAcc⟩
  show (if f.ori then k.ori.setZeroQuat else k.ori).Holds _
  cases f.ori
  · exact h.ori
  · exact Ori.rep_q Quat.normSq_one Quat.toMat_one

/-- **C50** `toVector(flags)` asserts exactly when a flagged field is not set. Otherwise it leaves the kinematics as it is, gives a vector of the length of
the flagged fields, and `fromVector` with the same flags on any object restores exactly the flagged fields. -/
theorem C50_round_trip (k : Kin) (a : Value) (h : k.Has a) (f : KFlags) :
    (k.toVector f = .assertFail ↔ ¬ a.Provides f) ∧
    (a.Provides f → ∃ l k', k.toVector f = .ok (l, k') ∧ k'.Has a ∧ l.length = f.size ∧
      ∀ (m : Kin) (b : Value), m.Has b → ∃ m', m.fromVector l f = .ok m' ∧ m'.Has (Value.select f a b)) := by
  have ok : a.Provides f → ∃ l k', k.toVector f = .ok (l, k') ∧ k'.Has a ∧ l.length = f.size ∧
      ∀ (m : Kin) (b : Value), m.Has b → ∃ m', m.fromVector l f = .ok m' ∧ m'.Has (Value.select f a b) := by
    rintro ⟨h1, h2, h3, h4, h5, h6⟩
    obtain ⟨s, o', e, ho, hs, hq⟩ := storeOri_ok h.ori h2
    refine ⟨flat f.pos a.pos ++ s ++ flat f.linVel a.linVel ++ flat f.angVel a.angVel ++ flat f.linAcc a.linAcc ++ flat f.angAcc a.angAcc, { k with ori := o' },
      ?_, ⟨h.pos, ho, h.linVel, h.angVel, h.linAcc, h.angAcc⟩, ?_, fun m b hm => ?_⟩
    · simp [toVector, storeItem_ok h.pos h1, e, storeItem_ok h.linVel h3, storeItem_ok h.angVel h4, storeItem_ok h.linAcc h5, storeItem_ok h.angAcc h6]
    · simp only [List.length_append, flat_length _ _ h1, flat_length _ _ h3, flat_length _ _ h4, flat_length _ _ h5, flat_length _ _ h6, hs, KFlags.size]
    · obtain ⟨p, e1, g1⟩ := loadItem_ok hm.pos [] (s ++ flat f.linVel a.linVel ++ flat f.angVel a.angVel ++ flat f.linAcc a.linAcc ++ flat f.angAcc a.angAcc)
        (flat f.pos a.pos ++ s ++ flat f.linVel a.linVel ++ flat f.angVel a.angVel ++ flat f.linAcc a.linAcc ++ flat f.angAcc a.angAcc) 0 h1 (by simp) rfl
      obtain ⟨o, e2, g2⟩ := loadOri_ok hm.ori ([] ++ flat f.pos a.pos) s (flat f.linVel a.linVel ++ flat f.angVel a.angVel ++ flat f.linAcc a.linAcc ++ flat f.angAcc a.angAcc)
        (flat f.pos a.pos ++ s ++ flat f.linVel a.linVel ++ flat f.angVel a.angVel ++ flat f.linAcc a.linAcc ++ flat f.angAcc a.angAcc) _ hq hs (by simp) rfl
      obtain ⟨v, e3, g3⟩ := loadItem_ok hm.linVel ([] ++ flat f.pos a.pos ++ s) (flat f.angVel a.angVel ++ flat f.linAcc a.linAcc ++ flat f.angAcc a.angAcc)
        (flat f.pos a.pos ++ s ++ flat f.linVel a.linVel ++ flat f.angVel a.angVel ++ flat f.linAcc a.linAcc ++ flat f.angAcc a.angAcc) _ h3 (by simp) rfl
      obtain ⟨w, e4, g4⟩ := loadItem_ok hm.angVel ([] ++ flat f.pos a.pos ++ s ++ flat f.linVel a.linVel) (flat f.linAcc a.linAcc ++ flat f.angAcc a.angAcc)
        (flat f.pos a.pos ++ s ++ flat f.linVel a.linVel ++ flat f.angVel a.angVel ++ flat f.linAcc a.linAcc ++ flat f.angAcc a.angAcc) _ h4 (by simp) rfl
      obtain ⟨x, e5, g5⟩ := loadItem_ok hm.linAcc ([] ++ flat f.pos a.pos ++ s ++ flat f.linVel a.linVel ++ flat f.angVel a.angVel) (flat f.angAcc a.angAcc)
        (flat f.pos a.pos ++ s ++ flat f.linVel a.linVel ++ flat f.angVel a.angVel ++ flat f.linAcc a.linAcc ++ flat f.angAcc a.angAcc) _ h5 (by simp) rfl
      obtain ⟨y, e6, g6⟩ := loadItem_ok hm.angAcc ([] ++ flat f.pos a.pos ++ s ++ flat f.linVel a.linVel ++ flat f.angVel a.angVel ++ flat f.linAcc a.linAcc) []
        (flat f.pos a.pos ++ s ++ flat f.linVel a.linVel ++ flat f.angVel a.angVel ++ flat f.linAcc a.linAcc ++ flat f.angAcc a.angAcc) _ h6 (by simp) rfl
      exact ⟨⟨p, o, v, w, x, y⟩, by simp only [fromVector, e1, e2, e3, e4, e5, e6, Res.ok_bind], ⟨g1, g2, g3, g4, g5, g6⟩⟩
  refine ⟨⟨fun e hp => ?_, fun hn => ?_⟩, ok⟩
  · obtain ⟨l, k', e', -⟩ := ok hp
    rw [e] at e'; cases e'
  · have st : ∀ {g : Bool} {i : CItem V3} {x : Option V3}, Item i x → (storeItem g i = .assertFail ∧ ¬(g = true → x.isSome = true)) ∨
        ((g = true → x.isSome = true) ∧ ∃ l, storeItem g i = .ok l) := by
      intro g i x hx
      by_cases hg : g = true → x.isSome = true
      · exact .inr ⟨hg, _, storeItem_ok hx hg⟩
      · rw [Classical.not_imp] at hg
        obtain ⟨rfl, hg2⟩ := hg
        cases x
        · exact .inl ⟨storeItem_fail hx, by simp⟩
        · simp at hg2
    have so : (storeOri f.ori k.ori = .assertFail ∧ ¬(f.ori = true → a.ori.isSome = true)) ∨
        ((f.ori = true → a.ori.isSome = true) ∧ ∃ l, storeOri f.ori k.ori = .ok l) := by
      by_cases hg : f.ori = true → a.ori.isSome = true
      · obtain ⟨s, o', e, -⟩ := storeOri_ok h.ori hg
        exact .inr ⟨hg, _, e⟩
      · refine .inl ⟨?_, hg⟩
        rw [Classical.not_imp] at hg
        have hn : k.ori.Holds none := by
          have := h.ori
          cases ho : a.ori
          · rwa [ho] at this
          · rw [ho] at hg; simp at hg
        rw [hg.1]; exact storeOri_fail hn
    rw [toVector]
    rcases st (g := f.pos) h.pos with ⟨e, -⟩ | ⟨h1, l1, e⟩
    · rw [e]; rfl
    rw [e, Res.ok_bind]
    rcases so with ⟨e, -⟩ | ⟨h2, l2, e⟩
    · rw [e]; rfl
    rw [e, Res.ok_bind]
    rcases st (g := f.linVel) h.linVel with ⟨e, -⟩ | ⟨h3, l3, e⟩
    · rw [e]; rfl
    rw [e, Res.ok_bind]
    rcases st (g := f.angVel) h.angVel with ⟨e, -⟩ | ⟨h4, l4, e⟩
    · rw [e]; rfl
    rw [e, Res.ok_bind]
    rcases st (g := f.linAcc) h.linAcc with ⟨e, -⟩ | ⟨h5, l5, e⟩
    · rw [e]; rfl
    rw [e, Res.ok_bind]
    rcases st (g := f.angAcc) h.angAcc with ⟨e, -⟩ | ⟨h6, l6, e⟩
    · rw [e]; rfl
    exact absurd ⟨h1, h2, h3, h4, h5, h6⟩ hn

theorem Has.flags {k : Kin} {a : Value} (h : k.Has a) : k.flags = a.flags := by
  simp only [Kin.flags, Value.flags, h.pos.isSet, h.linVel.isSet, h.angVel.isSet, h.linAcc.isSet, h.angAcc.isSet, Holds.isSet h.ori]

/-- **C50** `toVector()` never asserts, and writes the set fields: `fromVector` with the flags of these fields, on a new object, gives the kinematics back. -/
theorem C50_set_fields (k : Kin) (a : Value) (h : k.Has a) :
    ∃ l k', k.toVectorSet = .ok (l, k') ∧ k'.Has a ∧ l.length = a.flags.size ∧ ∃ m, Kin.new.fromVector l a.flags = .ok m ∧ m.Has a := by
  obtain ⟨l, k', e, hk, hl, hm⟩ := (C50_round_trip k a h a.flags).2 ⟨id, id, id, id, id, id⟩
  obtain ⟨m, e', hm⟩ := hm new Value.empty ⟨rfl, ⟨rfl, rfl⟩, rfl, rfl, rfl, rfl⟩
  refine ⟨l, k', by rw [toVectorSet, h.flags]; exact e, hk, hl, m, e', ?_⟩
  convert! hm using 1
  simp only [Value.select, Value.flags, Value.empty]
  obtain ⟨p, o, v, w, x, y⟩ := a
  cases p <;> cases o <;> cases v <;> cases w <;> cases x <;> cases y <;> rfl

/-- **C50** The layout: position, quaternion (scalar part last), linear velocity, angular velocity, linear acceleration, angular acceleration. -/
theorem C50_layout (k : Kin) (p v w x y : V3) (R : M3) (h : k.Has ⟨some p, some R, some v, some w, some x, some y⟩) : ∃ (q : Quat) (k' : Kin),
    k.toVector KFlags.all = .ok ([p 0, p 1, p 2, q.x, q.y, q.z, q.w, v 0, v 1, v 2, w 0, w 1, w 2, x 0, x 1, x 2, y 0, y 1, y 2], k') ∧
    q.normSq = 1 ∧ q.toMat = R := by
  obtain ⟨s, o', e, ho, hs, hq⟩ := storeOri_ok (f := true) h.ori (fun _ => rfl)
  obtain ⟨q, rfl, h1, h2⟩ := hq rfl
  refine ⟨q, { k with ori := o' }, ?_, h1, by simpa using h2⟩
  simp only [toVector, KFlags.all, storeItem_ok (f := true) h.pos (fun _ => rfl), e, storeItem_ok (f := true) h.linVel (fun _ => rfl),
    storeItem_ok (f := true) h.angVel (fun _ => rfl), storeItem_ok (f := true) h.linAcc (fun _ => rfl), storeItem_ok (f := true) h.angAcc (fun _ => rfl), flat,
    Res.ok_bind, if_true]
  rfl

theorem loadItem_cases (f : Bool) (l : List ℝ) (n : ℕ) (i : CItem V3) :
    (n + 3 * f.toNat ≤ l.length ∧ ∃ j, loadItem f l n i = .ok (j, n + 3 * f.toNat) ∧ storeItem f j = .ok ((l.drop n).take (3 * f.toNat))) ∨
      (f = true ∧ ¬ n + 3 ≤ l.length ∧ loadItem f l n i = .assertFail) ∨ (f = false ∧ ¬ n ≤ l.length ∧ loadItem f l n i = .ok (i, n)) := by
  cases f
  · by_cases hn : n ≤ l.length
    · exact .inl ⟨hn, i, rfl, by simp [storeItem]⟩
    · exact .inr (.inr ⟨rfl, hn, rfl⟩)
  · by_cases hn : n + 3 ≤ l.length
    · refine .inl ⟨hn, i.assign (seg3 l n), by simp [loadItem, hn], ?_⟩
      rw [storeItem, if_pos rfl, (Item.assign _ _).read, Res.ok_bind]
      congr 1
      rw [Bool.toNat_true, mul_one]
      rw [List.drop_eq_getElem_cons (by omega : n < l.length), List.drop_eq_getElem_cons (by omega : n + 1 < l.length),
        List.drop_eq_getElem_cons (by omega : n + 1 + 1 < l.length)]
      simp only [List.take_succ_cons, List.take_zero]
      simp [seg3, List.getD_eq_getElem?_getD, List.getElem?_eq_getElem (by omega : n < l.length), List.getElem?_eq_getElem (by omega : n + 1 < l.length),
        List.getElem?_eq_getElem (by omega : n + 2 < l.length)]
    · exact .inr (.inl ⟨rfl, hn, by simp [loadItem, hn]⟩)

theorem loadOri_cases (f : Bool) (l : List ℝ) (n : ℕ) (i : Ori) :
    (n + 4 * f.toNat ≤ l.length ∧ ∃ j, loadOri f l n i = .ok (j, n + 4 * f.toNat) ∧ storeOri f j = .ok ((l.drop n).take (4 * f.toNat), j)) ∨
      (f = true ∧ ¬ n + 4 ≤ l.length ∧ loadOri f l n i = .assertFail) ∨ (f = false ∧ ¬ n ≤ l.length ∧ loadOri f l n i = .ok (i, n)) := by
  cases f
  · by_cases hn : n ≤ l.length
    · exact .inl ⟨hn, i, rfl, by simp [storeOri]⟩
    · exact .inr (.inr ⟨rfl, hn, rfl⟩)
  · by_cases hn : n + 4 ≤ l.length
    · refine .inl ⟨hn, i.fromVector4 (seg4 l n), by simp [loadOri, hn], ?_⟩
      have e : (i.fromVector4 (seg4 l n)).toVector4 = .ok (seg4 l n, i.fromVector4 (seg4 l n)) := by
        have : (![seg4 l n 0, seg4 l n 1, seg4 l n 2, seg4 l n 3] : Fin 4 → ℝ) = seg4 l n := by
          funext i; fin_cases i <;> rfl
        simp [Ori.toVector4, Ori.toQuaternion, Ori.fromVector4, Ori.assignQuat, Ori.check, Ori.isQuaternionSet, Ori.fillQuaternion, CItem.assign, CItem.isSet,
          CItem.read, CheckCfg.doCheck, dbg, this]
      rw [storeOri, if_pos rfl, e, Res.ok_bind]
      congr 2
      rw [Bool.toNat_true, mul_one]
      rw [List.drop_eq_getElem_cons (by omega : n < l.length), List.drop_eq_getElem_cons (by omega : n + 1 < l.length),
        List.drop_eq_getElem_cons (by omega : n + 1 + 1 < l.length), List.drop_eq_getElem_cons (by omega : n + 1 + 1 + 1 < l.length)]
      simp only [List.take_succ_cons, List.take_zero]
      simp [seg4, List.getD_eq_getElem?_getD, List.getElem?_eq_getElem (by omega : n < l.length), List.getElem?_eq_getElem (by omega : n + 1 < l.length),
        List.getElem?_eq_getElem (by omega : n + 2 < l.length), List.getElem?_eq_getElem (by omega : n + 3 < l.length)]
    · exact .inr (.inl ⟨rfl, hn, by simp [loadOri, hn]⟩)

/-- **C50** `fromVector(v, flags)` asserts exactly when the vector is too short; otherwise `toVector(flags)` gives back the numbers of the vector. -/
theorem C50_vector_back (k : Kin) (l : List ℝ) (f : KFlags) :
    (k.fromVector l f = .assertFail ↔ l.length < f.size) ∧
    (f.size ≤ l.length → ∃ k' k'', k.fromVector l f = .ok k' ∧ k'.toVector f = .ok (l.take f.size, k'')) := by
  have tk : ∀ n m, (l.take n) ++ (l.drop n).take m = l.take (n + m) := fun n m => by rw [List.take_add]
  have key : (f.size ≤ l.length ∧ ∃ k' k'', k.fromVector l f = .ok k' ∧ k'.toVector f = .ok (l.take f.size, k'')) ∨
      (l.length < f.size ∧ k.fromVector l f = .assertFail) := by
    rw [fromVector]
    rcases loadItem_cases f.pos l 0 k.pos with ⟨n1, p, e1, s1⟩ | ⟨hf, n1, e1⟩ | ⟨hf, n1, e1⟩
    rotate_left
    · right; rw [e1]; refine ⟨?_, rfl⟩; simp only [KFlags.size, hf, Bool.toNat_true]; omega
    · omega
    rcases loadOri_cases f.ori l (0 + 3 * f.pos.toNat) k.ori with ⟨n2, o, e2, s2⟩ | ⟨hf, n2, e2⟩ | ⟨hf, n2, e2⟩
    rotate_left
    · right; simp only [e1, e2, Res.ok_bind]; refine ⟨?_, rfl⟩; simp only [KFlags.size, hf, Bool.toNat_true]; omega
    · omega
    rcases loadItem_cases f.linVel l (0 + 3 * f.pos.toNat + 4 * f.ori.toNat) k.linVel with ⟨n3, v, e3, s3⟩ | ⟨hf, n3, e3⟩ | ⟨hf, n3, e3⟩
    rotate_left
    · right; simp only [e1, e2, e3, Res.ok_bind]; refine ⟨?_, rfl⟩; simp only [KFlags.size, hf, Bool.toNat_true]; omega
    · omega
    rcases loadItem_cases f.angVel l (0 + 3 * f.pos.toNat + 4 * f.ori.toNat + 3 * f.linVel.toNat) k.angVel with ⟨n4, w, e4, s4⟩ | ⟨hf, n4, e4⟩ | ⟨hf, n4, e4⟩
    rotate_left
    · right; simp only [e1, e2, e3, e4, Res.ok_bind]; refine ⟨?_, rfl⟩; simp only [KFlags.size, hf, Bool.toNat_true]; omega
    · omega
    rcases loadItem_cases f.linAcc l (0 + 3 * f.pos.toNat + 4 * f.ori.toNat + 3 * f.linVel.toNat + 3 * f.angVel.toNat) k.linAcc with
      ⟨n5, x, e5, s5⟩ | ⟨hf, n5, e5⟩ | ⟨hf, n5, e5⟩
    rotate_left
    · right; simp only [e1, e2, e3, e4, e5, Res.ok_bind]; refine ⟨?_, rfl⟩; simp only [KFlags.size, hf, Bool.toNat_true]; omega
    · omega
    rcases loadItem_cases f.angAcc l (0 + 3 * f.pos.toNat + 4 * f.ori.toNat + 3 * f.linVel.toNat + 3 * f.angVel.toNat + 3 * f.linAcc.toNat) k.angAcc with
      ⟨n6, y, e6, s6⟩ | ⟨hf, n6, e6⟩ | ⟨hf, n6, e6⟩
    rotate_left
    · right; simp only [e1, e2, e3, e4, e5, e6, Res.ok_bind]; refine ⟨?_, rfl⟩; simp only [KFlags.size, hf, Bool.toNat_true]; omega
    · omega
    refine .inl ⟨by rw [KFlags.size]; omega, ⟨p, o, v, w, x, y⟩, ⟨p, o, v, w, x, y⟩, by simp only [e1, e2, e3, e4, e5, e6, Res.ok_bind], ?_⟩
    have t0 : (l.drop 0).take (3 * f.pos.toNat) = l.take (0 + 3 * f.pos.toNat) := by rw [List.drop_zero, zero_add]
    simp only [toVector, s1, s2, s3, s4, s5, s6, Res.ok_bind, t0, tk]
    simp [KFlags.size]
  refine ⟨⟨fun e => ?_, fun h => ?_⟩, fun h => ?_⟩ <;> rcases key with ⟨h1, k', k'', e1, e2⟩ | ⟨h1, e1⟩
  · rw [e] at e1; cases e1
  · exact h1
  · omega
  · exact e1
  · exact ⟨k', k'', e1, e2⟩
  · omega

/-- Kinematics and flags to which C50 applies: the position is set but not flagged, the angular acceleration is not set. -/
example : ∃ (k : Kin) (a : Value), k.Has a ∧ a.Provides ⟨false, true, true, false, false, false⟩ ∧ a.pos = some ![1, 2, 3] ∧ a.angAcc = none :=
  ⟨⟨⟨true, some ![1, 2, 3]⟩, Ori.ofMat 1, ⟨true, some ![4, 5, 6]⟩, CItem.new true, CItem.new true, CItem.new true⟩,
    ⟨some ![1, 2, 3], some 1, some ![4, 5, 6], none, none, none⟩, ⟨rfl, Ori.rep_m IsRot.one, rfl, rfl, rfl, rfl⟩,
    ⟨by simp, by simp, by simp, by simp, by simp, by simp⟩, rfl, rfl⟩

end Kin
end StateObs.Kine
