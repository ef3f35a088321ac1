import Verif.KO.SumSpec
import Verif.KO.Predict
/-!
# Lemmas for C60: the components that `stateSum` and `stateDifference` write
-/

namespace StateObs.KO
open StateObs Matrix Rot Kine KF
open Observer

/-! ## Writes of components -/

section writes
variable {β γ : Type} (get : β → ℕ → γ) (reg : Comp → ℕ → Prop) (Val : Comp → β → β → Prop)

/-- From `s0` to `s` the components `S` got their values and the other entries are kept. -/
def Done (S : Comp → Prop) (s0 s : β) : Prop :=
  (∀ c, S c → Val c s0 s) ∧ ∀ j, (∀ c, S c → ¬reg c j) → get s j = get s0 j

/-- The value of a component is about its own entries. -/
def Local : Prop := ∀ c s s' t t', (∀ j, reg c j → get s j = get t j) → (∀ j, reg c j → get s' j = get t' j) → Val c s s' → Val c t t'

variable {get reg Val}

theorem Done.refl (s : β) : Done get reg Val (fun _ => False) s s := ⟨fun _ h => h.elim, fun _ _ => rfl⟩

theorem Done.trans (hl : Local get reg Val) {S C : Comp → Prop} {s0 s s' : β} (h1 : Done get reg Val S s0 s) (h2 : Done get reg Val C s s')
    (hd : ∀ c d, S c → C d → ∀ j, reg c j → ¬reg d j) : Done get reg Val (fun c => S c ∨ C c) s0 s' := by
  refine ⟨fun c hc => ?_, fun j hj => ?_⟩
  · rcases hc with hc | hc
    · exact hl c s0 s s0 s' (fun _ _ => rfl) (fun j hj => (h2.2 j fun d h => hd c d hc h j hj).symm) (h1.1 c hc)
    · exact hl c s s' s0 s' (fun j hj => h1.2 j fun d h h' => hd d c h hc j h' hj) (fun _ _ => rfl) (h2.1 c hc)
  · rw [h2.2 j fun c hc => hj c (Or.inr hc), h1.2 j fun c hc => hj c (Or.inl hc)]

theorem Done.congr {S C : Comp → Prop} {s0 s : β} (h : Done get reg Val S s0 s) (e : ∀ c, S c ↔ C c) : Done get reg Val C s0 s := by
  have : S = C := funext fun c => propext (e c)
  exact this ▸ h

theorem Done.fold (hl : Local get reg Val) {α : Type} {f : β → α → Res β} (P : β → Prop) : ∀ (L : List α) (C : ℕ → Comp → Prop) (s : β),
    (∀ i a, L[i]? = some a → ∀ s, P s → ∃ s', f s a = .ok s' ∧ P s' ∧ Done get reg Val (C i) s s') →
    (∀ i i' c d, i ≠ i' → i < L.length → i' < L.length → C i c → C i' d → ∀ j, reg c j → ¬reg d j) → P s →
    ∃ s', L.foldlM f s = .ok s' ∧ P s' ∧ Done get reg Val (fun c => ∃ i, i < L.length ∧ C i c) s s'
  | [], _, s, _, _, hs => ⟨s, rfl, hs, (Done.refl s).congr fun c => by simp⟩
  | a :: L, C, s, hf, hd, hs => by
    obtain ⟨s1, e1, p1, d1⟩ := hf 0 a rfl s hs
    obtain ⟨s2, e2, p2, d2⟩ := Done.fold hl P L (fun i => C (i + 1)) s1 (fun i b hb => hf (i + 1) b (by simpa using hb))
      (fun i i' c d h h1 h2 => hd _ _ c d (by omega) (by simpa using h1) (by simpa using h2)) p1
    refine ⟨s2, by rw [List.foldlM_cons, e1, Res.ok_bind, e2], p2, (d1.trans hl d2 ?_).congr fun c => ?_⟩
    · rintro c d hc ⟨i, hi, hd'⟩
      exact hd 0 (i + 1) c d (by omega) (by simp) (by simpa using hi) hc hd'
    · constructor
      · rintro (h | ⟨i, hi, h⟩)
        · exact ⟨0, by simp, h⟩
        · exact ⟨i + 1, by simpa using hi, h⟩
      · rintro ⟨i, hi, h⟩
        cases i with
        | zero => exact Or.inl h
        | succ i => exact Or.inr ⟨i, by simpa using hi, h⟩

end writes

/-! ## Values of the operations on segments -/

theorem seg_at1 {n i : ℕ} {v : DVec} (h : i + n ≤ v.size) : ∃ w, v.seg n i = .ok w ∧ ∀ j : Fin n, w j = at1 v (i + j) := by
  rw [DVec.seg, dif_pos h]
  refine ⟨_, rfl, fun j => ?_⟩
  rw [at1, dif_pos (by have := j.2; omega)]

theorem seg3_at3 {i : ℕ} {v : DVec} (h : i + 3 ≤ v.size) : v.seg 3 i = .ok (at3 v i) := by
  obtain ⟨w, e, hw⟩ := seg_at1 h
  rw [e]
  congr 1
  apply ext3 <;> rw [hw, at3_eq] <;> rfl

theorem addSeg_value {n i j : ℕ} {v t : DVec} (h : i + n ≤ v.size) (h' : j + n ≤ t.size) :
    ∃ v', v.addSeg n i t j = .ok v' ∧ v'.size = v.size ∧ (∀ k, k < i ∨ i + n ≤ k → at1 v' k = at1 v k) ∧
      ∀ k, k < n → at1 v' (i + k) = at1 v (i + k) + at1 t (j + k) := by
  obtain ⟨a, ea, ha⟩ := seg_at1 h
  obtain ⟨b, eb, hb⟩ := seg_at1 h'
  obtain ⟨v', e, h1, h2, h3⟩ := setSeg_live (v := v) (i := i) (a + b) h
  exact ⟨v', by rw [DVec.addSeg, ea, Res.ok_bind, eb, Res.ok_bind, e], h1, h2, fun k hk => by rw [h3 k hk, Pi.add_apply, ha, hb]⟩

theorem quatAt_eq (x : DVec) (i : ℕ) : quatAt x i = ⟨at1 x (i + 3), at1 x i, at1 x (i + 1), at1 x (i + 2)⟩ := rfl

theorem integrateSeg_value {s x t : DVec} {i j : ℕ} (h : i + 4 ≤ s.size) (hx : i + 4 ≤ x.size) (ht : j + 3 ≤ t.size) :
    ∃ s', integrateSeg s x i t j = .ok s' ∧ s'.size = s.size ∧ (∀ k, k < i ∨ i + 4 ≤ k → at1 s' k = at1 s k) ∧
      quatAt s' i = rotationVectorToQuaternion (at3 t j) * quatAt x i := by
  obtain ⟨q, eq, hq⟩ := seg4_at1 hx
  have ev := seg3_at3 ht
  have hqx : (⟨q 3, q 0, q 1, q 2⟩ : Quat) = quatAt x i := by simp only [hq, quatAt_eq]; rfl
  generalize hr : rotationVectorToQuaternion (at3 t j) * quatAt x i = r
  obtain ⟨s', e, h1, h2, h3⟩ := setSeg_live (v := s) (i := i) ![r.x, r.y, r.z, r.w] h
  refine ⟨s', ?_, h1, h2, ?_⟩
  · rw [integrateSeg, eq, Res.ok_bind, ev, Res.ok_bind]
    rw [← e, ← hr, ← hqx]
    rfl
  · have a0 := h3 0 (by omega)
    have a1 := h3 1 (by omega)
    have a2 := h3 2 (by omega)
    have a3 := h3 3 (by omega)
    rw [add_zero] at a0
    rw [quatAt_eq, a0, a1, a2, a3]
    rfl

/-- The entry of a vector under construction. -/
def bat (b : Buf) (j : ℕ) : Option ℝ := if h : j < b.size then b.val ⟨j, h⟩ else none

theorem bufSet_value {n i : ℕ} {b : Buf} (w : Fin n → ℝ) (h : i + n ≤ b.size) : ∃ b', b.setSeg n i w = .ok b' ∧ b'.size = b.size ∧
    (∀ k, k < i ∨ i + n ≤ k → bat b' k = bat b k) ∧ ∀ k (hk : k < n), bat b' (i + k) = some (w ⟨k, hk⟩) := by
  rw [Buf.setSeg, if_pos h]
  refine ⟨_, rfl, rfl, fun j hj => ?_, fun j hj => ?_⟩
  · unfold bat
    split_ifs with h1
    · dsimp only
      rw [dif_neg (by omega)]
    · rfl
  · unfold bat
    rw [dif_pos (by dsimp only; omega)]
    dsimp only
    rw [dif_pos (by omega)]
    congr 2
    ext
    simp

theorem diffSeg_value {n i j : ℕ} {d : Buf} {v w : DVec} (h : i + n ≤ d.size) (hv : j + n ≤ v.size) (hw : j + n ≤ w.size) :
    ∃ d', diffSeg n d i v w j = .ok d' ∧ d'.size = d.size ∧ (∀ k, k < i ∨ i + n ≤ k → bat d' k = bat d k) ∧
      ∀ k, k < n → bat d' (i + k) = some (at1 v (j + k) - at1 w (j + k)) := by
  obtain ⟨a, ea, ha⟩ := seg_at1 hv
  obtain ⟨b, eb, hb⟩ := seg_at1 hw
  obtain ⟨d', e, h1, h2, h3⟩ := bufSet_value (b := d) (i := i) (a - b) h
  exact ⟨d', by rw [diffSeg, ea, Res.ok_bind, eb, Res.ok_bind, e], h1, h2, fun k hk => by rw [h3 k hk, Pi.sub_apply, ha, hb]⟩

/-- The orientation object made of a quaternion. -/
def oriOf (q : Quat) : Ori := (Ori.new true).assignQuat q

theorem differentiateSeg_value {i j : ℕ} {d : Buf} {v w : DVec} (h : j + 3 ≤ d.size) (hv : i + 4 ≤ v.size) (hw : i + 4 ≤ w.size) :
    ∃ d', differentiateSeg d v w i j = .ok d' ∧ d'.size = d.size ∧ (∀ k, k < j ∨ j + 3 ≤ k → bat d' k = bat d k) ∧
      ∃ r, (oriOf (quatAt w i)).differentiate (oriOf (quatAt v i)) = .ok r ∧ ∀ k : Fin 3, bat d' (j + k) = some (r k) := by
  obtain ⟨a, ea, ha⟩ := seg4_at1 hv
  obtain ⟨b, eb, hb⟩ := seg4_at1 hw
  have hav : (Ori.new true).fromVector4 a = oriOf (quatAt v i) := by rw [Ori.fromVector4, oriOf]; simp only [ha, quatAt_eq]; rfl
  have hbv : (Ori.new true).fromVector4 b = oriOf (quatAt w i) := by rw [Ori.fromVector4, oriOf]; simp only [hb, quatAt_eq]; rfl
  obtain ⟨x, ex⟩ : ∃ x, (oriOf (quatAt w i)).differentiate (oriOf (quatAt v i)) = .ok x := ⟨_, rfl⟩
  obtain ⟨d', e, h1, h2, h3⟩ := bufSet_value (b := d) (i := j) x h
  exact ⟨d', by rw [differentiateSeg, ea, Res.ok_bind, eb, Res.ok_bind, hav, hbv, ex, Res.ok_bind, e], h1, h2, x, ex, fun k => h3 k.1 k.2⟩

/-! ## The state vector -/

variable {nc ni : ℕ} {o : Observer}

/-- The entries of a component in the state vector and in the tangent vector. -/
def regS (ni : ℕ) (c : Comp) (j : ℕ) : Prop := off ni c ≤ j ∧ j < off ni c + c.size
def regT (ni : ℕ) (c : Comp) (j : ℕ) : Prop := offT ni c ≤ j ∧ j < offT ni c + 3

/-- What `stateSum` writes. -/
def SumVal (ni : ℕ) (x t : DVec) (c : Comp) (s s' : DVec) : Prop :=
  (c.isTurn = false → ∀ k, k < 3 → at1 s' (off ni c + k) = at1 s (off ni c + k) + at1 t (offT ni c + k)) ∧
  (c.isTurn = true → quatAt s' (off ni c) = rotationVectorToQuaternion (at3 t (offT ni c)) * quatAt x (off ni c))

/-- What `stateDifference` writes. -/
def DiffVal (ni : ℕ) (x y : DVec) (c : Comp) (_ d' : Buf) : Prop :=
  (c.isTurn = false → ∀ k, k < 3 → bat d' (offT ni c + k) = some (at1 x (off ni c + k) - at1 y (off ni c + k))) ∧
  (c.isTurn = true → ∃ r, (oriOf (quatAt y (off ni c))).differentiate (oriOf (quatAt x (off ni c))) = .ok r ∧
    ∀ k : Fin 3, bat d' (offT ni c + k) = some (r k))

theorem size_turn {c : Comp} (h : c.isTurn = true) : c.size = 4 := by cases c <;> simp_all [Comp.isTurn, Comp.size]
theorem size_plain {c : Comp} (h : c.isTurn = false) : c.size = 3 := by cases c <;> simp_all [Comp.isTurn, Comp.size]

theorem sumVal_local (x t : DVec) : Local at1 (regS ni) (SumVal ni x t) := by
  intro c s s' u u' h h' hv
  refine ⟨fun hc k hk => ?_, fun hc => ?_⟩
  · have hz := size_plain hc
    rw [← h' _ ⟨by omega, by omega⟩, ← h _ ⟨by omega, by omega⟩]
    exact hv.1 hc k hk
  · have hz := size_turn hc
    have := hv.2 hc
    rw [quatAt_eq] at this ⊢
    rwa [← h' _ ⟨by omega, by omega⟩, ← h' _ ⟨by omega, by omega⟩, ← h' _ ⟨by omega, by omega⟩, ← h' _ ⟨by omega, by omega⟩]

theorem diffVal_local (x y : DVec) : Local bat (regT ni) (DiffVal ni x y) := by
  intro c s s' u u' _ h' hv
  refine ⟨fun hc k hk => ?_, fun hc => ?_⟩
  · rw [← h' _ ⟨by omega, by omega⟩]
    exact hv.1 hc k hk
  · obtain ⟨r, e, hr⟩ := hv.2 hc
    exact ⟨r, e, fun k => by rw [← h' _ ⟨by omega, by have := k.2; omega⟩]; exact hr k⟩

theorem regS_disjoint {c d : Comp} (hc : c.Valid nc ni) (hd : d.Valid nc ni) (h : c ≠ d) (j : ℕ) (h1 : regS ni c j) : ¬regS ni d j := by
  rintro ⟨a, b⟩
  obtain ⟨a', b'⟩ := h1
  rcases off_disjoint hc hd h with h | h <;> omega

theorem regT_disjoint {c d : Comp} (hc : c.Valid nc ni) (hd : d.Valid nc ni) (h : c ≠ d) (j : ℕ) (h1 : regT ni c j) : ¬regT ni d j := by
  rintro ⟨a, b⟩
  obtain ⟨a', b'⟩ := h1
  rcases offT_disjoint hc hd h with h | h <;> omega

/-- The components of the contact `n`. -/
def ofContact (n : ℕ) (c : Comp) : Prop := c = .contactPosition n ∨ c = .contactOrientation n ∨ c = .contactForce n ∨ c = .contactTorque n

theorem ofContact_valid {n : ℕ} (hn : n < nc) {c : Comp} (h : ofContact n c) : c.Valid nc ni := by
  rcases h with rfl | rfl | rfl | rfl <;> exact hn

theorem InUse.valid (hi : Inv nc ni o) {c : Comp} (h : InUse o ni c) : c.Valid nc ni := by
  cases c <;> first | exact trivial | exact isSet_lt hi h | exact h.2

theorem InUse.exists {c : Comp} (h : InUse o ni c) : Exists o ni c := by
  cases c <;> first | exact trivial | exact h | exact h.2

theorem contact_index (hi : Inv nc ni o) {n : ℕ} {c : Contact} (hc : o.contacts[n]? = some c) (hs : c.isSet = true) :
    c.index = .ok (19 + 3 * ni + 13 * n) ∧ c.indexTangent = .ok (18 + 3 * ni + 12 * n) := by
  obtain ⟨h1, h2, -⟩ := hi.2.conIdx n c hc hs
  constructor
  · rw [Contact.index, h1, Res.assert, decide_eq_true (by omega), if_pos rfl, Res.ok_bind]
    congr 1; omega
  · rw [Contact.indexTangent, h2, Res.assert, decide_eq_true (by omega), if_pos rfl, Res.ok_bind]
    congr 1; omega

theorem indices (hi : Inv nc ni o) : (∀ i, i < ni → o.gyroBiasIndex i = .ok (13 + 3 * i) ∧ o.gyroBiasIndexTangent i = .ok (12 + 3 * i)) ∧
    o.unmodeledWrenchIndex = .ok (13 + 3 * ni) ∧ o.unmodeledWrenchIndexTangent = .ok (12 + 3 * ni) := by
  refine ⟨fun i h => ⟨(start_eq hi (.gyroBias i) _).2 ⟨h, rfl⟩, (startTangent_eq hi (.gyroBias i) _).2 ⟨h, rfl⟩⟩,
    (start_eq hi .unmodeledForce _).2 ⟨trivial, rfl⟩, (startTangent_eq hi .unmodeledForce _).2 ⟨trivial, rfl⟩⟩

/-! ## The sum -/

section sum
variable {x t : DVec}

theorem sum_one {c : Comp} (hv : c.Valid nc ni) (hp : c.isTurn = false) {s : DVec} (hs : s.size = 19 + ni * 3 + nc * 13)
    (ht : t.size = 18 + ni * 3 + 12 * nc) :
    ∃ s', s.addSeg 3 (off ni c) t (offT ni c) = .ok s' ∧ s'.size = 19 + ni * 3 + nc * 13 ∧ Done at1 (regS ni) (SumVal ni x t) (· = c) s s' := by
  have h1 := off_range hv
  have h2 := offT_range hv
  have h3 := size_plain hp
  obtain ⟨s', e, z, k, v⟩ := addSeg_value (n := 3) (i := off ni c) (j := offT ni c) (v := s) (t := t) (by omega) (by omega)
  refine ⟨s', e, by omega, fun d hd => ?_, fun j hj => k j ?_⟩
  · subst hd
    exact ⟨fun _ => v, fun h => by rw [hp] at h; simp at h⟩
  · have := hj c rfl
    unfold regS at this
    omega

theorem sum_two {c d : Comp} (hv : c.Valid nc ni) (hw : d.Valid nc ni) (hp : c.isTurn = false) (hq : d.isTurn = false) (e1 : off ni d = off ni c + 3)
    (e2 : offT ni d = offT ni c + 3) {s : DVec} (hs : s.size = 19 + ni * 3 + nc * 13) (ht : t.size = 18 + ni * 3 + 12 * nc) :
    ∃ s', s.addSeg 6 (off ni c) t (offT ni c) = .ok s' ∧ s'.size = 19 + ni * 3 + nc * 13 ∧
      Done at1 (regS ni) (SumVal ni x t) (fun a => a = c ∨ a = d) s s' := by
  have h1 := off_range hw
  have h2 := offT_range hw
  have h3 := size_plain hp
  have h4 := size_plain hq
  obtain ⟨s', e, z, k, v⟩ := addSeg_value (n := 6) (i := off ni c) (j := offT ni c) (v := s) (t := t) (by omega) (by omega)
  refine ⟨s', e, by omega, fun a ha => ?_, fun j hj => k j ?_⟩
  · rcases ha with rfl | rfl
    · exact ⟨fun _ k hk => v k (by omega), fun h => by rw [hp] at h; simp at h⟩
    · refine ⟨fun _ k hk => ?_, fun h => by rw [hq] at h; simp at h⟩
      rw [e1, e2, add_assoc, add_assoc]
      exact v (3 + k) (by omega)
  · have a1 := hj c (Or.inl rfl)
    have a2 := hj d (Or.inr rfl)
    unfold regS at a1 a2
    omega

theorem sum_turn {c : Comp} (hv : c.Valid nc ni) (hp : c.isTurn = true) {s : DVec} (hs : s.size = 19 + ni * 3 + nc * 13)
    (hx : x.size = 19 + ni * 3 + nc * 13) (ht : t.size = 18 + ni * 3 + 12 * nc) :
    ∃ s', integrateSeg s x (off ni c) t (offT ni c) = .ok s' ∧ s'.size = 19 + ni * 3 + nc * 13 ∧ Done at1 (regS ni) (SumVal ni x t) (· = c) s s' := by
  have h1 := off_range hv
  have h2 := offT_range hv
  have h3 := size_turn hp
  obtain ⟨s', e, z, k, v⟩ := integrateSeg_value (s := s) (x := x) (t := t) (i := off ni c) (j := offT ni c) (by omega) (by omega) (by omega)
  refine ⟨s', e, by omega, fun d hd => ?_, fun j hj => k j ?_⟩
  · subst hd
    exact ⟨fun h => by rw [hp] at h; simp at h, fun _ => v⟩
  · have := hj c rfl
    unfold regS at this
    omega

theorem sumContact_value (hi : Inv nc ni o) {n : ℕ} {k : Contact} (hk : o.contacts[n]? = some k) {s : DVec} (hs : s.size = 19 + ni * 3 + nc * 13)
    (hx : x.size = 19 + ni * 3 + nc * 13) (ht : t.size = 18 + ni * 3 + 12 * nc) :
    ∃ s', sumContact x t s k = .ok s' ∧ s'.size = 19 + ni * 3 + nc * 13 ∧
      Done at1 (regS ni) (SumVal ni x t) (fun c => IsSet o n ∧ ofContact n c) s s' := by
  unfold sumContact
  split_ifs with h
  · have hset : IsSet o n := ⟨k, hk, h⟩
    have hn := isSet_lt hi hset
    obtain ⟨i1, i2⟩ := contact_index hi hk h
    obtain ⟨s1, e1, z1, d1⟩ := sum_one (x := x) (t := t) (nc := nc) (ni := ni) (c := .contactPosition n) hn rfl hs ht
    obtain ⟨s2, e2, z2, d2⟩ := sum_turn (x := x) (t := t) (nc := nc) (ni := ni) (c := .contactOrientation n) hn rfl z1 hx ht
    obtain ⟨s3, e3, z3, d3⟩ := sum_two (x := x) (t := t) (nc := nc) (ni := ni) (c := .contactForce n) (d := .contactTorque n) hn hn rfl rfl rfl rfl z2 ht
    refine ⟨s3, ?_, z3, (((d1.trans (sumVal_local x t) d2 ?_).trans (sumVal_local x t) d3 ?_)).congr ?_⟩
    · rw [i1, Res.ok_bind, i2, Res.ok_bind]
      erw [e1, Res.ok_bind, e2, Res.ok_bind, e3]
    · rintro c d rfl rfl
      exact regS_disjoint (nc := nc) hn hn (by simp)
    · rintro c d (rfl | rfl) (rfl | rfl) <;> exact regS_disjoint (nc := nc) hn hn (by simp)
    · intro c
      simp only [hset, true_and, ofContact]
      tauto
  · exact ⟨s, rfl, hs, (Done.refl s).congr fun c => ⟨False.elim, fun hc => h (by
      obtain ⟨k', hk', h'⟩ := hc.1
      rw [hk] at hk'; cases hk'; exact h')⟩⟩

theorem ofContact_ne {i i' : ℕ} (h : i ≠ i') {c d : Comp} (hc : ofContact i c) (hd : ofContact i' d) : c ≠ d := by
  rcases hc with rfl | rfl | rfl | rfl <;> rcases hd with rfl | rfl | rfl | rfl <;> simp [h]

/-- What `stateSum` returns. -/
theorem stateSum_value (hi : Inv nc ni o) (hx : x.size = 19 + ni * 3 + nc * 13) (ht : t.size = 18 + ni * 3 + 12 * nc) :
    ∃ s, o.stateSum x t = .ok s ∧ s.size = 19 + ni * 3 + nc * 13 ∧ Done at1 (regS ni) (SumVal ni x t) (InUse o ni) x s := by
  have hloc := sumVal_local (ni := ni) x t
  obtain ⟨ig, iw, iwt⟩ := indices hi
  obtain ⟨s1, e1, z1, d1⟩ := sum_one (x := x) (t := t) (nc := nc) (ni := ni) (c := .position) trivial rfl hx ht
  obtain ⟨s2, e2, z2, d2⟩ := sum_turn (x := x) (t := t) (nc := nc) (ni := ni) (c := .orientation) trivial rfl z1 hx ht
  obtain ⟨s3, e3, z3, d3⟩ := sum_two (x := x) (t := t) (nc := nc) (ni := ni) (c := .linVel) (d := .angVel) trivial trivial rfl rfl rfl rfl z2 ht
  obtain ⟨s4, e4, z4, d4⟩ : ∃ s4, opt (o.withGyroBias) ((List.range o.imus.length).foldlM (sumGyro o t) s3) s3 = .ok s4 ∧ s4.size = 19 + ni * 3 + nc * 13 ∧
      Done at1 (regS ni) (SumVal ni x t) (fun c => o.withGyroBias = true ∧ ∃ i, i < ni ∧ c = .gyroBias i) s3 s4 := by
    cases hg : o.withGyroBias
    · exact ⟨s3, rfl, z3, (Done.refl s3).congr fun c => by simp⟩
    · obtain ⟨s4, e4, z4, d4⟩ := Done.fold hloc (f := sumGyro o t) (fun s => s.size = 19 + ni * 3 + nc * 13) (List.range o.imus.length)
        (fun i c => c = .gyroBias i) s3 (fun i a ha s hs => by
          obtain ⟨hlt, rfl⟩ : i < ni ∧ i = a := by
            obtain ⟨h1, h2⟩ := List.getElem?_eq_some_iff.1 ha
            exact ⟨by simpa [hi.2.imuLen] using h1, by simpa using h2⟩
          obtain ⟨s', e, z, d⟩ := sum_one (x := x) (t := t) (nc := nc) (ni := ni) (c := .gyroBias i) hlt rfl hs ht
          refine ⟨s', ?_, z, d⟩
          rw [sumGyro, (ig i hlt).1, Res.ok_bind, (ig i hlt).2, Res.ok_bind]
          exact e)
        (fun i i' c d h h1 h2 hc hd => by
          subst hc hd
          rw [List.length_range, hi.2.imuLen] at h1 h2
          exact regS_disjoint (nc := nc) h1 h2 (by simpa using h)) z3
      exact ⟨s4, e4, z4, d4.congr fun c => by simp [hi.2.imuLen]⟩
  obtain ⟨s5, e5, z5, d5⟩ : ∃ s5, opt (o.withUnmodeledWrench) (o.sumWrench t s4) s4 = .ok s5 ∧ s5.size = 19 + ni * 3 + nc * 13 ∧
      Done at1 (regS ni) (SumVal ni x t) (fun c => o.withUnmodeledWrench = true ∧ (c = .unmodeledForce ∨ c = .unmodeledTorque)) s4 s5 := by
    cases hg : o.withUnmodeledWrench
    · exact ⟨s4, rfl, z4, (Done.refl s4).congr fun c => by simp⟩
    · obtain ⟨s5, e5, z5, d5⟩ := sum_two (x := x) (t := t) (nc := nc) (ni := ni) (c := .unmodeledForce) (d := .unmodeledTorque) trivial trivial rfl rfl
        (by simp [off]; omega) (by simp [offT]; omega) z4 ht
      refine ⟨s5, ?_, z5, d5.congr fun c => by simp⟩
      rw [opt, if_pos rfl, sumWrench, iw, Res.ok_bind, iwt, Res.ok_bind]
      exact e5
  obtain ⟨s6, e6, z6, d6⟩ := Done.fold hloc (f := sumContact x t) (fun s => s.size = 19 + ni * 3 + nc * 13) o.contacts (fun n c => IsSet o n ∧ ofContact n c) s5
    (fun i k hk s hs => sumContact_value hi hk hs hx ht)
    (fun i i' c d h _ _ hc hd => regS_disjoint (ofContact_valid (isSet_lt hi hc.1) hc.2) (ofContact_valid (isSet_lt hi hd.1) hd.2) (ofContact_ne h hc.2 hd.2)) z5
  refine ⟨s6, ?_, z6, ((((((d1.trans hloc d2 ?_).trans hloc d3 ?_).trans hloc d4 ?_).trans hloc d5 ?_).trans hloc d6 ?_)).congr ?_⟩
  · rw [stateSum]
    erw [e1, Res.ok_bind, e2, Res.ok_bind, e3, Res.ok_bind, e4, Res.ok_bind, e5, Res.ok_bind, e6]
  · rintro c d rfl rfl
    exact regS_disjoint (nc := nc) trivial trivial (by simp)
  · rintro c d (rfl | rfl) (rfl | rfl) <;> exact regS_disjoint (nc := nc) trivial trivial (by simp)
  · rintro c d ((rfl | rfl) | (rfl | rfl)) ⟨-, i, hlt, rfl⟩ <;> exact regS_disjoint (nc := nc) trivial hlt (by simp)
  · rintro c d (((rfl | rfl) | (rfl | rfl)) | ⟨-, i, hlt, rfl⟩) ⟨-, (rfl | rfl)⟩ <;>
      first | exact regS_disjoint (nc := nc) trivial trivial (by simp) | exact regS_disjoint (nc := nc) hlt trivial (by simp)
  · rintro c d hc ⟨n, -, hset, hd⟩
    have hv := ofContact_valid (ni := ni) (isSet_lt hi hset) hd
    rcases hc with ((((rfl | rfl) | (rfl | rfl)) | ⟨-, i, hlt, rfl⟩) | ⟨-, (rfl | rfl)⟩) <;>
      first
        | exact regS_disjoint (nc := nc) hlt hv (by rcases hd with rfl | rfl | rfl | rfl <;> simp)
        | exact regS_disjoint (nc := nc) trivial hv (by rcases hd with rfl | rfl | rfl | rfl <;> simp)
  · have hl : ∀ n, IsSet o n → n < o.contacts.length := fun n h => by
      obtain ⟨c, hc, -⟩ := h
      exact (List.getElem?_eq_some_iff.1 hc).1
    intro c
    cases c <;> simp [InUse, ofContact]
    all_goals first | tauto | skip
    all_goals exact fun h => hl _ h

end sum

/-! ## The difference -/

section diff
variable {x y : DVec}

theorem diff_one {c : Comp} (hv : c.Valid nc ni) (hp : c.isTurn = false) {d : Buf} (hd : d.size = 18 + ni * 3 + 12 * nc)
    (hx : x.size = 19 + ni * 3 + nc * 13) (hy : y.size = 19 + ni * 3 + nc * 13) :
    ∃ d', diffSeg 3 d (offT ni c) x y (off ni c) = .ok d' ∧ d'.size = 18 + ni * 3 + 12 * nc ∧ Done bat (regT ni) (DiffVal ni x y) (· = c) d d' := by
  have h1 := off_range hv
  have h2 := offT_range hv
  have h3 := size_plain hp
  obtain ⟨d', e, z, k, v⟩ := diffSeg_value (n := 3) (i := offT ni c) (j := off ni c) (d := d) (v := x) (w := y) (by omega) (by omega) (by omega)
  refine ⟨d', e, by omega, fun a ha => ?_, fun j hj => k j ?_⟩
  · subst ha
    exact ⟨fun _ => v, fun h => by rw [hp] at h; simp at h⟩
  · have := hj c rfl
    unfold regT at this
    omega

theorem diff_two {c a : Comp} (hv : c.Valid nc ni) (hw : a.Valid nc ni) (hp : c.isTurn = false) (hq : a.isTurn = false) (e1 : off ni a = off ni c + 3)
    (e2 : offT ni a = offT ni c + 3) {d : Buf} (hd : d.size = 18 + ni * 3 + 12 * nc)
    (hx : x.size = 19 + ni * 3 + nc * 13) (hy : y.size = 19 + ni * 3 + nc * 13) :
    ∃ d', diffSeg 6 d (offT ni c) x y (off ni c) = .ok d' ∧ d'.size = 18 + ni * 3 + 12 * nc ∧
      Done bat (regT ni) (DiffVal ni x y) (fun b => b = c ∨ b = a) d d' := by
  have h1 := off_range hw
  have h2 := offT_range hw
  have h3 := size_plain hp
  have h4 := size_plain hq
  obtain ⟨d', e, z, k, v⟩ := diffSeg_value (n := 6) (i := offT ni c) (j := off ni c) (d := d) (v := x) (w := y) (by omega) (by omega) (by omega)
  refine ⟨d', e, by omega, fun b hb => ?_, fun j hj => k j ?_⟩
  · rcases hb with rfl | rfl
    · exact ⟨fun _ k hk => v k (by omega), fun h => by rw [hp] at h; simp at h⟩
    · refine ⟨fun _ k hk => ?_, fun h => by rw [hq] at h; simp at h⟩
      rw [e1, e2, add_assoc, add_assoc]
      exact v (3 + k) (by omega)
  · have a1 := hj c (Or.inl rfl)
    have a2 := hj a (Or.inr rfl)
    unfold regT at a1 a2
    omega

theorem diff_turn {c : Comp} (hv : c.Valid nc ni) (hp : c.isTurn = true) {d : Buf} (hd : d.size = 18 + ni * 3 + 12 * nc)
    (hx : x.size = 19 + ni * 3 + nc * 13) (hy : y.size = 19 + ni * 3 + nc * 13) :
    ∃ d', differentiateSeg d x y (off ni c) (offT ni c) = .ok d' ∧ d'.size = 18 + ni * 3 + 12 * nc ∧ Done bat (regT ni) (DiffVal ni x y) (· = c) d d' := by
  have h1 := off_range hv
  have h2 := offT_range hv
  have h3 := size_turn hp
  obtain ⟨d', e, z, k, v⟩ := differentiateSeg_value (d := d) (v := x) (w := y) (i := off ni c) (j := offT ni c) (by omega) (by omega) (by omega)
  refine ⟨d', e, by omega, fun a ha => ?_, fun j hj => k j ?_⟩
  · subst ha
    exact ⟨fun h => by rw [hp] at h; simp at h, fun _ => v⟩
  · have := hj c rfl
    unfold regT at this
    omega

theorem diffContact_value (hi : Inv nc ni o) {n : ℕ} {k : Contact} (hk : o.contacts[n]? = some k) {d : Buf} (hd : d.size = 18 + ni * 3 + 12 * nc)
    (hx : x.size = 19 + ni * 3 + nc * 13) (hy : y.size = 19 + ni * 3 + nc * 13) :
    ∃ d', diffContact x y d k = .ok d' ∧ d'.size = 18 + ni * 3 + 12 * nc ∧
      Done bat (regT ni) (DiffVal ni x y) (fun c => IsSet o n ∧ ofContact n c) d d' := by
  unfold diffContact
  split_ifs with h
  · have hset : IsSet o n := ⟨k, hk, h⟩
    have hn := isSet_lt hi hset
    obtain ⟨i1, i2⟩ := contact_index hi hk h
    obtain ⟨s1, e1, z1, d1⟩ := diff_one (x := x) (y := y) (nc := nc) (ni := ni) (c := .contactPosition n) hn rfl hd hx hy
    obtain ⟨s2, e2, z2, d2⟩ := diff_turn (x := x) (y := y) (nc := nc) (ni := ni) (c := .contactOrientation n) hn rfl z1 hx hy
    obtain ⟨s3, e3, z3, d3⟩ := diff_two (x := x) (y := y) (nc := nc) (ni := ni) (c := .contactForce n) (a := .contactTorque n) hn hn rfl rfl rfl rfl z2 hx hy
    refine ⟨s3, ?_, z3, (((d1.trans (diffVal_local x y) d2 ?_).trans (diffVal_local x y) d3 ?_)).congr ?_⟩
    · rw [i1, Res.ok_bind, i2, Res.ok_bind]
      erw [e1, Res.ok_bind, e2, Res.ok_bind, e3]
    · rintro c d rfl rfl
      exact regT_disjoint (nc := nc) hn hn (by simp)
    · rintro c d (rfl | rfl) (rfl | rfl) <;> exact regT_disjoint (nc := nc) hn hn (by simp)
    · intro c
      simp only [hset, true_and, ofContact]
      tauto
  · exact ⟨d, rfl, hd, (Done.refl d).congr fun c => ⟨False.elim, fun hc => h (by
      obtain ⟨k', hk', h'⟩ := hc.1
      rw [hk] at hk'; cases hk'; exact h')⟩⟩

/-- What `stateDifference` writes in its output, before the check that all of it is initialised. -/
theorem stateDifference_value (hi : Inv nc ni o) (old : DVec) (hx : x.size = 19 + ni * 3 + nc * 13) (hy : y.size = 19 + ni * 3 + nc * 13) :
    ∃ d, o.stateDifference old x y = d.done ∧ d.size = 18 + ni * 3 + 12 * nc ∧
      Done bat (regT ni) (DiffVal ni x y) (InUse o ni) (Buf.resize old (18 + ni * 3 + 12 * nc)) d := by
  have hloc := diffVal_local (ni := ni) x y
  have hts : o.tangentSize = 18 + ni * 3 + 12 * nc := by rw [tangentSize, hi.1.1, hi.1.2]
  have z0 : (Buf.resize old (18 + ni * 3 + 12 * nc)).size = 18 + ni * 3 + 12 * nc := by unfold Buf.resize; split_ifs <;> rfl
  obtain ⟨ig, iw, iwt⟩ := indices hi
  obtain ⟨s1, e1, z1, d1⟩ := diff_one (x := x) (y := y) (nc := nc) (ni := ni) (c := .position) trivial rfl z0 hx hy
  obtain ⟨s2, e2, z2, d2⟩ := diff_turn (x := x) (y := y) (nc := nc) (ni := ni) (c := .orientation) trivial rfl z1 hx hy
  obtain ⟨s3, e3, z3, d3⟩ := diff_two (x := x) (y := y) (nc := nc) (ni := ni) (c := .linVel) (a := .angVel) trivial trivial rfl rfl rfl rfl z2 hx hy
  obtain ⟨s4, e4, z4, d4⟩ : ∃ s4, opt (o.withGyroBias) ((List.range o.imus.length).foldlM (diffGyro o x y) s3) s3 = .ok s4 ∧ s4.size = 18 + ni * 3 + 12 * nc ∧
      Done bat (regT ni) (DiffVal ni x y) (fun c => o.withGyroBias = true ∧ ∃ i, i < ni ∧ c = .gyroBias i) s3 s4 := by
    cases hg : o.withGyroBias
    · exact ⟨s3, rfl, z3, (Done.refl s3).congr fun c => by simp⟩
    · obtain ⟨s4, e4, z4, d4⟩ := Done.fold hloc (f := diffGyro o x y) (fun s => s.size = 18 + ni * 3 + 12 * nc) (List.range o.imus.length)
        (fun i c => c = .gyroBias i) s3 (fun i a ha s hs => by
          obtain ⟨hlt, rfl⟩ : i < ni ∧ i = a := by
            obtain ⟨h1, h2⟩ := List.getElem?_eq_some_iff.1 ha
            exact ⟨by simpa [hi.2.imuLen] using h1, by simpa using h2⟩
          obtain ⟨s', e, z, d⟩ := diff_one (x := x) (y := y) (nc := nc) (ni := ni) (c := .gyroBias i) hlt rfl hs hx hy
          refine ⟨s', ?_, z, d⟩
          rw [diffGyro, (ig i hlt).1, Res.ok_bind, (ig i hlt).2, Res.ok_bind]
          exact e)
        (fun i i' c d h h1 h2 hc hd => by
          subst hc hd
          rw [List.length_range, hi.2.imuLen] at h1 h2
          exact regT_disjoint (nc := nc) h1 h2 (by simpa using h)) z3
      exact ⟨s4, e4, z4, d4.congr fun c => by simp [hi.2.imuLen]⟩
  obtain ⟨s5, e5, z5, d5⟩ : ∃ s5, opt (o.withUnmodeledWrench) (o.diffWrench x y s4) s4 = .ok s5 ∧ s5.size = 18 + ni * 3 + 12 * nc ∧
      Done bat (regT ni) (DiffVal ni x y) (fun c => o.withUnmodeledWrench = true ∧ (c = .unmodeledForce ∨ c = .unmodeledTorque)) s4 s5 := by
    cases hg : o.withUnmodeledWrench
    · exact ⟨s4, rfl, z4, (Done.refl s4).congr fun c => by simp⟩
    · obtain ⟨s5, e5, z5, d5⟩ := diff_two (x := x) (y := y) (nc := nc) (ni := ni) (c := .unmodeledForce) (a := .unmodeledTorque) trivial trivial rfl rfl
        (by simp [off]; omega) (by simp [offT]; omega) z4 hx hy
      refine ⟨s5, ?_, z5, d5.congr fun c => by simp⟩
      rw [opt, if_pos rfl, diffWrench, iw, Res.ok_bind, iwt, Res.ok_bind]
      exact e5
  obtain ⟨s6, e6, z6, d6⟩ := Done.fold hloc (f := diffContact x y) (fun s => s.size = 18 + ni * 3 + 12 * nc) o.contacts (fun n c => IsSet o n ∧ ofContact n c) s5
    (fun i k hk s hs => diffContact_value hi hk hs hx hy)
    (fun i i' c d h _ _ hc hd => regT_disjoint (ofContact_valid (isSet_lt hi hc.1) hc.2) (ofContact_valid (isSet_lt hi hd.1) hd.2) (ofContact_ne h hc.2 hd.2)) z5
  refine ⟨s6, ?_, z6, ((((((d1.trans hloc d2 ?_).trans hloc d3 ?_).trans hloc d4 ?_).trans hloc d5 ?_).trans hloc d6 ?_)).congr ?_⟩
  · rw [stateDifference, hts]
    erw [e1, Res.ok_bind, e2, Res.ok_bind, e3, Res.ok_bind, e4, Res.ok_bind, e5, Res.ok_bind, e6, Res.ok_bind]
  · rintro c d rfl rfl
    exact regT_disjoint (nc := nc) trivial trivial (by simp)
  · rintro c d (rfl | rfl) (rfl | rfl) <;> exact regT_disjoint (nc := nc) trivial trivial (by simp)
  · rintro c d ((rfl | rfl) | (rfl | rfl)) ⟨-, i, hlt, rfl⟩ <;> exact regT_disjoint (nc := nc) trivial hlt (by simp)
  · rintro c d (((rfl | rfl) | (rfl | rfl)) | ⟨-, i, hlt, rfl⟩) ⟨-, (rfl | rfl)⟩ <;>
      first | exact regT_disjoint (nc := nc) trivial trivial (by simp) | exact regT_disjoint (nc := nc) hlt trivial (by simp)
  · rintro c d hc ⟨n, -, hset, hd⟩
    have hv := ofContact_valid (ni := ni) (isSet_lt hi hset) hd
    rcases hc with ((((rfl | rfl) | (rfl | rfl)) | ⟨-, i, hlt, rfl⟩) | ⟨-, (rfl | rfl)⟩) <;>
      first
        | exact regT_disjoint (nc := nc) hlt hv (by rcases hd with rfl | rfl | rfl | rfl <;> simp)
        | exact regT_disjoint (nc := nc) trivial hv (by rcases hd with rfl | rfl | rfl | rfl <;> simp)
  · have hl : ∀ n, IsSet o n → n < o.contacts.length := fun n h => by
      obtain ⟨c, hc, -⟩ := h
      exact (List.getElem?_eq_some_iff.1 hc).1
    intro c
    cases c <;> simp [InUse, ofContact]
    all_goals first | tauto | skip
    all_goals exact fun h => hl _ h

end diff

end StateObs.KO
