import Verif.Tools.ReadModel
import Verif.IndexedArray.FileProps
/-!
# Property C139: the measurements of two files

A file of a sensor is what `writeInFile` writes for an array of three-dimensional vectors: `lines c k vs`, the vectors `vs` from index `k` on.
-/

namespace StateObs.Tools
open StateObs LogFile

variable {β Tok : Type}

/-- The measurements: at each index, what the accelerometer and the gyrometer measure. -/
def pairs (fmt : β → β) (k : Int) (acc gyr : List (List β)) : IArr (List β) :=
  if acc.zip gyr = [] then IArr.empty else ⟨k, (acc.zip gyr).map fun p => p.1.map fmt ++ p.2.map fmt⟩

/-- **C139**, full statement: the measurements are those of the instants where both sensors have measured, whatever the uninitialised variables hold. -/
def C139_statement (β Tok : Type) : Prop :=
  ∀ (c : Codec β Tok) (fmt : β → β) (zero : β) (mem : Nat → Int × Int) (a0 g0 : List β) (k : Int) (acc gyr : List (List β)) (fuel : Nat), Codec.Ok c fmt → 0 ≤ k →
    k + acc.length ≤ 2 ^ 31 → k + gyr.length ≤ 2 ^ 31 → (∀ v ∈ acc ++ gyr, v.length = 3) → a0.length = 3 → g0.length = 3 → acc.length + gyr.length < fuel →
    getMeasurements c zero mem a0 g0 (lines c k acc) (lines c k gyr) fuel = .ok (pairs fmt k acc gyr)

theorem readVec_ok (c : Codec β Tok) {fmt : β → β} (hc : Codec.Ok c fmt) (zero : β) (rest : List Tok) : ∀ (m m0 : List β), m0.length = m.length →
    Source.readVec c zero ⟨⟨m.map c.pVal ++ rest, false⟩, false⟩ m0 = (⟨⟨rest, false⟩, false⟩, m.map fmt)
  | [], [], _ => rfl
  | [], _ :: _, h => by simp at h
  | _ :: _, [], h => by simp at h
  | x :: xs, y :: ys, h => by
    have ih := readVec_ok c hc zero rest xs ys (by simpa using h)
    simp only [Source.readVec, Source.readVal, Stream.readVal, Source.eofAfter, List.map_cons, List.cons_append, hc.val]
    simp [ih]

theorem readInt_line (c : Codec β Tok) {fmt : β → β} (hc : Codec.Ok c fmt) {k : Int} (h1 : 0 ≤ k) (h2 : k < 2 ^ 31) (rest : List Tok) (k0 : Int) :
    Source.readInt c ⟨⟨c.pInt k :: rest, false⟩, false⟩ k0 = (⟨⟨rest, false⟩, false⟩, k) := by
  have := hc.int k (by omega) h2
  simp [Source.readInt, Stream.readInt, Source.eofAfter, this]

theorem readInt_end (c : Codec β Tok) (k0 : Int) : Source.readInt c ⟨⟨[], false⟩, false⟩ k0 = (⟨⟨[], true⟩, true⟩, k0) := rfl

/-- The lines that both files have at the same indices are read. -/
theorem measLoop_lines (c : Codec β Tok) {fmt : β → β} (hc : Codec.Ok c fmt) (zero : β) (mem : Nat → Int × Int) (ra rg : List Tok) : ∀ (acc gyr : List (List β)),
    acc.length = gyr.length → (∀ v ∈ acc ++ gyr, v.length = 3) → ∀ (k : Int), 0 ≤ k → k + acc.length ≤ 2 ^ 31 → ∀ (a0 g0 : List β), a0.length = 3 → g0.length = 3 →
    ∀ (y : IArr (List β)), (y.v = [] ∨ k = y.k + y.v.length) → ∀ (j f : Nat), ∃ a : List β, a.length = 3 ∧
      measLoop c zero mem (acc.length + f) j ⟨⟨(lines c k acc).flatten ++ ra, false⟩, false⟩ ⟨⟨(lines c k gyr).flatten ++ rg, false⟩, false⟩ a0 g0 y =
        measLoop c zero mem f (j + acc.length) ⟨⟨ra, false⟩, false⟩ ⟨⟨rg, false⟩, false⟩ a (((gyr.map (List.map fmt)).getLast?).getD g0)
          ⟨if y.v = [] ∧ acc ≠ [] then k else y.k, y.v ++ (acc.zip gyr).map fun p => p.1.map fmt ++ p.2.map fmt⟩
  | [], [], _, _, k, _, _, a0, g0, ha, hg, y, _, j, f => by
    refine ⟨a0, ha, ?_⟩
    simp [lines]
  | [], _ :: _, h, _, _, _, _, _, _, _, _, _, _, _, _ => by simp at h
  | _ :: _, [], h, _, _, _, _, _, _, _, _, _, _, _, _ => by simp at h
  | v :: acc, w :: gyr, h, hv, k, h1, h2, a0, g0, ha, hg, y, hy, j, f => by
    have lv : v.length = 3 := hv v (by simp)
    have lw : w.length = 3 := hv w (by simp)
    have h2' : k + 1 + acc.length ≤ 2 ^ 31 := by simp at h2; omega
    obtain ⟨a, la, e⟩ := measLoop_lines c hc zero mem ra rg acc gyr (by simpa using h) (fun u hu => hv u (by
        simp only [List.mem_append, List.mem_cons] at hu ⊢
        rcases hu with hu | hu
        · exact Or.inl (Or.inr hu)
        · exact Or.inr (Or.inr hu))) (k + 1) (by omega) h2' (v.map fmt) (w.map fmt)
      (by simp [lv]) (by simp [lw]) ⟨if y.v = [] then k else y.k, y.v ++ [v.map fmt ++ w.map fmt]⟩ (by
          right
          rcases hy with h | h
          · simp [h]
          · by_cases h0 : y.v = []
            · simp [h0]
            · simp [h0]; omega) (j + 1) f
    refine ⟨a, la, ?_⟩
    · have el : (v :: acc).length + f = (acc.length + f) + 1 := by simp; omega
      have hk : k < 2 ^ 31 := by omega
      rw [el, measLoop]
      simp only [lines, line, List.flatten_cons, List.cons_append, List.append_assoc]
      rw [readInt_line c hc h1 hk, readInt_line c hc h1 hk]
      simp only [Bool.or_self, Bool.false_or, ne_eq, not_true_eq_false, decide_false, Bool.false_eq_true, if_false]
      rw [readVec_ok c hc zero _ v a0 (by rw [ha, lv]), readVec_ok c hc zero _ w g0 (by rw [hg, lw])]
      simp only
      rw [setValue_next y _ k hy, Res.ok_bind, e]
      simp [Nat.add_assoc, Nat.add_comm 1, List.getLast?_cons]

theorem lines_append (c : Codec β Tok) : ∀ (l m : List (List β)) (k : Int), lines c k (l ++ m) = lines c k l ++ lines c (k + l.length) m
  | [], m, k => by simp [lines]
  | v :: l, m, k => by
    rw [List.cons_append, lines, lines, lines_append c l m (k + 1), List.cons_append]
    congr 3
    simp
    omega

theorem pairs_eq (fmt : β → β) (k : Int) {acc gyr : List (List β)} (h : acc.length = gyr.length) :
    (⟨if (IArr.empty : IArr (List β)).v = [] ∧ acc ≠ [] then k else (IArr.empty : IArr (List β)).k,
      (IArr.empty : IArr (List β)).v ++ (acc.zip gyr).map fun p => p.1.map fmt ++ p.2.map fmt⟩ : IArr (List β)) = pairs fmt k acc gyr := by
  cases acc with
  | nil => simp [pairs, IArr.empty]
  | cons a l =>
    cases gyr with
    | nil => simp at h
    | cons b m => simp [pairs, IArr.empty]

theorem zip_take (acc more gyr : List (List β)) (h : acc.length = gyr.length) : acc.zip (gyr ++ more) = acc.zip gyr := by
  have := List.zip_append (l₂ := gyr) (r₁ := []) (r₂ := more) h
  simpa using this

/-- **C139**, what holds: when the file of the gyrometer is not shorter than the one of the accelerometer, the measurements are those of the instants where both have measured. -/
theorem C139_partial (c : Codec β Tok) {fmt : β → β} (hc : Codec.Ok c fmt) (zero : β) (mem : Nat → Int × Int) {a0 g0 : List β} (ha : a0.length = 3) (hg : g0.length = 3) {k : Int}
    (h1 : 0 ≤ k) (acc gyr : List (List β)) (h2 : k + gyr.length ≤ 2 ^ 31) (hv : ∀ v ∈ acc ++ gyr, v.length = 3) (hl : acc.length ≤ gyr.length) {fuel : Nat}
    (hf : acc.length < fuel) : getMeasurements c zero mem a0 g0 (lines c k acc) (lines c k gyr) fuel = .ok (pairs fmt k acc gyr) := by
  obtain ⟨gyr, more, rfl, hlen⟩ : ∃ g m, gyr = g ++ m ∧ acc.length = g.length := ⟨gyr.take acc.length, gyr.drop acc.length, by simp, by simp; omega⟩
  obtain ⟨f, rfl⟩ : ∃ f, fuel = acc.length + (f + 1) := ⟨fuel - acc.length - 1, by omega⟩
  obtain ⟨a, -, e⟩ := measLoop_lines c hc zero mem [] (lines c (k + gyr.length) more).flatten acc gyr hlen (fun v h => hv v (by
      simp only [List.mem_append] at h ⊢
      rcases h with h | h
      · exact Or.inl h
      · exact Or.inr (Or.inl h))) k h1 (by simp at h2; omega) a0 g0 ha hg
    IArr.empty (Or.inl rfl) 0 (f + 1)
  rw [List.append_nil, ← List.flatten_append, ← lines_append] at e
  rw [getMeasurements, e, measLoop, readInt_end]
  have hz := zip_take acc more gyr hlen
  rw [pairs_eq fmt k hlen]
  simp [pairs, hz]

/-- **C139** A gap: when the indices of the two files differ after `n` lines, the measurements are those of these lines. -/
theorem C139_gap (c : Codec β Tok) {fmt : β → β} (hc : Codec.Ok c fmt) (zero : β) (mem : Nat → Int × Int) {a0 g0 : List β} (ha : a0.length = 3) (hg : g0.length = 3) {k : Int}
    (h1 : 0 ≤ k) (acc gyr acc' gyr' : List (List β)) (hl : acc.length = gyr.length) (h2 : k + acc.length ≤ 2 ^ 31) (hv : ∀ v ∈ acc ++ gyr, v.length = 3)
    {k1 k2 : Int} (hk : k1 ≠ k2) (hk1 : 0 ≤ k1 ∧ k1 < 2 ^ 31) (hk2 : 0 ≤ k2 ∧ k2 < 2 ^ 31) (h3 : acc' ≠ []) (h4 : gyr' ≠ []) {fuel : Nat} (hf : acc.length < fuel) :
    getMeasurements c zero mem a0 g0 (lines c k acc ++ lines c k1 acc') (lines c k gyr ++ lines c k2 gyr') fuel = .ok (pairs fmt k acc gyr) := by
  obtain ⟨f, rfl⟩ : ∃ f, fuel = acc.length + (f + 1) := ⟨fuel - acc.length - 1, by omega⟩
  obtain ⟨a, -, e⟩ := measLoop_lines c hc zero mem (lines c k1 acc').flatten (lines c k2 gyr').flatten acc gyr hl hv k h1 h2 a0 g0 ha hg IArr.empty (Or.inl rfl) 0 (f + 1)
  rw [← List.flatten_append, ← List.flatten_append] at e
  obtain ⟨v, l, rfl⟩ := List.exists_cons_of_ne_nil h3
  obtain ⟨w, m, rfl⟩ := List.exists_cons_of_ne_nil h4
  have e1 : ∀ (k : Int) v l, (lines c k (v :: l)).flatten = c.pInt k :: (v.map c.pVal ++ (lines c (k + 1) l).flatten) := fun _ _ _ => rfl
  rw [getMeasurements, e, pairs_eq fmt k hl, e1, e1, measLoop]
  rw [readInt_line c hc hk1.1 hk1.2, readInt_line c hc hk2.1 hk2.2]
  simp [hk]

/-- **C139** When the file of the gyrometer is shorter, its end is not noticed: if the uninitialised variable holds the next index of the accelerometer, the measurement of the
gyrometer at its last index is used again. -/
theorem C139_short (c : Codec β Tok) {fmt : β → β} (hc : Codec.Ok c fmt) (zero : β) (mem : Nat → Int × Int) {a0 g0 : List β} (ha : a0.length = 3) (hg : g0.length = 3) {k : Int}
    (h1 : 0 ≤ k) (acc gyr : List (List β)) (v w : List β) (hl : acc.length = gyr.length + 1) (h2 : k + acc.length < 2 ^ 31) (hv : ∀ u ∈ acc ++ v :: gyr ++ [w], u.length = 3) {fuel : Nat}
    (hf : acc.length + 1 < fuel) (hm : (mem acc.length).2 = k + acc.length) :
    getMeasurements c zero mem a0 g0 (lines c k (acc ++ [v])) (lines c k (gyr ++ [w])) fuel = .ok (pairs fmt k (acc ++ [v]) (gyr ++ [w, w])) := by
  have hl' : acc.length = (gyr ++ [w]).length := by simp [hl]
  have lv : v.length = 3 := hv v (by simp)
  have lw : w.length = 3 := hv w (by simp)
  obtain ⟨f, rfl⟩ : ∃ f, fuel = acc.length + (f + 1 + 1) := ⟨fuel - acc.length - 2, by omega⟩
  obtain ⟨a, la, e⟩ := measLoop_lines c hc zero mem (lines c (k + acc.length) [v]).flatten [] acc (gyr ++ [w]) hl' (fun u h => hv u (by
      simp only [List.mem_append, List.mem_cons] at h ⊢
      rcases h with h | h | h
      · exact Or.inl (Or.inl h)
      · exact Or.inl (Or.inr (Or.inr h))
      · exact Or.inr h)) k h1 (by omega) a0 g0 ha hg IArr.empty (Or.inl rfl) 0 (f + 1 + 1)
  rw [List.append_nil, ← List.flatten_append, ← lines_append, pairs_eq fmt k hl'] at e
  have hz : (acc ++ [v]).zip (gyr ++ [w, w]) = acc.zip (gyr ++ [w]) ++ [(v, w)] := by
    rw [show gyr ++ [w, w] = (gyr ++ [w]) ++ [w] by simp, List.zip_append hl']
    rfl
  have hne : acc.zip (gyr ++ [w]) ≠ [] := by
    cases acc with
    | nil => simp at hl
    | cons b l => cases gyr <;> simp
  have e1 : ∀ (k : Int) v l, (lines c k (v :: l)).flatten = c.pInt k :: (v.map c.pVal ++ (lines c (k + 1) l).flatten) := fun _ _ _ => rfl
  rw [getMeasurements, e, e1, measLoop]
  rw [readInt_line c hc (by omega) h2, readInt_end, Nat.zero_add, hm]
  simp only [Bool.or_self, Bool.false_or, ne_eq, not_true_eq_false, decide_false, Bool.false_eq_true, if_false]
  rw [readVec_ok c hc zero _ v a (by rw [la, lv])]
  have hr : ∀ g : List β, g.length = 3 → Source.readVec c zero ⟨⟨([] : List Tok), true⟩, true⟩ g = (⟨⟨[], true⟩, true⟩, g) := by
    intro g hg
    obtain ⟨x, y, z, rfl⟩ : ∃ x y z, g = [x, y, z] := by
      match g, hg with
      | [x, y, z], _ => exact ⟨x, y, z, rfl⟩
    rfl
  simp only
  rw [hr _ (by simp [lw])]
  simp only
  have hp : pairs fmt k acc (gyr ++ [w]) = ⟨k, (acc.zip (gyr ++ [w])).map fun p => p.1.map fmt ++ p.2.map fmt⟩ := if_neg hne
  rw [setValue_next _ _ _ (Or.inr (by rw [hp]; simp [hl'])), Res.ok_bind, measLoop, show ∀ k : Int, (lines c k ([] : List (List β))).flatten = [] from fun _ => rfl, readInt_end]
  simp [pairs, hz, hne]

/-- The text format that keeps the numbers. -/
def plain : Codec Int Int := ⟨id, some, id, some⟩

theorem plain_ok : Codec.Ok plain id := ⟨fun _ _ _ => rfl, fun _ => rfl⟩

/-- **C139** is false: for a file of the gyrometer that is shorter, the result depends on uninitialised variables, and can hold a measurement that has not been made. -/
theorem C139_false : ¬ C139_statement Int Int := by
  intro h
  have e := h plain id 0 (fun _ => (1, 1)) [0, 0, 0] [0, 0, 0] 0 [[1, 2, 3], [4, 5, 6]] [[7, 8, 9]] 10 plain_ok (by omega) (by simp) (by simp) (by simp) rfl rfl (by simp)
  have e' := C139_short plain plain_ok 0 (fun _ => (1, 1)) (a0 := [0, 0, 0]) (g0 := [0, 0, 0]) rfl rfl (k := 0) (by omega) [[1, 2, 3]] [] [4, 5, 6] [7, 8, 9] rfl (by simp)
    (by simp) (fuel := 10) (by simp) (by simp)
  have := e.symm.trans e'
  simp [pairs] at this

/-- The hypotheses of the theorems above. -/
theorem C139_example : getMeasurements plain 0 (fun _ => (7, 7)) [0, 0, 0] [0, 0, 0] (lines plain 5 [[1, 2, 3], [4, 5, 6]]) (lines plain 5 [[7, 8, 9], [1, 1, 1], [2, 2, 2]]) 10 =
    .ok ⟨5, [[1, 2, 3, 7, 8, 9], [4, 5, 6, 1, 1, 1]]⟩ := by
  rw [C139_partial plain plain_ok 0 _ rfl rfl (by omega) _ _ (by simp) (by simp) (by simp) (by simp)]
  rfl

end StateObs.Tools
