import Verif.IndexedArray.File
import Verif.IndexedArray.Lemmas
/-!
# Property C05: log files round-trip

The number format is only assumed to print indexes of the `int` range so that they can be read back, and to print a
coefficient `x` so that reading gives `fmt x` (with the default stream format, `fmt` rounds to six significant digits).
-/

namespace StateObs.LogFile
open IArrSpec
variable {β Tok : Type}

/-- What is assumed about the text format; `fmt x` is the value read back after printing `x`. -/
structure Codec.Ok (c : Codec β Tok) (fmt : β → β) : Prop where
  int : ∀ k : Int, -2 ^ 31 ≤ k → k < 2 ^ 31 → c.rInt (c.pInt k) = some k
  val : ∀ x, c.rVal (c.pVal x) = some (fmt x)

/-- `a'` holds, at the same indexes, the values of `a` rounded to the text format, and nothing else. -/
def SameUpTo (fmt : β → β) (a a' : IArr (List β)) : Prop :=
  ∀ i, (absMap a').m i = ((absMap a).m i).map (List.map fmt)

/-! ### helper lemmas -/

theorem readMat_ok (c : Codec β Tok) {fmt : β → β} (hc : Codec.Ok c fmt) (zero : β) (m m0 : List β)
    (h : m0.length = m.length) (rest : List Tok) :
    Stream.readMat c zero ⟨m.map c.pVal ++ rest, false⟩ m0 = (⟨rest, false⟩, m.map fmt) := by
  induction m generalizing m0 with
  | nil => cases m0 with
    | nil => rfl
    | cons => simp at h
  | cons x xs ih => cases m0 with
    | nil => simp at h
    | cons y ys =>
      simp only [Stream.readMat, Stream.readVal, List.map_cons, List.cons_append, hc.val]
      simp only [List.length_cons, Nat.add_right_cancel_iff] at h
      simp [ih ys h]

theorem readMat_end (c : Codec β Tok) (zero : β) (m : List β) (b : Bool) (h : b = false → m ≠ []) :
    Stream.readMat c zero ⟨[], b⟩ m = (⟨[], true⟩, m) := by
  induction m generalizing b with
  | nil => cases b with
    | true => rfl
    | false => simp at h
  | cons x xs ih =>
    cases b <;> simp [Stream.readMat, Stream.readVal, ih true]

theorem setValue_next (a : IArr (List β)) (x : List β) (k : Int) (h : a.v = [] ∨ k = a.k + a.v.length) :
    a.setValue x k = .ok ⟨if a.v = [] then k else a.k, a.v ++ [x]⟩ := by
  have hc : a.checkIndex k = false ∨ a.v = [] := by
    rcases h with h | h
    · exact Or.inr h
    · left; rw [← Bool.not_eq_true, checkIndex_iff]; omega
  have hc' : a.checkIndex k = false := by
    rcases hc with h | h
    · exact h
    · simp [IArr.checkIndex, h]
  have hn : a.checkNext k = true := by
    rcases h with h | h <;> simp [IArr.checkNext, h]
  simp only [IArr.setValue, hc', hn]
  simp

theorem readLoop_lines (c : Codec β Tok) {fmt : β → β} (hc : Codec.Ok c fmt) (zero : β) (n : Nat)
    (ms : List (List β)) (hn : ∀ m ∈ ms, m.length = n) (k k' : Int) (h1 : -2 ^ 31 ≤ k) (h2 : k + ms.length ≤ 2 ^ 31)
    (m0 : List β) (hm0 : m0.length = n) (a : IArr (List β)) (ha : a.v = [] ∨ k = a.k + a.v.length) (fuel : Nat)
    (hf : ms.length < fuel) :
    readLoop c zero true fuel ⟨(lines c k ms).flatten, false⟩ m0 k' a =
      .ok ⟨if a.v = [] ∧ ms ≠ [] then k else a.k, a.v ++ ms.map (List.map fmt)⟩ := by
  induction ms generalizing k k' m0 a fuel with
  | nil => cases fuel with
    | zero => simp at hf
    | succ f => simp [readLoop, lines, Stream.readInt]
  | cons m ms ih => cases fuel with
    | zero => simp at hf
    | succ f =>
      have hk : c.rInt (c.pInt k) = some k := hc.int k h1 (by simp at h2; omega)
      simp only [readLoop, lines, line, List.flatten_cons, List.cons_append, Stream.readInt, hk, if_true, Bool.false_eq_true,
        if_false]
      rw [readMat_ok c hc zero m m0 (by rw [hm0, hn m (by simp)])]
      simp only
      rw [setValue_next a _ k ha, Res.ok_bind]
      rw [ih (fun m' hm' => hn m' (by simp [hm'])) (k + 1) (k + 1) (by omega) (by simp at h2; omega) _
        (by simp [hn m (by simp)]) _ (by
          right
          rcases ha with h | h
          · simp [h]
          · by_cases h0 : a.v = []
            · simp [h0]
            · simp [h0]; omega) f (by simp at hf; omega)]
      simp

theorem readComponents_ok (c : Codec β Tok) {fmt : β → β} (hc : Codec.Ok c fmt) (m : List β) :
    readComponents c (m.map c.pVal) = m.map fmt := by
  induction m with
  | nil => rfl
  | cons x xs ih => simp [readComponents, hc.val, ih]

theorem readVecLoop_lines (c : Codec β Tok) {fmt : β → β} (hc : Codec.Ok c fmt)
    (ms : List (List β)) (k k' : Int) (h1 : -2 ^ 31 ≤ k) (h2 : k + ms.length ≤ 2 ^ 31)
    (a : IArr (List β)) (ha : a.v = [] ∨ k = a.k + a.v.length) :
    readVecLoop c true (lines c k ms) k' a =
      .ok ⟨if a.v = [] ∧ ms ≠ [] then k else a.k, a.v ++ ms.map (List.map fmt)⟩ := by
  induction ms generalizing k k' a with
  | nil => simp [readVecLoop, lines]
  | cons m ms ih =>
    have hk : c.rInt (c.pInt k) = some k := hc.int k h1 (by simp at h2; omega)
    simp only [readVecLoop, lines, line, hk, readComponents_ok c hc, if_true]
    rw [setValue_next a _ k ha, Res.ok_bind]
    rw [ih (k + 1) (k + 1) (by omega) (by simp at h2; omega) _ (by
          right
          rcases ha with h | h
          · simp [h]
          · by_cases h0 : a.v = []
            · simp [h0]
            · simp [h0]; omega)]
    simp

theorem readVecLoop_nostamp (c : Codec β Tok) {fmt : β → β} (hc : Codec.Ok c fmt)
    (ms : List (List β)) (k : Int) (a : IArr (List β)) (ha : a.v = [] ∨ k = a.k + a.v.length) :
    readVecLoop c false (ms.map (List.map c.pVal)) k a =
      .ok ⟨if a.v = [] ∧ ms ≠ [] then k else a.k, a.v ++ ms.map (List.map fmt)⟩ := by
  induction ms generalizing k a with
  | nil => simp [readVecLoop]
  | cons m ms ih =>
    simp only [readVecLoop, List.map_cons, readComponents_ok c hc, Bool.false_eq_true, if_false]
    rw [setValue_next a _ k ha, Res.ok_bind]
    rw [ih (k + 1) _ (by
          right
          rcases ha with h | h
          · simp [h]
          · by_cases h0 : a.v = []
            · simp [h0]
            · simp [h0]; omega)]
    simp

theorem readLoop_nostamp (c : Codec β Tok) {fmt : β → β} (hc : Codec.Ok c fmt) (zero : β) (n : Nat) (h0 : 0 < n)
    (ms : List (List β)) (hn : ∀ m ∈ ms, m.length = n) (k : Int)
    (m0 : List β) (hm0 : m0.length = n) (a : IArr (List β)) (ha : a.v = [] ∨ k = a.k + a.v.length) (fuel : Nat)
    (hf : ms.length + 1 < fuel) :
    readLoop c zero false fuel ⟨(ms.map (List.map c.pVal)).flatten, false⟩ m0 k a =
      .ok ⟨if a.v = [] then k else a.k,
        a.v ++ ms.map (List.map fmt) ++ [((ms.map (List.map fmt)).getLast?).getD m0]⟩ := by
  induction ms generalizing k m0 a fuel with
  | nil => cases fuel with
    | zero => simp at hf
    | succ f => cases f with
      | zero => simp at hf
      | succ f =>
        simp only [readLoop, List.map_nil, List.flatten_nil, Bool.false_eq_true, if_false]
        rw [readMat_end c zero m0 false (fun _ h => by simp [h] at hm0; omega)]
        simp only
        rw [setValue_next a _ k ha, Res.ok_bind]
        simp [readLoop]
  | cons m ms ih => cases fuel with
    | zero => simp at hf
    | succ f =>
      simp only [readLoop, List.map_cons, List.flatten_cons, Bool.false_eq_true, if_false]
      rw [readMat_ok c hc zero m m0 (by rw [hm0, hn m (by simp)])]
      simp only
      rw [setValue_next a _ k ha, Res.ok_bind]
      rw [ih (fun m' hm' => hn m' (by simp [hm'])) (k + 1) _
        (by simp [hn m (by simp)]) _ (by
          right
          rcases ha with h | h
          · simp [h]
          · by_cases h0 : a.v = []
            · simp [h0]
            · simp [h0]; omega) f (by simp at hf; omega)]
      cases ms with
      | nil => simp
      | cons m' ms' => simp [List.getLast?_cons]

theorem sameUpTo_of_eq (fmt : β → β) (a : IArr (List β)) (k : Int) (h : a.v ≠ [] → k = a.k) :
    SameUpTo fmt a ⟨k, a.v.map (List.map fmt)⟩ := by
  intro i
  simp only [absMap]
  by_cases h0 : a.v = []
  · simp [h0]
  · rw [h h0]
    split_ifs <;> simp

theorem lines_append (c : Codec β Tok) (k : Int) (l1 l2 : List (List β)) :
    lines c k (l1 ++ l2) = lines c k l1 ++ lines c (k + l1.length) l2 := by
  induction l1 generalizing k with
  | nil => simp [lines]
  | cons m ms ih =>
    simp only [List.cons_append, lines, ih, List.length_cons]
    congr 3; push_cast; omega

/-! ### the property theorems -/

/-- **C05** with time stamps, `readFromFile`. Whatever the file contained before, writing an array of `rows × cols` matrices
(with or without clearing the log) and reading the file back gives the same indexes and, up to the text format, the
same values; the read loop terminates (any sufficiently large fuel). Indexes must fit the `int` that
`readFromFile` reads them into. -/
theorem C05_write_read (c : Codec β Tok) {fmt : β → β} (hc : Codec.Ok c fmt) (zero : β) (rows cols : Nat)
    (a : IArr (List β)) (hm : ∀ m ∈ a.v, m.length = rows * cols)
    (h1 : -2 ^ 31 ≤ a.getFirstIndex) (h2 : a.getNextIndex ≤ 2 ^ 31) (old : List (List Tok)) (clearLog : Bool)
    (fuel : Nat) (hf : a.size < fuel) :
    ∃ file b, writeInFile c a old clearLog false true = .ok (file, b) ∧
      ∃ a', readFromFile c zero file rows cols true fuel = .ok a' ∧ SameUpTo fmt a a' ∧ a'.size = a.size := by
  refine ⟨_, _, rfl, ?_⟩
  simp only [Bool.false_eq_true, if_false, List.nil_append]
  refine ⟨_, readLoop_lines c hc zero (rows * cols) a.v hm a.k 0 h1 h2 _ (by simp) _ (by simp [IArr.empty]) fuel hf, ?_, ?_⟩
  · have : (IArr.empty : IArr (List β)).v = [] := rfl
    simp only [this, List.nil_append, true_and]
    exact sameUpTo_of_eq fmt a _ (fun h => by simp [h])
  · simp [IArr.size, IArr.empty]

/-- **C05** with time stamps, `readVectorsFromFile` (each matrix comes back as the vector of its coefficients, also when the
sizes differ from line to line). -/
theorem C05_write_readVectors (c : Codec β Tok) {fmt : β → β} (hc : Codec.Ok c fmt)
    (a : IArr (List β)) (h1 : -2 ^ 31 ≤ a.getFirstIndex) (h2 : a.getNextIndex ≤ 2 ^ 31)
    (old : List (List Tok)) (clearLog : Bool) :
    ∃ file b, writeInFile c a old clearLog false true = .ok (file, b) ∧
      ∃ a', readVectorsFromFile c file true = .ok a' ∧ SameUpTo fmt a a' ∧ a'.size = a.size := by
  refine ⟨_, _, rfl, ?_⟩
  simp only [Bool.false_eq_true, if_false, List.nil_append]
  refine ⟨_, readVecLoop_lines c hc a.v a.k 0 h1 h2 _ (by simp [IArr.empty]), ?_, ?_⟩
  · have : (IArr.empty : IArr (List β)).v = [] := rfl
    simp only [this, List.nil_append, true_and]
    exact sameUpTo_of_eq fmt a _ (fun h => by simp [h])
  · simp [IArr.size, IArr.empty]

/-- A logging session: push a chunk of matrices, append it to the file clearing the log, and so on. -/
def session (c : Codec β Tok) : List (List (List β)) → IArr (List β) → List (List Tok) →
    Res (List (List Tok) × IArr (List β))
  | [], a, file => .ok (file, a)
  | ch :: chs, a, file => do
    let (file, a) ← writeInFile c (ch.foldl IArr.pushBack a) file true true true
    session c chs a file

theorem foldl_pushBack (ch : List (List β)) (a : IArr (List β)) :
    ch.foldl IArr.pushBack a = ⟨a.k, a.v ++ ch⟩ := by
  induction ch generalizing a with
  | nil => simp
  | cons x xs ih => simp [ih, IArr.pushBack]

theorem session_file (c : Codec β Tok) (chs : List (List (List β))) (k : Int) (file : List (List Tok)) :
    session c chs ⟨k, []⟩ file = .ok (file ++ lines c k chs.flatten, ⟨k + chs.flatten.length, []⟩) := by
  induction chs generalizing k file with
  | nil => simp [session, lines]
  | cons ch chs ih =>
    simp only [session, foldl_pushBack, writeInFile, if_true, Res.ok_bind, IArr.clear, List.nil_append]
    rw [ih, List.flatten_cons, lines_append, List.append_assoc]
    simp only [List.length_append]
    congr 3; push_cast; omega

/-- **C05**, append mode: after any number of "push a chunk, append to the file and clear the log" rounds starting from an
empty file, reading the file gives everything that was ever pushed, at consecutive indexes. -/
theorem C05_append_session (c : Codec β Tok) {fmt : β → β} (hc : Codec.Ok c fmt) (zero : β) (rows cols : Nat)
    (chs : List (List (List β))) (hm : ∀ m ∈ chs.flatten, m.length = rows * cols) (k : Int)
    (h1 : -2 ^ 31 ≤ k) (h2 : k + chs.flatten.length ≤ 2 ^ 31) (fuel : Nat) (hf : chs.flatten.length < fuel) :
    ∃ file b, session c chs ⟨k, []⟩ [] = .ok (file, b) ∧
      ∃ a', readFromFile c zero file rows cols true fuel = .ok a' ∧ SameUpTo fmt ⟨k, chs.flatten⟩ a' := by
  refine ⟨_, _, session_file c chs k [], ?_⟩
  refine ⟨_, readLoop_lines c hc zero (rows * cols) chs.flatten hm k 0 h1 h2 _ (by simp) _ (by simp [IArr.empty]) fuel hf, ?_⟩
  have : (IArr.empty : IArr (List β)).v = [] := rfl
  simp only [this, List.nil_append, true_and]
  exact sameUpTo_of_eq fmt ⟨k, chs.flatten⟩ _ (fun h => by rw [if_pos h])

/-- **C05** without time stamps, `readVectorsFromFile`: a file with one vector per line is read exactly. -/
theorem C05_noStamp_readVectors (c : Codec β Tok) {fmt : β → β} (hc : Codec.Ok c fmt) (vs : List (List β)) :
    readVectorsFromFile c (vs.map (List.map c.pVal)) false = .ok ⟨0, vs.map (List.map fmt)⟩ := by
  have := readVecLoop_nostamp c hc vs 0 IArr.empty (Or.inl rfl)
  simpa [readVectorsFromFile, IArr.empty] using this

/-- **C05** without time stamps is false for `readFromFile`: for *every* file holding at least one matrix, the last matrix is
read twice (the end of the file is only noticed after one more matrix has been stored, definitions.hxx 528-540). -/
theorem C05_noStamp_readFromFile_duplicates_last (c : Codec β Tok) {fmt : β → β} (hc : Codec.Ok c fmt) (zero : β)
    (rows cols : Nat) (h0 : 0 < rows * cols) (ms : List (List β)) (last : List β)
    (hn : ∀ m ∈ ms ++ [last], m.length = rows * cols) (fuel : Nat) (hf : ms.length + 2 < fuel) :
    readFromFile c zero ((ms ++ [last]).map (List.map c.pVal)) rows cols false fuel =
      .ok ⟨0, (ms ++ [last, last]).map (List.map fmt)⟩ := by
  have := readLoop_nostamp c hc zero (rows * cols) h0 (ms ++ [last]) hn 0 (List.replicate (rows * cols) zero) (by simp)
    IArr.empty (Or.inl rfl) fuel (by simp; omega)
  simpa [readFromFile, IArr.empty] using this

/-- An empty file read without time stamps gives one (zero) matrix instead of none. -/
theorem C05_noStamp_empty_file (c : Codec β Tok) {fmt : β → β} (hc : Codec.Ok c fmt) (zero : β) (rows cols : Nat)
    (h0 : 0 < rows * cols) (fuel : Nat) (hf : 1 < fuel) :
    readFromFile c zero [] rows cols false fuel = .ok ⟨0, [List.replicate (rows * cols) zero]⟩ := by
  have := readLoop_nostamp c hc zero (rows * cols) h0 [] (by simp) 0 (List.replicate (rows * cols) zero) (by simp)
    IArr.empty (Or.inl rfl) fuel (by simpa using hf)
  simpa [readFromFile, IArr.empty] using this

/-- A file that cannot be opened for writing is reported by an exception. -/
theorem C05_write_unopenable (c : Codec β Tok) (a : IArr (List β)) (old : List (List Tok)) (cl ap : Bool) :
    writeInFile c a old cl ap false = .exn := rfl

/-- Non-vacuity: a codec satisfying the assumption (tokens are the numbers themselves, with the values rounded to even
numbers), and a non-trivial array. -/
def exCodec : Codec Int Int := ⟨id, some, id, fun x => some (x / 2 * 2)⟩
example : Codec.Ok exCodec (fun x => x / 2 * 2) := ⟨fun _ _ _ => rfl, fun _ => rfl⟩
example : readFromFile exCodec 0 [[5, 7, 8], [6, 9, 1]] 1 2 true 5 = .ok ⟨5, [[6, 8], [8, 0]]⟩ := by decide
example : readFromFile exCodec 0 [[7, 8], [9, 1]] 1 2 false 5 = .ok ⟨0, [[6, 8], [8, 0], [8, 0]]⟩ := by decide

end StateObs.LogFile
