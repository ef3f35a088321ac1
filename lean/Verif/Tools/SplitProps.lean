import Verif.Tools.SplitSpec
import Verif.OutcomeLaws
/-!
# C138: splitting the logs
-/

namespace StateObs.Tools
open StateObs

variable {β ρ : Type}

theorem segment_append {a b c : List β} {n i : Nat} (ha : a.length = i) (hb : b.length = n) : segment n i (a ++ (b ++ c)) = .ok b := by
  subst ha hb
  rw [segment, if_pos (by simp)]
  simp

theorem setAll_map {σ : Type} (F F' : σ → IArr (List β)) (x : σ → List β) (i : Int) : ∀ (cols : List σ), (∀ c ∈ cols, (F c).setValue (x c) i = .ok (F' c)) →
    setAll (cols.map F) (cols.map x) i = .ok (cols.map F')
  | [], _ => rfl
  | c :: cols, h => by
    simp only [List.map_cons, setAll]
    rw [h c (by simp), Res.ok_bind, setAll_map F F' x i cols fun d hd => h d (by simp [hd])]
    rfl

theorem len2 {l : List β} (h : l.length = 2) : ∃ a b, l = [a, b] := by
  match l, h with
  | [a, b], _ => exact ⟨a, b, rfl⟩

theorem len3 {l : List β} (h : l.length = 3) : ∃ a b c, l = [a, b, c] := by
  match l, h with
  | [a, b, c], _ => exact ⟨a, b, c, rfl⟩

theorem len6 {l : List β} (h : l.length = 6) : ∃ a b c d e f, l = [a, b, c, d, e, f] := by
  match l, h with
  | [a, b, c, d, e, f], _ => exact ⟨a, b, c, d, e, f, rfl⟩

theorem len12 {l : List β} (h : l.length = 12) : ∃ a b c d e f g h i j k m, l = [a, b, c, d, e, f, g, h, i, j, k, m] := by
  match l, h with
  | [a, b, c, d, e, f, g, h, i, j, k, m], _ => exact ⟨a, b, c, d, e, f, g, h, i, j, k, m, rfl⟩

/-- Two parts at most. -/
theorem two_parts {l : List (List β)} (h : l.length ≤ 2) : l = [] ∨ (∃ a, l = [a]) ∨ ∃ a b, l = [a, b] := by
  match l, h with
  | [], _ => exact .inl rfl
  | [a], _ => exact .inr (.inl ⟨a, rfl⟩)
  | [a, b], _ => exact .inr (.inr ⟨a, b, rfl⟩)

/-- The array of the values of a column, for the rows done. -/
def column (k : Int) (l : List ρ) (c : ρ → List β) : IArr (List β) := ⟨if l = [] then 0 else k, l.map c⟩

theorem column_set (k : Int) (l : List ρ) (r : ρ) (c : ρ → List β) : (column k l c).setValue (c r) (k + l.length) = .ok (column k (l ++ [r]) c) := by
  cases l with
  | nil => simp [column, IArr.setValue, IArr.checkIndex, IArr.checkNext]
  | cons a l =>
    have h : (column k (a :: l) c).checkIndex (k + (a :: l).length) = false := by
      simp [column, IArr.checkIndex]
    rw [IArr.setValue, h]
    simp [column, IArr.checkNext]

theorem get_at (k : Int) (l : List (List β)) (v : List β) (m : List (List β)) : (⟨k, l ++ v :: m⟩ : IArr (List β)).get (k + l.length) = .ok v := by
  have : (⟨k, l ++ v :: m⟩ : IArr (List β)).checkIndex (k + l.length) = true := by
    simp [IArr.checkIndex]
    omega
  have e : (k + (l.length : Int) - k).toNat = l.length := by omega
  simp only [IArr.get, this, e, Res.assert_true, Res.ok_bind]
  simp

/-- When each vector of the log is cut into the columns, the loop makes the arrays of the columns. -/
theorem splitLoop_columns {row : List β → Res (Option (List (List β)))} (vec : ρ → List β) (cols : List (ρ → List β)) (k : Int) (rest : List (List β)) (m : Nat) :
    ∀ (todo done : List ρ), (∀ r ∈ todo, row (vec r) = .ok (some (cols.map fun c => c r))) →
    splitLoop row ⟨k, (done ++ todo).map vec ++ rest⟩ (todo.length + m) (k + done.length) (cols.map (column k done)) =
      splitLoop row ⟨k, (done ++ todo).map vec ++ rest⟩ m (k + (done ++ todo).length) (cols.map (column k (done ++ todo)))
  | [], done, _ => by simp
  | r :: todo, done, h => by
    have e : (done ++ r :: todo).map vec ++ rest = done.map vec ++ vec r :: (todo.map vec ++ rest) := by simp
    have g := get_at k (done.map vec) (vec r) (todo.map vec ++ rest)
    rw [← e, List.length_map] at g
    have hn : (r :: todo).length + m = (todo.length + m) + 1 := by simp; omega
    rw [hn, splitLoop, g, Res.ok_bind, h r (by simp), Res.ok_bind]
    simp only
    rw [setAll_map (column k done) (column k (done ++ [r])) (fun c => c r) _ cols fun c _ => column_set k done r c, Res.ok_bind]
    have ih := splitLoop_columns vec cols k rest m todo (done ++ [r]) fun q hq => h q (by simp [hq])
    have e2 : done ++ [r] ++ todo = done ++ r :: todo := by simp
    have e3 : (k + done.length + 1 : Int) = k + (done ++ [r]).length := by simp; omega
    rw [e2] at ih
    rw [e3, ih]

theorem split_columns {row : List β → Res (Option (List (List β)))} (vec : ρ → List β) (cols : List (ρ → List β)) (k : Int) {rows : List ρ} (h0 : rows ≠ [])
    (h : ∀ r ∈ rows, row (vec r) = .ok (some (cols.map fun c => c r))) :
    splitLoop row ⟨k, rows.map vec⟩ rows.length k (List.replicate cols.length IArr.empty) = .ok (cols.map fun c => ⟨k, rows.map c⟩) := by
  have := splitLoop_columns vec cols k [] 0 rows [] h
  simp only [List.nil_append, List.append_nil, Nat.add_zero, List.length_nil, Int.natCast_zero, Int.add_zero, splitLoop] at this
  have e : List.replicate cols.length (IArr.empty : IArr (List β)) = cols.map (column k []) := by
    symm
    rw [List.eq_replicate_iff]
    refine ⟨by simp, fun b hb => ?_⟩
    obtain ⟨c, -, rfl⟩ := List.mem_map.1 hb
    simp [column, IArr.empty]
  rw [e, this]
  simp [column, h0]

/-- **C138**, what holds for the states: every file holds its part of the state at the same indices, but the file of the bias also holds the first component of the drift. -/
theorem C138_states_partial (k : Int) (rows : List (StateRow β)) (h0 : rows ≠ []) (h : ∀ r ∈ rows, r.Sized) :
    splitStates ⟨k, rows.map StateRow.vec⟩ = .ok (stateFiles (fun r => r.comBias ++ r.drift.take 1) k rows) := by
  have key := split_columns (row := rowX) StateRow.vec [StateRow.pos, StateRow.ori, StateRow.linVel, StateRow.angVel, StateRow.fc1, StateRow.fc2, StateRow.unmodeledForces,
    fun r => r.comBias ++ r.drift.take 1, StateRow.drift] k h0 ?_
  · rw [splitStates, IArr.size, List.length_map]
    exact key
  · intro r hr
    obtain ⟨h1, h2, h3, h4, h5, h6, h7, h8, h9⟩ := h r hr
    obtain ⟨r1, r2, r3, r4, r5, r6, r7, r8, r9⟩ := r
    obtain ⟨_, _, _, rfl⟩ := len3 h1
    obtain ⟨_, _, _, rfl⟩ := len3 h2
    obtain ⟨_, _, _, rfl⟩ := len3 h3
    obtain ⟨_, _, _, rfl⟩ := len3 h4
    obtain ⟨_, _, _, _, _, _, rfl⟩ := len6 h5
    obtain ⟨_, _, _, _, _, _, rfl⟩ := len6 h6
    obtain ⟨_, _, _, _, _, _, rfl⟩ := len6 h7
    obtain ⟨_, _, rfl⟩ := len2 h8
    obtain ⟨_, _, _, rfl⟩ := len3 h9
    rfl

/-- The part of a state log that a file shows is not always the bias alone. -/
theorem C138_states_false (a : β) : ¬ C138_states_statement β := by
  intro h
  let r : StateRow β := ⟨[a, a, a], [a, a, a], [a, a, a], [a, a, a], [a, a, a, a, a, a], [a, a, a, a, a, a], [a, a, a, a, a, a], [a, a], [a, a, a]⟩
  have hs : ∀ q ∈ [r], q.Sized := fun q hq => by
    rw [List.mem_singleton.1 hq]
    exact ⟨rfl, rfl, rfl, rfl, rfl, rfl, rfl, rfl, rfl⟩
  have e := (C138_states_partial 0 [r] (by simp) hs).symm.trans (h 0 [r] (by simp) hs)
  simp [stateFiles, r] at e

theorem rowY_eq (num : Nat → β) {r : MeasRow β} (h : r.Sized) : rowY num r.vec = .ok (some [r.acc, r.gyro, entry num r.forces 0, entry num r.forces 1]) := by
  obtain ⟨h1, h2, h3, h4⟩ := h
  obtain ⟨r1, r2, r3⟩ := r
  obtain ⟨_, _, _, rfl⟩ := len3 h1
  obtain ⟨_, _, _, rfl⟩ := len3 h2
  obtain rfl | ⟨a, rfl⟩ | ⟨a, b, rfl⟩ := two_parts h3
  · rfl
  · obtain ⟨_, _, _, _, _, _, rfl⟩ := len6 (h4 a (by simp))
    rfl
  · obtain ⟨_, _, _, _, _, _, rfl⟩ := len6 (h4 a (by simp))
    obtain ⟨_, _, _, _, _, _, rfl⟩ := len6 (h4 b (by simp))
    rfl

/-- **C138** for the measurements: every file holds its part of the measurement at the same indices; the files of the forces hold the number of contacts at the instant, and the
wrench at the contact when there is one. -/
theorem C138_measurements (num : Nat → β) (k : Int) (rows : List (MeasRow β)) (h0 : rows ≠ []) (h : ∀ r ∈ rows, r.Sized) :
    splitMeasurements num ⟨k, rows.map MeasRow.vec⟩ = .ok (measFiles num k rows) := by
  have key := split_columns (row := rowY num) MeasRow.vec [MeasRow.acc, MeasRow.gyro, fun r => entry num r.forces 0, fun r => entry num r.forces 1] k h0
    fun r hr => rowY_eq num (h r hr)
  rw [splitMeasurements, IArr.size, List.length_map]
  exact key

/-- **C138** An instant without measurement (an empty line of the log) between two measurements stops the tool. -/
theorem C138_gap_false (num : Nat → β) (k : Int) (rows : List (MeasRow β)) (h0 : rows ≠ []) (h : ∀ r ∈ rows, r.Sized) (r : MeasRow β) (hr : r.Sized) (rest : List (List β)) :
    splitMeasurements num ⟨k, rows.map MeasRow.vec ++ [] :: r.vec :: rest⟩ = .assertFail := by
  have key := splitLoop_columns (row := rowY num) MeasRow.vec [MeasRow.acc, MeasRow.gyro, fun r => entry num r.forces 0, fun r => entry num r.forces 1] k
    ([] :: r.vec :: rest) (rest.length + 2) rows [] fun r hr => rowY_eq num (h r hr)
  have e : [MeasRow.acc, MeasRow.gyro, fun r => entry num r.forces 0, fun r => entry num r.forces 1].map (column k []) = List.replicate 4 (IArr.empty : IArr (List β)) := rfl
  rw [e] at key
  simp only [List.nil_append, List.length_nil, Int.natCast_zero, Int.add_zero] at key
  have hl : (⟨k, rows.map MeasRow.vec ++ [] :: r.vec :: rest⟩ : IArr (List β)).size = rows.length + (rest.length + 2) := by simp [IArr.size]
  rw [splitMeasurements, hl]
  refine key.trans ?_
  have g1 := get_at k (rows.map MeasRow.vec) [] (r.vec :: rest)
  have g2 := get_at k (rows.map MeasRow.vec ++ [[]]) r.vec rest
  simp only [List.length_map, List.append_assoc, List.singleton_append, List.length_append, List.length_singleton] at g1 g2
  have e2 : (k + rows.length + 1 : Int) = k + ((rows.length + 1 : Nat) : Int) := by omega
  rw [splitLoop, g1, Res.ok_bind, show rowY num ([] : List β) = .ok none from rfl, Res.ok_bind]
  simp only
  rw [splitLoop, e2, g2, Res.ok_bind, rowY_eq num hr, Res.ok_bind]
  have hs : (column k rows MeasRow.acc).setValue r.acc (k + ((rows.length + 1 : Nat) : Int)) = .assertFail := by
    have hc : (column k rows MeasRow.acc).checkIndex (k + ((rows.length + 1 : Nat) : Int)) = false := by
      simp [column, IArr.checkIndex, h0]
      omega
    have hn : (column k rows MeasRow.acc).checkNext (k + ((rows.length + 1 : Nat) : Int)) = false := by
      have hl : rows.length ≠ 0 := fun e => h0 (List.length_eq_zero_iff.1 e)
      simp [column, IArr.checkNext, h0]
      try omega
    rw [IArr.setValue, hc, hn]
    rfl
  simp only [List.map_cons, setAll, hs, Res.assertFail_bind]

/-- The base part and the contacts. -/
def InputRow.parts (r : InputRow β) : List (List β) :=
  [r.posCom, r.velCom, r.accCom, r.inertia, r.angMoment, r.dotInertia, r.dotAngMoment, r.posIMU, r.oriIMU, r.linVelIMU, r.angVelIMU, r.linAccIMU, r.additionalForces]

/-- Successive places of the given sizes. -/
def places : Nat → List Nat → List (Nat × Nat)
  | _, [] => []
  | i, n :: l => (n, i) :: places (i + n) l

theorem segments_places : ∀ (ps : List (List β)) (pre post : List β), segments (places pre.length (ps.map List.length)) (pre ++ (ps.flatten ++ post)) = .ok ps
  | [], _, _ => rfl
  | p :: ps, pre, post => by
    have ih := segments_places ps (pre ++ p) post
    have e : pre ++ ((p :: ps).flatten ++ post) = pre ++ (p ++ (ps.flatten ++ post)) := by simp
    rw [e]
    simp only [List.map_cons, places, segments]
    rw [segment_append rfl rfl, Res.ok_bind]
    rw [List.length_append, List.append_assoc] at ih
    rw [ih]
    rfl

/-- The parts of a row, and where they are. -/
theorem parts_at {r : InputRow β} (h : r.Sized) : r.parts.flatten.length = 48 ∧ r.vec = r.parts.flatten ++ r.contacts.flatten ∧
    segments [(3, 0), (3, 3), (3, 6), (6, 9), (3, 15), (6, 18), (3, 24), (3, 27), (3, 30), (3, 33), (3, 36), (3, 39), (6, 42)] (r.parts.flatten ++ r.contacts.flatten) =
      .ok r.parts := by
  have hp : r.parts.map List.length = [3, 3, 3, 6, 3, 6, 3, 3, 3, 3, 3, 3, 6] := by
    simp [InputRow.parts, h.posCom, h.velCom, h.accCom, h.inertia, h.angMoment, h.dotInertia, h.dotAngMoment, h.posIMU, h.oriIMU, h.linVelIMU, h.angVelIMU, h.linAccIMU,
      h.additionalForces]
  refine ⟨by rw [List.length_flatten, hp]; rfl, by simp [InputRow.vec, InputRow.parts], ?_⟩
  have := segments_places r.parts [] r.contacts.flatten
  rw [hp] at this
  exact this

theorem contact_at {p : List β} (hp : p.length = 48) {a b : List β} (ha : a.length = 12) (hb : b.length = 12) :
    segment 12 48 (p ++ [a].flatten) = .ok a ∧ segment 12 48 (p ++ [a, b].flatten) = .ok a ∧ segment 12 (48 + 12) (p ++ [a, b].flatten) = .ok b ∧
      segment 12 48 (p ++ ([] : List (List β)).flatten) = .assertFail := by
  refine ⟨?_, ?_, ?_, ?_⟩
  · have := segment_append (c := []) hp ha
    simpa using this
  · have := segment_append (c := b) hp ha
    simpa using this
  · have := segment_append (a := p ++ a) (c := []) (i := 48 + 12) (by simp [hp, ha]) hb
    simpa using this
  · rw [segment, if_neg]
    simp [hp]

theorem rowU_long (num : Nat → β) {size : Nat} (hs : 48 < size) {r : InputRow β} (h : r.Sized) :
    rowU num size r.vec = if r.contacts = [] then .assertFail else .ok (some (r.parts ++ [entry num r.contacts 0, entry num r.contacts 1])) := by
  obtain ⟨hl, hv, hb⟩ := parts_at h
  obtain ⟨h14, h15⟩ := h.contacts
  rw [hv, rowU, hb, Res.ok_bind]
  simp only [gt_iff_lt, if_pos hs]
  obtain e | ⟨a, e⟩ | ⟨a, b, e⟩ := two_parts h14
  · rw [e, (contact_at hl (a := List.replicate 12 (num 0)) (b := List.replicate 12 (num 0)) (by simp) (by simp)).2.2.2]
    rfl
  · have ha := h15 a (by simp [e])
    rw [e, (contact_at hl ha ha).1]
    simp [hl, ha, entry]
  · have ha := h15 a (by simp [e])
    have hb := h15 b (by simp [e])
    rw [e, (contact_at hl ha hb).2.1, (contact_at hl ha hb).2.2.1]
    simp [hl, ha, hb, entry, setHead]

theorem rowU_short (num : Nat → β) {size : Nat} (hs : size ≤ 48) {r : InputRow β} (h : r.Sized) :
    rowU num size r.vec = .ok (some (r.parts ++ [[num (r.contacts.length - 1)], num (r.contacts.length - 1) :: (r.contacts[1]?).getD []])) := by
  obtain ⟨hl, hv, hb⟩ := parts_at h
  obtain ⟨h14, h15⟩ := h.contacts
  rw [hv, rowU, hb, Res.ok_bind]
  simp only [gt_iff_lt, if_neg (Nat.not_lt.2 hs)]
  obtain e | ⟨a, e⟩ | ⟨a, b, e⟩ := two_parts h14
  · rw [e]
    simp [hl]
  · have ha := h15 a (by simp [e])
    rw [e]
    simp [hl, ha]
  · have ha := h15 a (by simp [e])
    have hb := h15 b (by simp [e])
    rw [e, (contact_at hl ha hb).2.2.1]
    simp [hl, ha, hb, setHead]

/-- The columns of the base part. -/
def baseCols (β : Type) : List (InputRow β → List β) :=
  [InputRow.posCom, InputRow.velCom, InputRow.accCom, InputRow.inertia, InputRow.angMoment, InputRow.dotInertia, InputRow.dotAngMoment, InputRow.posIMU, InputRow.oriIMU,
    InputRow.linVelIMU, InputRow.angVelIMU, InputRow.linAccIMU, InputRow.additionalForces]

/-- **C138**, what holds for the inputs: the files are the expected ones for a log of more than 48 instants where there is always a contact, and for a log of at most 48 instants
without contact. -/
theorem C138_inputs_partial (num : Nat → β) (k : Int) (rows : List (InputRow β)) (h0 : rows ≠ []) (h : ∀ r ∈ rows, r.Sized)
    (hc : (48 < rows.length ∧ ∀ r ∈ rows, r.contacts ≠ []) ∨ (rows.length ≤ 48 ∧ ∀ r ∈ rows, r.contacts = [])) :
    splitInputs num ⟨k, rows.map InputRow.vec⟩ = .ok (inputFiles num k rows) := by
  have key := split_columns (row := rowU num rows.length) InputRow.vec (baseCols β ++ [fun r : InputRow β => entry num r.contacts 0, fun r : InputRow β => entry num r.contacts 1]) k h0 ?_
  · rw [splitInputs, IArr.size, List.length_map]
    exact key
  · intro r hr
    obtain ⟨h1, h2⟩ | ⟨h1, h2⟩ := hc
    · rw [rowU_long num h1 (h r hr), if_neg (h2 r hr)]
      rfl
    · rw [rowU_short num h1 (h r hr), h2 r hr]
      simp [baseCols, InputRow.parts, entry, h2 r hr]

/-- **C138** In a log of at most 48 instants, the first contact is lost: its file only holds a number, which is one less than the number of contacts (zero if there is none). The file
of the second contact has the same number before the values. -/
theorem C138_inputs_short (num : Nat → β) (k : Int) (rows : List (InputRow β)) (h0 : rows ≠ []) (h : ∀ r ∈ rows, r.Sized) (hn : rows.length ≤ 48) :
    ∃ files, splitInputs num ⟨k, rows.map InputRow.vec⟩ = .ok files ∧ files.take 13 = (inputFiles num k rows).take 13 ∧
      files[13]? = some ⟨k, rows.map fun r => [num (r.contacts.length - 1)]⟩ ∧
      files[14]? = some ⟨k, rows.map fun r => num (r.contacts.length - 1) :: (r.contacts[1]?).getD []⟩ := by
  have key := split_columns (row := rowU num rows.length) InputRow.vec (baseCols β ++ [fun r : InputRow β => [num (r.contacts.length - 1)],
    fun r : InputRow β => num (r.contacts.length - 1) :: (r.contacts[1]?).getD []]) k h0 fun r hr => rowU_short num hn (h r hr)
  have e : splitInputs num ⟨k, rows.map InputRow.vec⟩ = splitLoop (rowU num rows.length) ⟨k, rows.map InputRow.vec⟩ rows.length k (List.replicate 15 IArr.empty) := by
    rw [splitInputs, IArr.size, List.length_map]
    rfl
  exact ⟨_, e.trans key, rfl, rfl, rfl⟩

/-- **C138** A log of more than 48 instants, one of them without contact, stops the tool. -/
theorem C138_inputs_long_false (num : Nat → β) (k : Int) (before : List (InputRow β)) (r : InputRow β) (after : List (InputRow β)) (h : ∀ q ∈ before ++ r :: after, q.Sized)
    (hn : 48 < (before ++ r :: after).length) (hb : ∀ q ∈ before, q.contacts ≠ []) (hr : r.contacts = []) :
    splitInputs num ⟨k, (before ++ r :: after).map InputRow.vec⟩ = .assertFail := by
  have key := splitLoop_columns (row := rowU num (before ++ r :: after).length) InputRow.vec (baseCols β ++ [fun r : InputRow β => entry num r.contacts 0, fun r : InputRow β => entry num r.contacts 1]) k
    ((r :: after).map InputRow.vec) (after.length + 1) before [] fun q hq => by
      rw [rowU_long num hn (h q (by simp [hq])), if_neg (hb q hq)]
      rfl
  have e : (baseCols β ++ [fun r : InputRow β => entry num r.contacts 0, fun r : InputRow β => entry num r.contacts 1]).map (column k []) = List.replicate 15 (IArr.empty : IArr (List β)) := rfl
  rw [e] at key
  simp only [List.nil_append, List.length_nil, Int.natCast_zero, Int.add_zero, ← List.map_append] at key
  have hl : before.length + (after.length + 1) = (before ++ r :: after).length := by simp
  rw [hl] at key
  rw [splitInputs, IArr.size, List.length_map]
  refine key.trans ?_
  have g := get_at k (before.map InputRow.vec) r.vec (after.map InputRow.vec)
  rw [← List.map_cons, ← List.map_append, List.length_map] at g
  rw [splitLoop, g, Res.ok_bind, rowU_long num hn (h r (by simp)), if_pos hr, Res.assertFail_bind]

theorem C138_inputs_false (num : Nat → β) (a : β) : ¬ C138_inputs_statement β num := by
  intro h
  let r : InputRow β := ⟨List.replicate 3 a, List.replicate 3 a, List.replicate 3 a, List.replicate 6 a, List.replicate 3 a, List.replicate 6 a, List.replicate 3 a, List.replicate 3 a,
    List.replicate 3 a, List.replicate 3 a, List.replicate 3 a, List.replicate 3 a, List.replicate 6 a, [List.replicate 12 a]⟩
  have hs : ∀ q ∈ [r], q.Sized := fun q hq => by
    rw [List.mem_singleton.1 hq]
    exact ⟨rfl, rfl, rfl, rfl, rfl, rfl, rfl, rfl, rfl, rfl, rfl, rfl, rfl, by simp [r]⟩
  obtain ⟨f, e, -, e2, -⟩ := C138_inputs_short num 0 [r] (by simp) hs (by simp)
  have := e.symm.trans (h 0 [r] (by simp) hs)
  cases this
  simp [inputFiles, entry, r] at e2

/-- The hypotheses of the theorems above: rows of all kinds exist, also in long logs. -/
theorem C138_example : ∃ (r r0 : InputRow Nat) (m : MeasRow Nat) (x : StateRow Nat), r.Sized ∧ r.contacts.length = 2 ∧ r0.Sized ∧ r0.contacts = [] ∧ m.Sized ∧ m.forces.length = 1 ∧ x.Sized ∧
    48 < (List.replicate 50 r).length ∧ (∀ q ∈ List.replicate 50 r, q.Sized ∧ q.contacts ≠ []) := by
  have hr : ∀ c : List (List Nat), c.length ≤ 2 ∧ (∀ b ∈ c, b.length = 12) → (⟨[1, 2, 3], [4, 5, 6], [7, 8, 9], [1, 2, 3, 4, 5, 6], [1, 2, 3], [1, 2, 3, 4, 5, 6], [1, 2, 3], [1, 2, 3],
      [1, 2, 3], [1, 2, 3], [1, 2, 3], [1, 2, 3], [1, 2, 3, 4, 5, 6], c⟩ : InputRow Nat).Sized := fun c hc => ⟨rfl, rfl, rfl, rfl, rfl, rfl, rfl, rfl, rfl, rfl, rfl, rfl, rfl, hc⟩
  have h2 := hr [List.replicate 12 5, List.replicate 12 7] (by simp)
  refine ⟨_, _, ⟨[1, 2, 3], [4, 5, 6], [[1, 2, 3, 4, 5, 6]]⟩, ⟨[1, 2, 3], [4, 5, 6], [7, 8, 9], [1, 2, 3], [1, 2, 3, 4, 5, 6], [1, 2, 3, 4, 5, 6], [1, 2, 3, 4, 5, 6], [1, 2], [3, 4, 5]⟩, h2, rfl,
    hr [] (by simp), rfl, ⟨rfl, rfl, by simp⟩, rfl, ⟨rfl, rfl, rfl, rfl, rfl, rfl, rfl, rfl, rfl⟩, by simp, fun q hq => ?_⟩
  rw [(List.mem_replicate.1 hq).2]
  exact ⟨h2, by simp⟩

end StateObs.Tools
