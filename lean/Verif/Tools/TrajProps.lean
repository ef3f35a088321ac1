import Verif.Tools.ReadProps
/-!
# Property C139, continued: the trajectory of one file
-/

namespace StateObs.Tools
open StateObs LogFile

variable {β Tok : Type}

theorem trajLoop_lines (c : Codec β Tok) {fmt : β → β} (hc : Codec.Ok c fmt) (zero : β) (mem : Nat → Int) (n : Nat) (r : List Tok) : ∀ (rows : List (List β)),
    (∀ v ∈ rows, v.length = n) → ∀ (k : Int), 0 ≤ k → k + rows.length ≤ 2 ^ 31 → ∀ (x0 : List β), x0.length = n → ∀ (y : IArr (List β)), (y.v = [] ∨ k = y.k + y.v.length) →
    ∀ (j f : Nat), ∃ x : List β, x.length = n ∧ trajLoop c zero mem (rows.length + f) j ⟨⟨(lines c k rows).flatten ++ r, false⟩, false⟩ x0 y =
        trajLoop c zero mem f (j + rows.length) ⟨⟨r, false⟩, false⟩ x ⟨if y.v = [] ∧ rows ≠ [] then k else y.k, y.v ++ rows.map (List.map fmt)⟩
  | [], _, k, _, _, x0, hx, y, _, j, f => ⟨x0, hx, by simp [lines]⟩
  | v :: rows, hv, k, h1, h2, x0, hx, y, hy, j, f => by
    have lv : v.length = n := hv v (by simp)
    obtain ⟨x, lx, e⟩ := trajLoop_lines c hc zero mem n r rows (fun u hu => hv u (by simp [hu])) (k + 1) (by omega) (by simp at h2; omega) (v.map fmt) (by simp [lv])
      ⟨if y.v = [] then k else y.k, y.v ++ [v.map fmt]⟩ (by
          right
          rcases hy with h | h
          · simp [h]
          · by_cases h0 : y.v = []
            · simp [h0]
            · simp [h0]; omega) (j + 1) f
    refine ⟨x, lx, ?_⟩
    have el : (v :: rows).length + f = (rows.length + f) + 1 := by simp; omega
    have hk : k < 2 ^ 31 := by simp at h2; omega
    have e1 : (lines c k (v :: rows)).flatten ++ r = c.pInt k :: (v.map c.pVal ++ ((lines c (k + 1) rows).flatten ++ r)) := by simp [lines, line]
    rw [el, e1, trajLoop, readInt_line c hc h1 hk]
    simp only [Bool.false_eq_true, if_false]
    rw [readVec_ok c hc zero _ v x0 (by rw [hx, lv])]
    simp only
    rw [setValue_next y _ k hy, Res.ok_bind, e]
    simp [Nat.add_assoc, Nat.add_comm 1]

/-- **C139** for the file of a trajectory: the array holds the lines of the file at their indices. -/
theorem C139_trajectory (c : Codec β Tok) {fmt : β → β} (hc : Codec.Ok c fmt) (zero : β) (mem : Nat → Int) {x0 : List β} (hx : x0.length = 6) {k : Int} (h1 : 0 ≤ k)
    (rows : List (List β)) (h2 : k + rows.length ≤ 2 ^ 31) (hv : ∀ v ∈ rows, v.length = 6) {fuel : Nat} (hf : rows.length < fuel) :
    readTrajectory c zero mem x0 (lines c k rows) fuel = .ok (if rows = [] then IArr.empty else ⟨k, rows.map (List.map fmt)⟩) := by
  obtain ⟨f, rfl⟩ : ∃ f, fuel = rows.length + (f + 1) := ⟨fuel - rows.length - 1, by omega⟩
  obtain ⟨x, -, e⟩ := trajLoop_lines c hc zero mem 6 [] rows hv k h1 h2 x0 hx IArr.empty (Or.inl rfl) 0 (f + 1)
  rw [List.append_nil] at e
  rw [readTrajectory, e, trajLoop, readInt_end]
  by_cases h0 : rows = []
  · simp [h0, IArr.empty]
  · simp [h0, IArr.empty]

/-- A stream that has failed before its end stays so. -/
theorem readVec_stuck (c : Codec β Tok) (zero : β) (t : List Tok) : ∀ m : List β, Source.readVec c zero ⟨⟨t, true⟩, false⟩ m = (⟨⟨t, true⟩, false⟩, m)
  | [] => rfl
  | x :: xs => by
    have ih := readVec_stuck c zero t xs
    simp [Source.readVec, Source.readVal, Stream.readVal, Source.eofAfter, ih]

theorem trajLoop_stuck (c : Codec β Tok) (zero : β) (mem : Nat → Int) (t : List Tok) : ∀ (fuel j : Nat) (x : List β) (up y : IArr (List β)),
    trajLoop c zero mem fuel j ⟨⟨t, true⟩, false⟩ x up ≠ .ok y
  | 0, _, _, _, _ => by simp [trajLoop]
  | fuel + 1, j, x, up, y => by
    have e : Source.readInt c ⟨⟨t, true⟩, false⟩ (mem j) = (⟨⟨t, true⟩, false⟩, mem j) := by simp [Source.readInt, Stream.readInt, Source.eofAfter]
    rw [trajLoop, e]
    simp only [Bool.false_eq_true, if_false, readVec_stuck]
    intro h
    obtain ⟨up', -, h⟩ := Res.bind_eq_ok.1 h
    exact trajLoop_stuck c zero mem t fuel (j + 1) x up' y h

/-- **C139** is false for a file with a word at the place of an index: the tool never ends, or stops on an assertion, whatever the memory holds. -/
theorem C139_malformed_false (c : Codec β Tok) {fmt : β → β} (hc : Codec.Ok c fmt) (zero : β) (mem : Nat → Int) {x0 : List β} (hx : x0.length = 6) {k : Int} (h1 : 0 ≤ k)
    (rows : List (List β)) (h2 : k + rows.length ≤ 2 ^ 31) (hv : ∀ v ∈ rows, v.length = 6) {word : Tok} (hw : c.rInt word = none) (rest : List (List Tok)) (fuel : Nat) (y : IArr (List β)) :
    readTrajectory c zero mem x0 (lines c k rows ++ [word] :: rest) fuel ≠ .ok y := by
  intro h
  have more : ∀ (fuel j : Nat) f x up, trajLoop c zero mem fuel j f x up = .ok y → ∀ m, trajLoop c zero mem (fuel + m) j f x up = .ok y := by
    intro fuel
    induction fuel with
    | zero => intro j f x up h; simp [trajLoop] at h
    | succ n ih =>
      intro j f x up h m
      rw [show n + 1 + m = (n + m) + 1 by omega, trajLoop]
      rw [trajLoop] at h
      simp only at h ⊢
      split at h
      · rename_i he
        rw [if_pos he]
        exact h
      · rename_i he
        rw [if_neg he]
        obtain ⟨up', h3, h⟩ := Res.bind_eq_ok.1 h
        exact Res.bind_eq_ok.2 ⟨up', h3, ih _ _ _ _ h m⟩
  have h := more _ _ _ _ _ h (rows.length + 1)
  rw [show fuel + (rows.length + 1) = rows.length + (fuel + 1) by omega] at h
  obtain ⟨x, -, e⟩ := trajLoop_lines c hc zero mem 6 (word :: rest.flatten) rows hv k h1 h2 x0 hx IArr.empty (Or.inl rfl) 0 (fuel + 1)
  have e2 : (lines c k rows ++ [word] :: rest).flatten = (lines c k rows).flatten ++ word :: rest.flatten := by simp
  rw [e2, e, trajLoop] at h
  have e3 : Source.readInt c ⟨⟨word :: rest.flatten, false⟩, false⟩ (mem (0 + rows.length)) = (⟨⟨rest.flatten, true⟩, false⟩, 0) := by
    simp [Source.readInt, Stream.readInt, Source.eofAfter, hw]
  rw [e3] at h
  simp only [Bool.false_eq_true, if_false, readVec_stuck] at h
  obtain ⟨up', -, h⟩ := Res.bind_eq_ok.1 h
  exact trajLoop_stuck c zero mem _ _ _ _ _ _ h

/-- A text format with a word that is not a number. -/
def words : Codec Int (Option Int) := ⟨some, id, some, id⟩

example : Codec.Ok words id ∧ words.rInt none = none ∧ (∀ v ∈ [[1, 2, 3, 4, 5, 6], [7, 8, 9, 10, 11, (12 : Int)]], v.length = 6) :=
  ⟨⟨fun _ _ _ => rfl, fun _ => rfl⟩, rfl, by simp⟩

end StateObs.Tools
