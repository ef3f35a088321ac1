import Mathlib.Data.Fin.VecNotation
import Mathlib.Tactic.FinCases
import Verif.Text.Lemmas
/-!
# C112: matrices printed and read back

`fmt x` is the number that is read from the text of `x` (the text has six significant digits).
-/

namespace StateObs.Text
variable {β : Type} {N : Num β} {fmt : β → β}

theorem good_coeffs {r c : ℕ} {m : Matrix (Fin r) (Fin c) β} (h : ∀ i j, Readable N (m i j) (fmt (m i j))) : ∀ x ∈ coeffs m, Readable N x (fmt x) := by
  intro x hx
  simp only [coeffs, List.mem_flatten, List.mem_ofFn'] at hx
  obtain ⟨l, ⟨i, rfl⟩, hx⟩ := hx
  obtain ⟨j, rfl⟩ := (List.mem_ofFn' _ _).1 hx
  exact h i j

/-- **C112**, sizes: a matrix that is printed and read with any sizes; the coefficients are taken line after line, those that are missing are zero. -/
theorem C112_sizes {r c : ℕ} (m : Matrix (Fin r) (Fin c) β) (h : ∀ i j, Readable N (m i j) (fmt (m i j))) (r' c' : ℕ) (i : Fin r') (j : Fin c') :
    stringToMatrix N (matrixToString N m) r' c' i j = if h : i.val * c' + j.val < r * c then
      fmt (m ⟨(i.val * c' + j.val) / c, Nat.div_lt_of_lt_mul (by rwa [Nat.mul_comm c r])⟩ ⟨(i.val * c' + j.val) % c, Nat.mod_lt _ (Nat.pos_of_ne_zero (by rintro rfl; simp at h))⟩) else N.zero := by
  have e := stringToMatrix_reads N (matrixToString N m) i j
  rw [reads_good N fmt (coeffs m) _ _ (good_coeffs h) (laid_matrix N m fun i j => (h i j).1)] at e
  have hlt : i.val * c' + j.val < r' * c' := by
    have : (i.val + 1) * c' ≤ r' * c' := Nat.mul_le_mul_right c' i.2
    rw [Nat.succ_mul] at this
    omega
  split_ifs with hk
  · rw [List.getElem?_append_left (by simp [coeffs_length, hlt, hk]), List.getElem?_take_of_lt hlt, List.getElem?_map, coeffs_div m hk] at e
    exact (Option.some.inj e).symm
  · rw [List.getElem?_append_right (by simp [coeffs_length]; omega), List.getElem?_replicate_of_lt (by simp [coeffs_length]; omega)] at e
    exact (Option.some.inj e).symm

/-- **C112** A matrix that is printed and read with its sizes is the same up to the text of its coefficients. -/
theorem C112_matrix {r c : ℕ} (m : Matrix (Fin r) (Fin c) β) (h : ∀ i j, Readable N (m i j) (fmt (m i j))) : stringToMatrix N (matrixToString N m) r c = m.map fmt := by
  funext i j
  have hlt : i.val * c + j.val < r * c := by
    have : (i.val + 1) * c ≤ r * c := Nat.mul_le_mul_right c i.2
    rw [Nat.succ_mul] at this
    omega
  have hc : 0 < c := lt_of_le_of_lt (Nat.zero_le _) j.2
  rw [C112_sizes m h r c i j, dif_pos hlt, Matrix.map_apply]
  congr 2
  · apply Fin.ext
    show (i.val * c + j.val) / c = i.val
    rw [Nat.mul_comm, Nat.mul_add_div hc, Nat.div_eq_of_lt j.2, Nat.add_zero]
  · apply Fin.ext
    show (i.val * c + j.val) % c = j.val
    rw [Nat.mul_comm, Nat.mul_add_mod, Nat.mod_eq_of_lt j.2]

/-- **C112** The text is stable: printing what has been read gives the same text again. -/
theorem C112_again {r c : ℕ} (m : Matrix (Fin r) (Fin c) β) (h : ∀ i j, Readable N (m i j) (fmt (m i j))) (hp : ∀ i j, N.print (fmt (m i j)) = N.print (m i j)) :
    matrixToString N (stringToMatrix N (matrixToString N m) r c) = matrixToString N m := by
  rw [C112_matrix m h]
  unfold matrixToString width
  simp only [Matrix.map_apply, hp]

/-- **C112** A vector that is printed and read without size: as many components. -/
theorem C112_vector {n : ℕ} (v : Fin n → β) (h : ∀ i, Readable N (v i) (fmt (v i))) : stringToVector N (vectorToString N v) = List.ofFn fun i => fmt (v i) := by
  have e := readAll_good N fmt _ _ (good_coeffs (m := fun (_ : Fin 1) j => v j) fun _ j => h j) (laid_matrix N (fun (_ : Fin 1) j => v j) fun _ j => (h j).1)
  refine e.trans ?_
  simp [coeffs, List.map_ofFn, Function.comp_def]

/-- **C112** A vector that is printed and read with a size: cut, or completed with zeros. -/
theorem C112_vector_size {n : ℕ} (v : Fin n → β) (h : ∀ i, Readable N (v i) (fmt (v i))) (k : ℕ) (i : Fin k) :
    stringToVectorN N (vectorToString N v) k i = if h : i.val < n then fmt (v ⟨i.val, h⟩) else N.zero := by
  refine (C112_sizes (fun (_ : Fin 1) j => v j) (fun _ j => h j) k 1 i 0).trans ?_
  simp only [Nat.mul_one, Fin.val_zero, Nat.add_zero, Nat.one_mul]
  split_ifs with hi
  · congr 2
    exact Fin.ext (Nat.mod_eq_of_lt hi)
  · rfl

/-- **C112** A matrix that is printed and read as a vector: its coefficients line after line. -/
theorem C112_flat {r c : ℕ} (m : Matrix (Fin r) (Fin c) β) (h : ∀ i j, Readable N (m i j) (fmt (m i j))) : stringToVector N (matrixToString N m) = (coeffs m).map fmt :=
  readAll_good N fmt _ _ (good_coeffs h) (laid_matrix N m fun i j => (h i j).1)

/-- **C112** is false for a matrix with a coefficient that is not finite: this coefficient and all those after it, finite or not, are read as zero. -/
theorem C112_unreadable_false {r c : ℕ} (m : Matrix (Fin r) (Fin c) β) (hw : ∀ i j, Word (N.print (m i j))) (i0 : Fin r) (j0 : Fin c) (hx : Unreadable N (m i0 j0))
    (h : ∀ i j, i < i0 ∨ (i = i0 ∧ j < j0) → Readable N (m i j) (fmt (m i j))) (i : Fin r) (j : Fin c) :
    stringToMatrix N (matrixToString N m) r c i j = if i < i0 ∨ (i = i0 ∧ j < j0) then fmt (m i j) else N.zero := by
  have hc : 0 < c := lt_of_le_of_lt (Nat.zero_le _) j.2
  have hlt : ∀ (i : Fin r) (j : Fin c), i.val * c + j.val < r * c := by
    intro i j
    have : (i.val + 1) * c ≤ r * c := Nat.mul_le_mul_right c i.2
    rw [Nat.succ_mul] at this
    omega
  have hord : ∀ (i : Fin r) (j : Fin c), i.val * c + j.val < i0.val * c + j0.val ↔ i < i0 ∨ (i = i0 ∧ j < j0) := by
    intro i j
    have hj := j.2
    have hj0 := j0.2
    rw [Fin.lt_def, Fin.lt_def, Fin.ext_iff]
    rcases Nat.lt_trichotomy i.val i0.val with hi | hi | hi
    · have : (i.val + 1) * c ≤ i0.val * c := Nat.mul_le_mul_right c hi
      rw [Nat.succ_mul] at this
      exact ⟨fun _ => .inl hi, fun _ => by omega⟩
    · rw [hi]
      exact ⟨fun h => .inr ⟨rfl, by omega⟩, fun h => by omega⟩
    · have : (i0.val + 1) * c ≤ i.val * c := Nat.mul_le_mul_right c hi
      rw [Nat.succ_mul] at this
      exact ⟨fun h => by omega, fun h => by omega⟩
  obtain ⟨k, hk⟩ : ∃ k, k = i0.val * c + j0.val := ⟨_, rfl⟩
  have hkl : k < (coeffs m).length := by rw [coeffs_length, hk]; exact hlt i0 j0
  have hget : (coeffs m)[k] = m i0 j0 := by
    have := coeffs_get m i0 j0
    rw [← hk, List.getElem?_eq_getElem hkl] at this
    exact Option.some.inj this
  have hsplit : coeffs m = (coeffs m).take k ++ m i0 j0 :: (coeffs m).drop (k + 1) := by
    rw [← hget, ← List.drop_eq_getElem_cons, List.take_append_drop]
  have hgood : ∀ x ∈ (coeffs m).take k, Readable N x (fmt x) := by
    intro x hx
    obtain ⟨q, hq, rfl⟩ := List.mem_iff_getElem.1 hx
    have hq' : q < k := by
      rw [List.length_take] at hq
      omega
    have hqr : q < r * c := by rw [← coeffs_length m]; omega
    rw [List.getElem_take]
    have e := coeffs_div m hqr
    rw [List.getElem?_eq_getElem (by omega)] at e
    rw [Option.some.inj e]
    refine h _ _ ((hord _ _).1 ?_)
    rw [← hk]
    simp only
    rw [Nat.mul_comm, Nat.div_add_mod]
    exact hq'
  have hl := laid_matrix N m hw
  rw [hsplit] at hl
  have e := stringToMatrix_reads N (matrixToString N m) i j
  rw [reads_bad N fmt _ hx _ _ _ _ hgood hl, List.length_take, Nat.min_eq_left hkl.le] at e
  have hkr : k < r * c := by rw [← coeffs_length m]; exact hkl
  split_ifs with hij
  · have hq := (hord i j).2 hij
    rw [← hk] at hq
    rw [List.getElem?_append_left (by simp [coeffs_length]; omega), List.getElem?_take_of_lt (hlt i j), List.getElem?_map, List.getElem?_take_of_lt hq, coeffs_get] at e
    exact (Option.some.inj e).symm
  · have hq := mt (hord i j).1 hij
    rw [← hk] at hq
    have := hlt i j
    rw [List.getElem?_append_right (by simp [coeffs_length]; omega), List.getElem?_replicate_of_lt (by simp [coeffs_length]; omega)] at e
    exact (Option.some.inj e).symm

/-- Numbers for the examples: naturals printed in base one and ended by `0`, and one number printed `nan` that cannot be read. -/
def exNum : Num (Option ℕ) where
  print
    | some n => List.replicate n '1' ++ ['0']
    | none => ['n', 'a', 'n']
  scan t :=
    match t.dropWhile (· = '1') with
    | '0' :: r => some (some (t.takeWhile (· = '1')).length, r)
    | _ => none
  zero := some 0
  shorter := by
    intro t x r h
    have hd : (t.dropWhile (· = '1')).length ≤ t.length := (List.dropWhile_suffix _).length_le
    split at h
    · rename_i r' e
      cases h
      rw [e] at hd
      exact hd
    · cases h

theorem ex_readable (n : ℕ) : Readable exNum (some n) (some n) := by
  refine ⟨?_, fun t _ => ?_⟩
  · cases n with
    | zero => exact ⟨'0', [], rfl, by decide⟩
    | succ n => exact ⟨'1', _, rfl, by decide⟩
  · have e1 : (List.replicate n '1' ++ ['0'] ++ t).dropWhile (· = '1') = '0' :: t := by
      induction n with
      | zero => rfl
      | succ n ih => simp [List.replicate_succ]
    have e2 : ((List.replicate n '1' ++ ['0'] ++ t).takeWhile (· = '1')).length = n := by
      induction n with
      | zero => rfl
      | succ n ih => simp [List.replicate_succ]
    show (match (List.replicate n '1' ++ ['0'] ++ t).dropWhile (· = '1') with
      | '0' :: r => some (some ((List.replicate n '1' ++ ['0'] ++ t).takeWhile (· = '1')).length, r)
      | _ => none) = _
    rw [e1, e2]
    rfl

theorem ex_unreadable : Unreadable exNum none := by
  refine ⟨⟨'n', _, rfl, by decide⟩, fun t _ => ?_⟩
  show (match (['n', 'a', 'n'] ++ t).dropWhile (· = '1') with
      | '0' :: r => some (some ((['n', 'a', 'n'] ++ t).takeWhile (· = '1')).length, r)
      | _ => none) = _
  rfl

/-- **C112**, cases: a matrix of numbers that can be read, and one with a number that cannot be read before others. -/
theorem C112_example : (∀ (m : Matrix (Fin 2) (Fin 3) ℕ), ∀ i j, Readable exNum (some (m i j)) (id (some (m i j)))) ∧
    stringToMatrix exNum (matrixToString exNum (Matrix.of ![![some 3, none], ![some 1, some 2]])) 2 2 = Matrix.of ![![some 3, some 0], ![some 0, some 0]] := by
  refine ⟨fun m i j => ex_readable _, ?_⟩
  funext i j
  refine (C112_unreadable_false (N := exNum) (fmt := id) _ ?_ 0 1 ex_unreadable ?_ i j).trans ?_
  · intro i j
    fin_cases i <;> fin_cases j <;> first | exact (ex_readable _).1 | exact ex_unreadable.1
  · intro i j h
    fin_cases i <;> fin_cases j <;> first | exact ex_readable _ | simp at h
  · fin_cases i <;> fin_cases j <;> rfl

end StateObs.Text
