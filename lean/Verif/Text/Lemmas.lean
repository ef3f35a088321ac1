import Verif.Text.Spec
/-! # Texts made of words -/

namespace StateObs.Text
variable {β : Type}

/-- The words of a text. -/
inductive Laid : List (List Char) → List Char → Prop
  | nil (b : List Char) (h : ∀ c ∈ b, Blank c) : Laid [] b
  | cons (b : List Char) (h : ∀ c ∈ b, Blank c) (w : List Char) (hw : ∃ c l, w = c :: l ∧ ¬ Blank c) (ws t) (hs : Stops t) (ht : Laid ws t) : Laid (w :: ws) (b ++ w ++ t)

theorem Laid.blanks {ws t} (h : Laid ws t) (b : List Char) (hb : ∀ c ∈ b, Blank c) : Laid ws (b ++ t) := by
  cases h with
  | nil b' h' => exact .nil _ (fun c hc => (List.mem_append.1 hc).elim (hb c) (h' c))
  | cons b' h' w hw ws t hs ht =>
    have := Laid.cons (b ++ b') (fun c hc => (List.mem_append.1 hc).elim (hb c) (h' c)) w hw ws t hs ht
    simpa [List.append_assoc] using this

theorem Stops.append {t t' : List Char} (h : Stops t) (h' : Stops t') : Stops (t ++ t') := by
  intro c l e
  cases t with
  | nil => exact h' c l e
  | cons d t =>
    cases e
    exact h c t rfl

theorem stops_blanks {b : List Char} (h : ∀ c ∈ b, Blank c) : Stops b := by
  intro c l e
  exact h c (by rw [e]; exact List.mem_cons_self)

theorem Laid.append {ws t ws' t'} (h : Laid ws t) (h' : Laid ws' t') (hs' : Stops t') : Laid (ws ++ ws') (t ++ t') := by
  induction h with
  | nil b hb => exact h'.blanks b hb
  | cons b hb w hw ws t hs ht ih =>
    have := Laid.cons b hb w hw _ _ (hs.append hs') ih
    simpa [List.append_assoc] using this

theorem laid_join {sep : Char} (hs : Blank sep) : ∀ (l : List (List (List Char) × List Char)), (∀ p ∈ l, Laid p.1 p.2) → Laid (l.map Prod.fst).flatten (join sep (l.map Prod.snd))
  | [], _ => .nil [] (by simp)
  | [p], h => by simpa [join] using h p (by simp)
  | p :: q :: l, h => by
    have h1 := h p (by simp)
    have h2 := laid_join hs (q :: l) (fun x hx => h x (by simp [hx]))
    have h3 := h2.blanks [sep] (by simpa using hs)
    have h4 : Stops ([sep] ++ join sep ((q :: l).map Prod.snd)) := by
      intro c l e
      cases e
      exact hs
    exact h1.append h3 h4

theorem laid_pad {w : List Char} (hw : ∃ c l, w = c :: l ∧ ¬ Blank c) (n : ℕ) : Laid [w] (pad n w) := by
  have := Laid.cons (List.replicate (n - w.length) ' ') (fun c hc => by rw [(List.mem_replicate.1 hc).2]; decide) w hw [] [] (fun _ _ h => by cases h) (.nil [] (by simp))
  simpa [pad] using this

theorem dropWhile_blanks {b : List Char} (hb : ∀ c ∈ b, Blank c) (t : List Char) : (b ++ t).dropWhile Blank = t.dropWhile Blank := by
  induction b with
  | nil => rfl
  | cons c b ih =>
    rw [List.cons_append, List.dropWhile_cons_of_pos (by simpa using hb c (by simp))]
    exact ih fun d hd => hb d (by simp [hd])

/-- Reading a text without words. -/
theorem extract_nil (N : Num β) {t : List Char} (h : Laid [] t) : extract N ⟨t, false⟩ = (none, ⟨[], true⟩) := by
  cases h with
  | nil b hb =>
    have := dropWhile_blanks hb []
    simp only [List.append_nil, List.dropWhile_nil] at this
    simp [extract, this]

theorem extract_cons (N : Num β) {w : List Char} {ws t} (h : Laid (w :: ws) t) : ∃ t', Stops t' ∧ Laid ws t' ∧ extract N ⟨t, false⟩ = match N.scan (w ++ t') with
    | some (x, r) => (some x, ⟨r, false⟩)
    | none => (some N.zero, ⟨w ++ t', true⟩) := by
  cases h with
  | cons b hb w hw ws t' hs ht =>
    refine ⟨t', hs, ht, ?_⟩
    obtain ⟨c, l, rfl, hc⟩ := hw
    have : (b ++ (c :: l) ++ t').dropWhile Blank = c :: (l ++ t') := by
      rw [List.append_assoc, dropWhile_blanks hb, List.cons_append, List.dropWhile_cons_of_neg (by simpa using hc)]
    simp only [extract, this, Bool.false_eq_true, if_false, List.cons_append]
    rfl

/-- `n` readings one after the other into variables that are zero. -/
def reads (N : Num β) : ℕ → Stream → List β
  | 0, _ => []
  | n + 1, s => (extract N s).1.getD N.zero :: reads N n (extract N s).2

theorem reads_failed (N : Num β) : ∀ (n : ℕ) (t : List Char), reads N n ⟨t, true⟩ = List.replicate n N.zero
  | 0, _ => rfl
  | n + 1, t => by
    have : extract N ⟨t, true⟩ = (none, ⟨t, true⟩) := by simp [extract]
    rw [reads, this, reads_failed N n t]
    rfl

theorem reads_length (N : Num β) : ∀ (n : ℕ) (s : Stream), (reads N n s).length = n
  | 0, _ => rfl
  | n + 1, s => by simp [reads, reads_length N n]

theorem fill_out (N : Num β) : ∀ (ps : List (ℕ × ℕ)) (s : Stream) (m : ℕ → ℕ → β) (p : ℕ × ℕ), p ∉ ps → fill N ps s m p.1 p.2 = m p.1 p.2
  | [], _, _, _, _ => rfl
  | q :: ps, s, m, p, h => by
    rw [fill, fill_out N ps _ _ p (fun hp => h (by simp [hp]))]
    cases (extract N s).1 with
    | none => rfl
    | some x => exact if_neg (fun e => h (by simp [← e]))

/-- What the loops read. -/
theorem fill_reads (N : Num β) : ∀ (ps : List (ℕ × ℕ)) (s : Stream) (m : ℕ → ℕ → β), ps.Nodup → (∀ p ∈ ps, m p.1 p.2 = N.zero) →
    ps.map (fun p => fill N ps s m p.1 p.2) = reads N ps.length s
  | [], _, _, _, _ => rfl
  | q :: ps, s, m, hn, hz => by
    rw [List.nodup_cons] at hn
    rw [List.map_cons, List.length_cons, reads]
    simp only [fill]
    congr 1
    · rw [fill_out N ps _ _ q hn.1]
      cases (extract N s).1 with
      | none => exact hz q (by simp)
      | some x => exact if_pos rfl
    · apply fill_reads N ps _ _ hn.2
      intro p hp
      have hpq : p ≠ q := fun e => hn.1 (e ▸ hp)
      cases (extract N s).1 with
      | none => exact hz p (by simp [hp])
      | some x => exact (if_neg hpq).trans (hz p (by simp [hp]))

theorem positions_succ (r c : ℕ) : positions (r + 1) c = positions r c ++ (List.range c).map fun j => (r, j) := by
  simp [positions, List.range_succ]

theorem positions_length (r c : ℕ) : (positions r c).length = r * c := by
  induction r with
  | zero => simp [positions]
  | succ r ih => rw [positions_succ, List.length_append, ih]; simp [Nat.succ_mul]

theorem positions_mem {r c : ℕ} {p : ℕ × ℕ} : p ∈ positions r c ↔ p.1 < r ∧ p.2 < c := by
  simp only [positions, List.mem_flatMap, List.mem_map, List.mem_range]
  constructor
  · rintro ⟨i, hi, j, hj, rfl⟩
    exact ⟨hi, hj⟩
  · rintro ⟨h1, h2⟩
    exact ⟨p.1, h1, p.2, h2, rfl⟩

theorem positions_nodup (r c : ℕ) : (positions r c).Nodup := by
  induction r with
  | zero => simp [positions]
  | succ r ih =>
    rw [positions_succ, List.nodup_append]
    refine ⟨ih, (List.nodup_range).map (fun a b h => (Prod.mk.inj h).2), ?_⟩
    rintro p hp q hq rfl
    simp only [List.mem_map, List.mem_range] at hq
    obtain ⟨j, -, rfl⟩ := hq
    exact absurd (positions_mem.1 hp).1 (lt_irrefl _)

theorem positions_get {r c : ℕ} {i j : ℕ} (hi : i < r) (hj : j < c) : (positions r c)[i * c + j]? = some (i, j) := by
  induction r with
  | zero => omega
  | succ r ih =>
    rw [positions_succ]
    rcases Nat.lt_succ_iff_lt_or_eq.1 hi with h | rfl
    · have hlt : i * c + j < r * c := lt_of_lt_of_le (by rw [Nat.succ_mul]; omega) (Nat.mul_le_mul_right c (Nat.succ_le_of_lt h))
      rw [List.getElem?_append_left (by rw [positions_length]; exact hlt)]
      exact ih h
    · rw [List.getElem?_append_right (by rw [positions_length]; omega), positions_length]
      simp [hj]

theorem stringToMatrix_reads (N : Num β) (t : List Char) {r c : ℕ} (i : Fin r) (j : Fin c) : (reads N (r * c) ⟨t, false⟩)[i.val * c + j.val]? = some (stringToMatrix N t r c i j) := by
  have := fill_reads N (positions r c) ⟨t, false⟩ (fun _ _ => N.zero) (positions_nodup r c) (fun _ _ => rfl)
  rw [positions_length] at this
  rw [← this, List.getElem?_map, positions_get i.2 j.2]
  rfl

theorem reads_good (N : Num β) (fmt : β → β) : ∀ (l : List β) (n : ℕ) (t : List Char), (∀ x ∈ l, Readable N x (fmt x)) → Laid (l.map N.print) t →
    reads N n ⟨t, false⟩ = (l.map fmt).take n ++ List.replicate (n - l.length) N.zero
  | [], 0, _, _, _ => rfl
  | _ :: _, 0, _, _, _ => by simp [reads]
  | [], n + 1, t, _, h => by
    rw [reads, extract_nil N h, reads_failed]
    rfl
  | x :: l, n + 1, t, hg, h => by
    obtain ⟨t', hs, ht, e⟩ := extract_cons N h
    rw [(hg x (by simp)).2 t' hs] at e
    rw [reads, e, reads_good N fmt l n t' (fun y hy => hg y (by simp [hy])) ht]
    simp

theorem reads_bad (N : Num β) (fmt : β → β) (x : β) (hx : Unreadable N x) (l' : List β) : ∀ (l : List β) (n : ℕ) (t : List Char), (∀ x ∈ l, Readable N x (fmt x)) →
    Laid ((l ++ x :: l').map N.print) t → reads N n ⟨t, false⟩ = (l.map fmt).take n ++ List.replicate (n - l.length) N.zero
  | [], 0, _, _, _ => rfl
  | _ :: _, 0, _, _, _ => by simp [reads]
  | [], n + 1, t, _, h => by
    obtain ⟨t', hs, ht, e⟩ := extract_cons N h
    rw [hx.2 t' hs] at e
    rw [reads, e, reads_failed]
    rfl
  | y :: l, n + 1, t, hg, h => by
    obtain ⟨t', hs, ht, e⟩ := extract_cons N h
    rw [(hg y (by simp)).2 t' hs] at e
    rw [reads, e, reads_bad N fmt x hx l' l n t' (fun y hy => hg y (by simp [hy])) ht]
    simp

theorem readAll_good (N : Num β) (fmt : β → β) : ∀ (l : List β) (t : List Char), (∀ x ∈ l, Readable N x (fmt x)) → Laid (l.map N.print) t → readAll N ⟨t, false⟩ = l.map fmt
  | [], t, _, h => by
    rw [readAll, dif_neg (by rw [extract_nil N h]; simp)]
    rfl
  | x :: l, t, hg, h => by
    obtain ⟨t', hs, ht, e⟩ := extract_cons N h
    rw [(hg x (by simp)).2 t' hs] at e
    rw [readAll, dif_pos (by rw [e])]
    simp only [e]
    rw [readAll_good N fmt l t' (fun y hy => hg y (by simp [hy])) ht]
    rfl

theorem readAll_bad (N : Num β) (fmt : β → β) (x : β) (hx : Unreadable N x) (l' : List β) : ∀ (l : List β) (t : List Char), (∀ x ∈ l, Readable N x (fmt x)) →
    Laid ((l ++ x :: l').map N.print) t → readAll N ⟨t, false⟩ = l.map fmt
  | [], t, _, h => by
    obtain ⟨t', hs, ht, e⟩ := extract_cons N h
    rw [hx.2 t' hs] at e
    rw [readAll, dif_neg (by rw [e]; simp)]
    rfl
  | y :: l, t, hg, h => by
    obtain ⟨t', hs, ht, e⟩ := extract_cons N h
    rw [(hg y (by simp)).2 t' hs] at e
    rw [readAll, dif_pos (by rw [e])]
    simp only [e]
    rw [readAll_bad N fmt x hx l' l t' (fun y hy => hg y (by simp [hy])) ht]
    rfl

theorem coeffs_length {r c : ℕ} (m : Matrix (Fin r) (Fin c) β) : (coeffs m).length = r * c := by
  induction r with
  | zero => simp [coeffs]
  | succ r ih =>
    have e : coeffs m = List.ofFn (m 0) ++ coeffs (fun i : Fin r => m i.succ) := by simp [coeffs, List.ofFn_succ]
    have := ih (fun i : Fin r => m i.succ)
    rw [e, List.length_append, List.length_ofFn, Nat.succ_mul]
    omega

theorem coeffs_nil {r c : ℕ} (m : Matrix (Fin r) (Fin c) β) (h : r = 0 ∨ c = 0) : coeffs m = [] := by
  have := coeffs_length m
  rcases h with rfl | rfl <;> simpa [List.length_eq_zero_iff] using this

/-- The words of the text of a matrix. -/
theorem laid_matrix (N : Num β) {r c : ℕ} (m : Matrix (Fin r) (Fin c) β) (h : ∀ i j, Word (N.print (m i j))) : Laid ((coeffs m).map N.print) (matrixToString N m) := by
  unfold matrixToString
  split_ifs with h0
  · rw [coeffs_nil m h0]
    exact .nil [] (by simp)
  · have row : ∀ i, Laid (List.ofFn fun j => N.print (m i j)) (join ' ' (List.ofFn fun j => pad (width N m) (N.print (m i j)))) := by
      intro i
      have := laid_join (sep := ' ') (by decide) (List.ofFn fun j => ([N.print (m i j)], pad (width N m) (N.print (m i j)))) (by
        intro p hp
        obtain ⟨j, rfl⟩ := (List.mem_ofFn' _ _).1 hp
        exact laid_pad (h i j) _)
      simp only [List.map_ofFn, Function.comp_def] at this
      convert this using 1
      have e : (List.ofFn fun j => [N.print (m i j)]) = (List.ofFn fun j => N.print (m i j)).map fun a => [a] := by simp [List.map_ofFn, Function.comp_def]
      rw [e]
      induction (List.ofFn fun j => N.print (m i j)) with
      | nil => rfl
      | cons a l ih => simp [← ih]
    have := laid_join (sep := '\n') (by decide) (List.ofFn fun i => (List.ofFn fun j => N.print (m i j), join ' ' (List.ofFn fun j => pad (width N m) (N.print (m i j))))) (by
      intro p hp
      obtain ⟨i, rfl⟩ := (List.mem_ofFn' _ _).1 hp
      exact row i)
    simp only [List.map_ofFn, Function.comp_def] at this
    convert this using 1
    simp [coeffs, List.map_flatten, List.map_ofFn, Function.comp_def]

theorem coeffs_get {r c : ℕ} (m : Matrix (Fin r) (Fin c) β) (i : Fin r) (j : Fin c) : (coeffs m)[i.val * c + j.val]? = some (m i j) := by
  induction r with
  | zero => exact i.elim0
  | succ r ih =>
    have e : coeffs m = List.ofFn (m 0) ++ coeffs (fun i : Fin r => m i.succ) := by simp [coeffs, List.ofFn_succ]
    rw [e]
    refine Fin.cases ?_ (fun i => ?_) i
    · rw [List.getElem?_append_left (by simp)]
      simp
    · have : (i.succ.val * c + j.val) = c + (i.val * c + j.val) := by rw [Fin.val_succ, Nat.succ_mul]; omega
      rw [List.getElem?_append_right (by rw [this, List.length_ofFn]; omega), this]
      simpa using ih (fun i : Fin r => m i.succ) i

theorem coeffs_div {r c : ℕ} (m : Matrix (Fin r) (Fin c) β) {k : ℕ} (hk : k < r * c) :
    (coeffs m)[k]? = some (m ⟨k / c, Nat.div_lt_of_lt_mul (by rwa [Nat.mul_comm])⟩ ⟨k % c, Nat.mod_lt _ (Nat.pos_of_ne_zero (by rintro rfl; simp at hk))⟩) := by
  have := coeffs_get m ⟨k / c, Nat.div_lt_of_lt_mul (by rwa [Nat.mul_comm])⟩ ⟨k % c, Nat.mod_lt _ (Nat.pos_of_ne_zero (by rintro rfl; simp at hk))⟩
  rw [← this]
  congr 1
  simp only
  rw [Nat.mul_comm, Nat.div_add_mod]

end StateObs.Text
