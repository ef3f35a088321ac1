import Verif.Kin.PrintModel
import Verif.Kin.PrintSpec
import Verif.Kin.VecProps
import Verif.Text.Props
/-! # C134: a printed `Kinematics` can be read -/

namespace StateObs.Text
variable {β : Type}

/-- The characters of the columns: those of the numbers, and spaces. -/
def quiet (c : Char) : Prop := c ∈ [' ', '0', '1', '2', '3', '4', '5', '6', '7', '8', '9', '+', '-', '.', 'e']

theorem quiet_of_mem {L : List Char} (h : ∀ c ∈ L, quiet c) (d : Char) (hd : ¬ quiet d) : ∀ c ∈ L, c ≠ d := fun c hc e => hd (e ▸ h c hc)

theorem after_skip (d : Char) (lab s t : List Char) (h : ∀ c ∈ s, c ≠ d) : after (d :: lab) (s ++ t) = after (d :: lab) t := by
  induction s with
  | nil => rfl
  | cons c s ih =>
    rw [List.cons_append, after, if_neg, ih fun x hx => h x (by simp [hx])]
    have : c ≠ d := h c (by simp)
    simp [List.isPrefixOf, this.symm]

theorem after_found (d : Char) (lab t : List Char) : after (d :: lab) ((d :: lab) ++ t) = some t := by
  rw [List.cons_append, after, if_pos]
  · simp
  · rw [List.isPrefixOf_iff_prefix]
    exact ⟨t, rfl⟩

theorem upTo_eq {L t : List Char} {c : Char} (h : ∀ c ∈ L, quiet c) (hc : c ∈ ['p', 'o', 'l', 'a', '\n']) : upToLabel (L ++ c :: t) = L := by
  rw [upToLabel, List.takeWhile_append_of_pos, List.takeWhile_cons_of_neg (by simp only [decide_eq_true_eq, not_not]; exact hc), List.append_nil]
  intro x hx
  have := h x hx
  simp only [quiet, List.mem_cons, List.not_mem_nil, or_false] at this
  rcases this with rfl | rfl | rfl | rfl | rfl | rfl | rfl | rfl | rfl | rfl | rfl | rfl | rfl | rfl | rfl <;> decide

theorem quiet_join (sep : Char) (hs : quiet sep) : ∀ (l : List (List Char)), (∀ a ∈ l, ∀ c ∈ a, quiet c) → ∀ c ∈ join sep l, quiet c
  | [], _, c, hc => by simp [join] at hc
  | [a], h, c, hc => h a (by simp) c (by simpa [join] using hc)
  | a :: b :: l, h, c, hc => by
    rw [join, List.mem_append, List.mem_cons] at hc
    rcases hc with hc | rfl | hc
    · exact h a (by simp) c hc
    · exact hs
    · exact quiet_join sep hs (b :: l) (fun x hx => h x (by simp [hx])) c hc

theorem quiet_vector (N : Num β) {n : ℕ} (v : Fin n → β) (h : ∀ i, Plain N (v i)) : ∀ c ∈ vectorToString N v, quiet c := by
  intro c hc
  unfold vectorToString matrixToString at hc
  split at hc
  · simp at hc
  · rw [List.ofFn_succ, List.ofFn_zero, join] at hc
    refine quiet_join ' ' (by simp [quiet]) _ ?_ c hc
    intro a ha d hd
    obtain ⟨j, rfl⟩ := (List.mem_ofFn' _ _).1 ha
    dsimp only [pad] at hd
    rw [List.mem_append] at hd
    rcases hd with hd | hd
    · rw [(List.mem_replicate.1 hd).2]; simp [quiet]
    · exact List.mem_cons_of_mem _ (h j d hd)

end StateObs.Text

namespace StateObs.Kine
open StateObs Matrix Rot Text

/-- The numbers that are read from the text of a field. -/
def nums (fmt : ℝ → ℝ) : Option V3 → List ℝ
  | some v => [fmt (v 0), fmt (v 1), fmt (v 2)]
  | none => []

/-- The text of a column. -/
def Cell (N : Num ℝ) (fmt : ℝ → ℝ) (x : Option V3) (L : List Char) : Prop := (∀ c ∈ L, quiet c) ∧ stringToVector N L = nums fmt x

variable {N : Num ℝ} {fmt : ℝ → ℝ}

theorem cell_some (hN : ∀ x, Readable N x (fmt x) ∧ Plain N x) (v : V3) (n : ℕ) : Cell N fmt (some v) (' ' :: vectorToString N v ++ List.replicate n ' ') := by
  refine ⟨fun c hc => ?_, ?_⟩
  · rw [List.cons_append, List.mem_cons, List.mem_append] at hc
    rcases hc with rfl | hc | hc
    · simp [quiet]
    · exact quiet_vector N v (fun i => (hN _).2) c hc
    · rw [(List.mem_replicate.1 hc).2]; simp [quiet]
  · have l1 := (laid_matrix N (fun (_ : Fin 1) j => v j) fun _ j => (hN _).1.1).blanks [' '] (by decide)
    have hb : ∀ c ∈ List.replicate n ' ', Blank c := fun c hc => by rw [(List.mem_replicate.1 hc).2]; decide
    have l2 := l1.append (Laid.nil (List.replicate n ' ') hb) (stops_blanks hb)
    rw [List.append_nil] at l2
    have e := readAll_good N fmt _ _ (good_coeffs (m := fun (_ : Fin 1) j => v j) fun _ j => (hN _).1) l2
    refine e.trans ?_
    simp [coeffs, nums, List.ofFn_succ]

theorem cell_none (n : ℕ) : Cell N fmt none (List.replicate n ' ') := by
  refine ⟨fun c hc => by rw [(List.mem_replicate.1 hc).2]; simp [quiet], ?_⟩
  exact readAll_good N fmt [] _ (by simp) (.nil _ fun c hc => by rw [(List.mem_replicate.1 hc).2]; decide)

/-- A printed line. -/
def Line (N : Num ℝ) (fmt : ℝ → ℝ) (l1 l2 : List Char) (x y : Option V3) (t : List Char) : Prop :=
  (x = none ∧ y = none ∧ t = []) ∨ ((x.isSome ∨ y.isSome) ∧ ∃ L R, Cell N fmt x L ∧ Cell N fmt y R ∧ t = l1 ++ (L ++ (l2 ++ (R ++ ['\n']))))

theorem item_isSet {i : CItem V3} {x : Option V3} (h : Item i x) : i.isSet dbg = x.isSome := by
  cases x with
  | none => rw [CItem.isSet, show i.flag = false from h]; rfl
  | some v => rw [show i = _ from h]; rfl

theorem item_read {i : CItem V3} {v : V3} (h : Item i (some v)) : i.read dbg = .ok v := by
  rw [show i = _ from h]; rfl

theorem printLine_line (hN : ∀ x, Readable N x (fmt x) ∧ Plain N x) (l1 l2 : List Char) {i : CItem V3} {x y : Option V3} (h : Item i x) {f : Res V3}
    (hf : ∀ v, y = some v → f = .ok v) : ∃ t, printLine N l1 l2 i y.isSome f = .ok t ∧ Line N fmt l1 l2 x y t := by
  have hL : ∃ L, printLeft N l1 i = .ok (l1 ++ L) ∧ Cell N fmt x L := by
    cases x with
    | none => exact ⟨_, by rw [printLeft, item_isSet h]; rfl, cell_none 34⟩
    | some v => exact ⟨_, by rw [printLeft, item_isSet h, item_read h]; simp [Res.ok_bind], cell_some hN v 3⟩
  have hR : ∃ R, printRight N l2 y.isSome f = .ok (l2 ++ (R ++ ['\n'])) ∧ Cell N fmt y R := by
    cases y with
    | none => exact ⟨_, by rw [printRight]; rfl, cell_none 0⟩
    | some v => exact ⟨_, by rw [printRight, hf v rfl]; simp [Res.ok_bind], cell_some hN v 0⟩
  obtain ⟨L, eL, cL⟩ := hL
  obtain ⟨R, eR, cR⟩ := hR
  rw [printLine, item_isSet h]
  by_cases hs : (x.isSome || y.isSome) = true
  · refine ⟨_, by rw [if_pos hs, eL, eR]; rfl, Or.inr ⟨by simpa using hs, L, R, cL, cR, by simp⟩⟩
  · refine ⟨_, by rw [if_neg hs], Or.inl ?_⟩
    cases x <;> cases y <;> simp_all

/-- The labels. -/
def labels : List (List Char) := [labelPos, labelOri, labelLinVel, labelAngVel, labelLinAcc, labelAngAcc]

theorem after_other (lab : List Char) (h : lab ∈ labels) (l : List Char) (hl : l ∈ labels) (hne : lab ≠ l) (s : List Char) : after lab (l ++ s) = after lab s := by
  simp only [labels, List.mem_cons, List.not_mem_nil, or_false] at h hl
  rcases h with rfl | rfl | rfl | rfl | rfl | rfl <;> rcases hl with rfl | rfl | rfl | rfl | rfl | rfl <;> first | exact absurd rfl hne | rfl

theorem after_quiet (lab : List Char) (h : lab ∈ labels) (s t : List Char) (hs : ∀ c ∈ s, quiet c ∨ c = '\n') : after lab (s ++ t) = after lab t := by
  have key : ∀ d : Char, (¬ quiet d ∧ d ≠ '\n') → ∀ c ∈ s, c ≠ d := fun d hd c hc e => (hs c hc).elim (fun q => hd.1 (e ▸ q)) (fun q => hd.2 (e ▸ q))
  simp only [labels, List.mem_cons, List.not_mem_nil, or_false] at h
  rcases h with rfl | rfl | rfl | rfl | rfl | rfl <;> exact after_skip _ _ _ _ (key _ (by constructor <;> simp [quiet]))

theorem after_line_other {lab : List Char} (h : lab ∈ labels) {l1 l2 : List Char} (h1 : l1 ∈ labels) (h2 : l2 ∈ labels) (n1 : lab ≠ l1) (n2 : lab ≠ l2) {x y : Option V3} {t : List Char}
    (hl : Line N fmt l1 l2 x y t) (s : List Char) : after lab (t ++ s) = after lab s := by
  rcases hl with ⟨-, -, rfl⟩ | ⟨-, L, R, cL, cR, rfl⟩
  · rfl
  · simp only [List.append_assoc]
    rw [after_other lab h l1 h1 n1, after_quiet lab h L _ fun c hc => .inl (cL.1 c hc), after_other lab h l2 h2 n2, after_quiet lab h R _ fun c hc => .inl (cR.1 c hc),
      after_quiet lab h ['\n'] _ (by simp)]

theorem label_cons {lab : List Char} (h : lab ∈ labels) : ∃ d l, lab = d :: l ∧ d ∈ ['p', 'o', 'l', 'a', '\n'] := by
  simp only [labels, List.mem_cons, List.not_mem_nil, or_false] at h
  rcases h with rfl | rfl | rfl | rfl | rfl | rfl <;> exact ⟨_, _, rfl, by decide⟩

theorem numbers_line {l1 l2 : List Char} (h1 : l1 ∈ labels) (h2 : l2 ∈ labels) (hne : l1 ≠ l2) {x y : Option V3} {t : List Char} (hl : Line N fmt l1 l2 x y t) (s : List Char)
    (e1 : after l1 s = none) (e2 : after l2 s = none) : numbersAfter N l1 (t ++ s) = nums fmt x ∧ numbersAfter N l2 (t ++ s) = nums fmt y := by
  rcases hl with ⟨rfl, rfl, rfl⟩ | ⟨-, L, R, cL, cR, rfl⟩
  · simp [numbersAfter, e1, e2, nums]
  · obtain ⟨d1, r1, q1, m1⟩ := label_cons h1
    obtain ⟨d2, r2, q2, m2⟩ := label_cons h2
    simp only [List.append_assoc]
    constructor
    · have : after l1 (l1 ++ (L ++ (l2 ++ (R ++ (['\n'] ++ s))))) = some (L ++ (l2 ++ (R ++ (['\n'] ++ s)))) := by rw [q1]; exact after_found _ _ _
      rw [numbersAfter, this]
      dsimp only
      rw [q2, List.cons_append, upTo_eq cL.1 m2, cL.2]
    · have : after l2 (l1 ++ (L ++ (l2 ++ (R ++ (['\n'] ++ s))))) = some (R ++ (['\n'] ++ s)) := by
        rw [after_other l2 h2 l1 h1 hne.symm, after_quiet l2 h2 L _ fun c hc => .inl (cL.1 c hc), q2]
        exact after_found _ _ _
      rw [numbersAfter, this]
      dsimp only
      rw [List.cons_append, List.nil_append, upTo_eq cR.1 (by decide), cR.2]

theorem after_nil (lab : List Char) : after lab [] = none := rfl

theorem numbers_congr {lab s t : List Char} (h : after lab s = after lab t) : numbersAfter N lab s = numbersAfter N lab t := by rw [numbersAfter, numbersAfter, h]

/-- **C134** Printing a kinematics always succeeds, and the text tells which fields are set and their values: after each label stand the three numbers of the field (as far as
a number can be read from its text) if the field is set, and no number if it is not. The orientation is given by a rotation vector of this orientation, not longer than π. The text is "empty
kinematics" exactly if no field is set. -/
theorem C134_print (hN : ∀ x, Readable N x (fmt x) ∧ Plain N x) (k : Kin) (a : Value) (h : k.Has a) : ∃ t r, k.print N = .ok t ∧
    numbersAfter N "pos   :".toList t = nums fmt a.pos ∧
    numbersAfter N "ori   :".toList t = nums fmt r ∧ r.isSome = a.ori.isSome ∧ (∀ R v, a.ori = some R → r = some v → NormedSpace.exp (hat v) = R ∧ nrm v ≤ Real.pi) ∧
    numbersAfter N "linVel:".toList t = nums fmt a.linVel ∧ numbersAfter N "angVel:".toList t = nums fmt a.angVel ∧
    numbersAfter N "linAcc:".toList t = nums fmt a.linAcc ∧ numbersAfter N "angAcc:".toList t = nums fmt a.angAcc ∧
    (t = "empty kinematics\n".toList ↔ a = ⟨none, none, none, none, none, none⟩) := by
  have hori : ∃ r : Option V3, k.ori.isSet = r.isSome ∧ r.isSome = a.ori.isSome ∧ (∀ v, r = some v → k.ori.toRotationVector = .ok v) ∧
      ∀ R v, a.ori = some R → r = some v → NormedSpace.exp (hat v) = R ∧ nrm v ≤ Real.pi := by
    have ho := h.ori
    cases hR : a.ori with
    | none =>
      rw [hR] at ho
      exact ⟨none, by simp [Ori.isSet, Ori.isMatrixSet, Ori.isQuaternionSet, CItem.isSet, dbg, CheckCfg.doCheck, ho.1, ho.2], rfl, by simp, by simp⟩
    | some R =>
      rw [hR] at ho
      have hr : k.ori.Rep R := ho
      obtain ⟨v, e, hv⟩ := hr.toRotationVector
      refine ⟨some v, ?_, rfl, fun w hw => by cases hw; exact e, fun R' w h1 h2 => by cases h1; cases h2; exact hv⟩
      rcases hr.set with hs | hs <;> simp [Ori.isSet, Ori.isMatrixSet, Ori.isQuaternionSet, CItem.isSet, dbg, CheckCfg.doCheck, hs]
  obtain ⟨r, o1, o2, o3, o4⟩ := hori
  obtain ⟨t1, p1, q1⟩ := printLine_line hN labelPos labelOri h.pos (y := r) o3
  obtain ⟨t2, p2, q2⟩ := printLine_line hN labelLinVel labelAngVel h.linVel (y := a.angVel) (f := k.angVel.read dbg) fun v hv => item_read (hv ▸ h.angVel)
  obtain ⟨t3, p3, q3⟩ := printLine_line hN labelLinAcc labelAngAcc h.linAcc (y := a.angAcc) (f := k.angAcc.read dbg) fun v hv => item_read (hv ▸ h.angAcc)
  have m1 : labelPos ∈ labels := by simp [labels]
  have m2 : labelOri ∈ labels := by simp [labels]
  have m3 : labelLinVel ∈ labels := by simp [labels]
  have m4 : labelAngVel ∈ labels := by simp [labels]
  have m5 : labelLinAcc ∈ labels := by simp [labels]
  have m6 : labelAngAcc ∈ labels := by simp [labels]
  have last : ∀ {lab : List Char}, lab ∈ labels → lab ≠ labelLinAcc → lab ≠ labelAngAcc → after lab t3 = none := fun hl n1 n2 => by
    have := after_line_other hl m5 m6 n1 n2 q3 []
    rwa [List.append_nil, after_nil] at this
  have mid : ∀ {lab : List Char}, lab ∈ labels → lab ≠ labelLinVel → lab ≠ labelAngVel → after lab (t2 ++ t3) = after lab t3 := fun hl n1 n2 =>
    after_line_other hl m3 m4 n1 n2 q2 t3
  have first : ∀ {lab : List Char}, lab ∈ labels → lab ≠ labelPos → lab ≠ labelOri → after lab (t1 ++ (t2 ++ t3)) = after lab (t2 ++ t3) := fun hl n1 n2 =>
    after_line_other hl m1 m2 n1 n2 q1 _
  obtain ⟨n1, n2⟩ := numbers_line m1 m2 (by decide) q1 (t2 ++ t3) ((mid m1 (by decide) (by decide)).trans (last m1 (by decide) (by decide)))
    ((mid m2 (by decide) (by decide)).trans (last m2 (by decide) (by decide)))
  obtain ⟨n3, n4⟩ := numbers_line m3 m4 (by decide) q2 t3 (last m3 (by decide) (by decide)) (last m4 (by decide) (by decide))
  obtain ⟨n5, n6⟩ := numbers_line m5 m6 (by decide) q3 [] rfl rfl
  rw [List.append_nil] at n5 n6
  rw [← numbers_congr (first m3 (by decide) (by decide))] at n3
  rw [← numbers_congr (first m4 (by decide) (by decide))] at n4
  rw [← numbers_congr (mid m5 (by decide) (by decide)), ← numbers_congr (first m5 (by decide) (by decide))] at n5
  rw [← numbers_congr (mid m6 (by decide) (by decide)), ← numbers_congr (first m6 (by decide) (by decide))] at n6
  have hp : k.print N = .ok ((if !a.pos.isSome && !r.isSome && !a.linVel.isSome && !a.angVel.isSome && !a.linAcc.isSome && !a.angAcc.isSome then emptyText else []) ++ t1 ++ t2 ++ t3) := by
    rw [Kin.print, o1, item_isSet h.angVel, item_isSet h.angAcc, p1, p2, p3, item_isSet h.pos, item_isSet h.linVel, item_isSet h.linAcc]
    rfl
  have s1 : "pos   :".toList = labelPos := by decide
  have s2 : "ori   :".toList = labelOri := by decide
  have s3 : "linVel:".toList = labelLinVel := by decide
  have s4 : "angVel:".toList = labelAngVel := by decide
  have s5 : "linAcc:".toList = labelLinAcc := by decide
  have s6 : "angAcc:".toList = labelAngAcc := by decide
  have s7 : "empty kinematics\n".toList = emptyText := by decide
  rw [s1, s2, s3, s4, s5, s6, s7]
  by_cases hz : (!a.pos.isSome && !r.isSome && !a.linVel.isSome && !a.angVel.isSome && !a.linAcc.isSome && !a.angAcc.isSome) = true
  · obtain ⟨ap, ao, av, aw, al, aa⟩ := a
    dsimp only at *
    simp only [Bool.and_eq_true, Bool.not_eq_true', Option.isSome_eq_false_iff, Option.isNone_iff_eq_none] at hz
    obtain ⟨⟨⟨⟨⟨rfl, rfl⟩, rfl⟩, rfl⟩, rfl⟩, rfl⟩ := hz
    obtain rfl : ao = none := by cases ao <;> simp_all
    have e1 : t1 = [] := by rcases q1 with ⟨-, -, e⟩ | ⟨h, -⟩; exact e; simp at h
    have e2 : t2 = [] := by rcases q2 with ⟨-, -, e⟩ | ⟨h, -⟩; exact e; simp at h
    have e3 : t3 = [] := by rcases q3 with ⟨-, -, e⟩ | ⟨h, -⟩; exact e; simp at h
    subst e1 e2 e3
    exact ⟨_, none, hp, rfl, rfl, rfl, o4, rfl, rfl, rfl, rfl, by simp⟩
  · rw [if_neg hz] at hp
    refine ⟨_, r, hp, ?_, ?_, o2, o4, ?_, ?_, ?_, ?_, ?_⟩ <;> simp only [List.nil_append, List.append_assoc]
    · exact n1
    · exact n2
    · exact n3
    · exact n4
    · exact n5
    · exact n6
    · constructor
      · intro e
        exfalso
        rcases q1 with ⟨-, -, rfl⟩ | ⟨-, L, R, -, -, rfl⟩
        · rcases q2 with ⟨-, -, rfl⟩ | ⟨-, L, R, -, -, rfl⟩
          · rcases q3 with ⟨-, -, rfl⟩ | ⟨-, L, R, -, -, rfl⟩
            · simp [emptyText] at e
            · simp [emptyText, labelLinAcc] at e
          · simp [emptyText, labelLinVel] at e
        · simp [emptyText, labelPos] at e
      · rintro rfl
        exact absurd (by simp_all) hz

/-- Numbers for the example: the integer part in base one, ended by `0`. -/
noncomputable def unary : Num ℝ where
  print x := List.replicate ⌊|x|⌋₊ '1' ++ ['0']
  scan t := (exNum.scan t).bind fun p => p.1.map fun n => ((n : ℝ), p.2)
  zero := 0
  shorter := by
    intro t x r h
    simp only [Option.bind_eq_some_iff, Option.map_eq_some_iff] at h
    obtain ⟨⟨m, r'⟩, h1, n, h2, h3⟩ := h
    cases h3
    exact exNum.shorter h1

/-- Non-vacuity: the hypothesis on the numbers, with a kinematics that has a position, an orientation and a linear velocity. -/
example : (∀ x, Readable unary x ((⌊|x|⌋₊ : ℕ) : ℝ) ∧ Plain unary x) ∧
    ∃ t, (Kin.new.setZero ⟨true, true, true, false, false, false⟩).print unary = .ok t ∧ numbersAfter unary "pos   :".toList t = [0, 0, 0] ∧ numbersAfter unary "angVel:".toList t = [] := by
  have hN : ∀ x, Readable unary x ((⌊|x|⌋₊ : ℕ) : ℝ) ∧ Plain unary x := by
    intro x
    obtain ⟨h1, h2⟩ := ex_readable ⌊|x|⌋₊
    refine ⟨⟨h1, fun t ht => ?_⟩, fun c hc => ?_⟩
    · have := h2 t ht
      show (exNum.scan (List.replicate ⌊|x|⌋₊ '1' ++ ['0'] ++ t)).bind _ = _
      rw [show exNum.scan (List.replicate ⌊|x|⌋₊ '1' ++ ['0'] ++ t) = _ from this]
      rfl
    · have hc : c ∈ List.replicate ⌊|x|⌋₊ '1' ++ ['0'] := hc
      rw [List.mem_append, List.mem_replicate, List.mem_singleton] at hc
      rcases hc with ⟨-, rfl⟩ | rfl <;> simp
  have hn : Kin.new.Has ⟨none, none, none, none, none, none⟩ := ⟨rfl, ⟨rfl, rfl⟩, rfl, rfl, rfl, rfl⟩
  obtain ⟨t, r, h1, h2, -, -, -, -, h3, -⟩ := C134_print hN _ _ (Kin.C50_setZero Kin.new _ hn ⟨true, true, true, false, false, false⟩)
  exact ⟨hN, t, h1, by rw [h2]; simp [nums], by rw [h3]; rfl⟩

end StateObs.Kine
