import Mathlib.Data.List.Range
import Mathlib.Data.List.OfFn
import Mathlib.Data.Matrix.Basic
/-!
# Conversions between matrices and text (src/definitions.cpp 10-77)

A text is the list of its characters. Numbers are a type `β`; the printing and the reading of one number by the C++ library are the fields of `Num`. A string stream is the text that is
not read yet and its flag of failure; the flag of the end of the stream is not modelled: reading at the end fails with or without it.
-/

namespace StateObs.Text

/-- The characters that `>>` skips: `isspace` in the C locale. -/
def Blank (c : Char) : Prop := c ∈ [' ', '\t', '\n', Char.ofNat 11, Char.ofNat 12, '\r']

instance (c : Char) : Decidable (Blank c) := inferInstanceAs (Decidable (c ∈ _))

/-- How the library prints and reads one number. `scan t` is the number at the beginning of `t` and what follows it, or nothing if no number can be read; a number that is read takes at least
one character. -/
structure Num (β : Type) where
  print : β → List Char
  scan : List Char → Option (β × List Char)
  zero : β
  shorter : ∀ {t x r}, scan t = some (x, r) → r.length < t.length

variable {β : Type}

structure Stream where
  text : List Char
  fail : Bool

/-- `ss >> x` for a number: the number assigned to `x` if any, and the stream. Nothing is assigned when the stream has failed before or ends; zero is assigned when no number can be read
(C++11). -/
def extract (N : Num β) (s : Stream) : Option β × Stream :=
  if s.fail then (none, s)
  else
    match s.text.dropWhile Blank with
    | [] => (none, ⟨[], true⟩)
    | c :: l =>
      match N.scan (c :: l) with
      | some (x, r) => (some x, ⟨r, false⟩)
      | none => (some N.zero, ⟨c :: l, true⟩)

/-- `a` with spaces before it, at least `w` characters: `ss.width(w); ss << x`. -/
def pad (w : ℕ) (a : List Char) : List Char := List.replicate (w - a.length) ' ' ++ a

/-- The texts of a list one after the other with `sep` between them. -/
def join (sep : Char) : List (List Char) → List Char
  | [] => []
  | [a] => a
  | a :: b :: l => a ++ sep :: join sep (b :: l)

/-- The width of the columns: the longest number. -/
def width (N : Num β) {r c : ℕ} (m : Matrix (Fin r) (Fin c) β) : ℕ :=
  (List.ofFn fun i => (List.ofFn fun j => (N.print (m i j)).length).foldl max 0).foldl max 0

/-- `matrixToString`, definitions.cpp 10-15: the printing of a matrix by Eigen with its default format (columns aligned, a space between the numbers, an end of line between the lines;
nothing for an empty matrix). -/
def matrixToString (N : Num β) {r c : ℕ} (m : Matrix (Fin r) (Fin c) β) : List Char :=
  if r = 0 ∨ c = 0 then []
  else join '\n' (List.ofFn fun i => join ' ' (List.ofFn fun j => pad (width N m) (N.print (m i j))))

/-- `vectorToString`, definitions.cpp 22-25. -/
def vectorToString (N : Num β) {n : ℕ} (v : Fin n → β) : List Char := matrixToString N (fun (_ : Fin 1) j => v j)

/-- The order of the two loops of `stringToMatrix`, definitions.cpp 33-35. -/
def positions (r c : ℕ) : List (ℕ × ℕ) := (List.range r).flatMap fun i => (List.range c).map fun j => (i, j)

/-- The loops of `stringToMatrix`, definitions.cpp 33-39: `ss >> m(i, j)`. -/
def fill (N : Num β) : List (ℕ × ℕ) → Stream → (ℕ → ℕ → β) → (ℕ → ℕ → β)
  | [], _, m => m
  | p :: ps, s, m =>
    fill N ps (extract N s).2
      (match (extract N s).1 with
      | some x => fun i j => if (i, j) = p then x else m i j
      | none => m)

/-- `stringToMatrix`, definitions.cpp 27-42. The sizes are not negative (Eigen asserts it). -/
def stringToMatrix (N : Num β) (t : List Char) (r c : ℕ) : Matrix (Fin r) (Fin c) β :=
  fun i j => fill N (positions r c) ⟨t, false⟩ (fun _ _ => N.zero) i j

/-- `stringToVector(str, length)`, definitions.cpp 44-47. -/
def stringToVectorN (N : Num β) (t : List Char) (n : ℕ) : Fin n → β := fun i => stringToMatrix N t n 1 i 0

theorem extract_shorter (N : Num β) (s : Stream) (h : (extract N s).2.fail = false) : (extract N s).2.text.length < s.text.length := by
  unfold extract at h ⊢
  have hd : (s.text.dropWhile Blank).length ≤ s.text.length := (List.dropWhile_suffix _).length_le
  split_ifs at h ⊢ with hf
  · simp [hf] at h
  · cases e : s.text.dropWhile Blank with
    | nil => rw [e] at h; cases h
    | cons c l =>
      rw [e] at h hd
      dsimp only at h ⊢
      cases e' : N.scan (c :: l) with
      | none => rw [e'] at h; cases h
      | some p =>
        dsimp only
        exact lt_of_lt_of_le (N.shorter e') hd

/-- The loop of `stringToVector`, definitions.cpp 58-70: `ss >> component` until it fails. A reading that succeeds assigns the component. -/
def readAll (N : Num β) (s : Stream) : List β :=
  if h : (extract N s).2.fail = false then
    have := extract_shorter N s h
    ((extract N s).1.getD N.zero) :: readAll N (extract N s).2
  else []
termination_by s.text.length

/-- `stringToVector(str)`, definitions.cpp 49-77. -/
def stringToVector (N : Num β) (t : List Char) : List β := readAll N ⟨t, false⟩

end StateObs.Text
