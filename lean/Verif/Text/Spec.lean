import Verif.Text.Model
/-! # Specification of the conversions between matrices and text -/

namespace StateObs.Text
variable {β : Type}

/-- The text is over or a blank follows. -/
def Stops (t : List Char) : Prop := ∀ c l, t = c :: l → Blank c

/-- A text that begins with a character that is not blank. -/
def Word (w : List Char) : Prop := ∃ c l, w = c :: l ∧ ¬ Blank c

/-- The number `x` is printed as a text that is read as `y`. -/
def Readable (N : Num β) (x y : β) : Prop := Word (N.print x) ∧ ∀ t, Stops t → N.scan (N.print x ++ t) = some (y, t)

/-- The number `x` is printed as a text that cannot be read: `inf` and `nan`. -/
def Unreadable (N : Num β) (x : β) : Prop := Word (N.print x) ∧ ∀ t, Stops t → N.scan (N.print x ++ t) = none

/-- The coefficients of a matrix, line after line. -/
def coeffs {r c : ℕ} (m : Matrix (Fin r) (Fin c) β) : List β := (List.ofFn fun i => List.ofFn (m i)).flatten

end StateObs.Text
