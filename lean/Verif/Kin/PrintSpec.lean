import Verif.Text.Spec
import Mathlib.Data.List.Infix
/-! # Specification of the printed kinematics: how it is read -/

namespace StateObs.Text
variable {β : Type}

/-- The text after the first occurrence of `label`. -/
def after (label : List Char) : List Char → Option (List Char)
  | [] => none
  | c :: t => if label.isPrefixOf (c :: t) then some ((c :: t).drop label.length) else after label t

/-- The text up to the end of the line or to the next label (the labels begin with `p`, `o`, `l` and `a`). -/
def upToLabel (t : List Char) : List Char := t.takeWhile (fun c => c ∉ ['p', 'o', 'l', 'a', '\n'])

/-- The numbers printed after a label: none if there is no such label. -/
def numbersAfter (N : Num β) (label t : List Char) : List β :=
  match after label t with
  | some r => stringToVector N (upToLabel r)
  | none => []

/-- The number is printed with the characters of finite numbers. -/
def Plain (N : Num β) (x : β) : Prop := ∀ c ∈ N.print x, c ∈ ['0', '1', '2', '3', '4', '5', '6', '7', '8', '9', '+', '-', '.', 'e']

end StateObs.Text
