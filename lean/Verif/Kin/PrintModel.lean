import Verif.Kin.Model
import Verif.Text.Model
/-!
# Printing a `Kinematics`

`operator<<`, include/state-observation/tools/rigid-body-kinematics.hxx 2118-2190. A text is the list of its characters (as in `Text/Model`); the stream has its default
format, in which Eigen prints the transpose of a vector as `vectorToString` does.
-/

namespace StateObs.Kine
open StateObs Matrix Rot Text

/-- The labels, hxx 2130-2185. -/
def labelPos : List Char := ['p', 'o', 's', ' ', ' ', ' ', ':']
def labelOri : List Char := ['o', 'r', 'i', ' ', ' ', ' ', ':']
def labelLinVel : List Char := ['l', 'i', 'n', 'V', 'e', 'l', ':']
def labelAngVel : List Char := ['a', 'n', 'g', 'V', 'e', 'l', ':']
def labelLinAcc : List Char := ['l', 'i', 'n', 'A', 'c', 'c', ':']
def labelAngAcc : List Char := ['a', 'n', 'g', 'A', 'c', 'c', ':']

/-- `os << "empty kinematics" << std::endl`, hxx 2123. -/
def emptyText : List Char := ['e', 'm', 'p', 't', 'y', ' ', 'k', 'i', 'n', 'e', 'm', 'a', 't', 'i', 'c', 's', '\n']

/-- The left column, hxx 2128-2135, 2149-2156, 2170-2177: the vector is read if it is set. -/
noncomputable def printLeft (N : Num ℝ) (label : List Char) (i : CItem V3) : Res (List Char) :=
  if i.isSet dbg then do
    let v ← i.read dbg
    .ok (label ++ ' ' :: vectorToString N v ++ [' ', ' ', ' '])
  else .ok (label ++ List.replicate 34 ' ')

/-- The right column, hxx 2137-2144, 2158-2165, 2179-2186; `f` reads the vector. -/
def printRight (N : Num ℝ) (label : List Char) (set : Bool) (f : Res V3) : Res (List Char) :=
  if set then do
    let v ← f
    .ok (label ++ ' ' :: vectorToString N v ++ ['\n'])
  else .ok (label ++ ['\n'])

/-- One of the three lines, printed if one of its two columns is set. -/
noncomputable def printLine (N : Num ℝ) (l1 l2 : List Char) (i : CItem V3) (set : Bool) (f : Res V3) : Res (List Char) :=
  if i.isSet dbg || set then do
    let a ← printLeft N l1 i
    let b ← printRight N l2 set f
    .ok (a ++ b)
  else .ok []

/-- `operator<<`, hxx 2118-2190. -/
noncomputable def Kin.print (N : Num ℝ) (k : Kin) : Res (List Char) := do
  let a := if !k.pos.isSet dbg && !k.ori.isSet && !k.linVel.isSet dbg && !k.angVel.isSet dbg && !k.linAcc.isSet dbg && !k.angAcc.isSet dbg then emptyText else []
  let b ← printLine N labelPos labelOri k.pos k.ori.isSet k.ori.toRotationVector
  let c ← printLine N labelLinVel labelAngVel k.linVel (k.angVel.isSet dbg) (k.angVel.read dbg)
  let d ← printLine N labelLinAcc labelAngAcc k.linAcc (k.angAcc.isSet dbg) (k.angAcc.read dbg)
  .ok (a ++ b ++ c ++ d)

end StateObs.Kine
