import Verif.IndexedArray.File
/-!
# The tool that splits the logs

misc-tools/file-splitter.cpp 36-236: the log that has been read (`readVectorsFromFile`, IndexedArray/File.lean) is cut into the arrays that are written to the files. A vector is
the list of its entries; `num` is the conversion of a number of contacts to a floating-point number. Not modelled: the parsing of the arguments of the command and the messages.
The offsets are those of `IMUElasticLocalFrameDynamicalSystem::input` and `state`
(imu-elastic-local-frame-dynamical-system.hpp 37-70).
-/

namespace StateObs.Tools
open StateObs

variable {β : Type}

/-- `v.segment<n>(i)`: outside the vector, an assertion of Eigen. -/
def segment (n i : Nat) (v : List β) : Res (List β) := if i + n ≤ v.length then .ok ((v.drop i).take n) else .assertFail

/-- `setValue(x, i)` of each of the arrays. -/
def setAll : List (IArr (List β)) → List (List β) → Int → Res (List (IArr (List β)))
  | a :: as, x :: xs, i => do
    let a' ← a.setValue x i
    let r ← setAll as xs i
    .ok (a' :: r)
  | _, _, _ => .ok []

/-- The loops over the indices of a log (53-101, 140-178, 206-218), `n` turns from index `i`. `row` gives what is put in the arrays for a vector of the log, `none` when nothing is. -/
def splitLoop (row : List β → Res (Option (List (List β)))) (y : IArr (List β)) : Nat → Int → List (IArr (List β)) → Res (List (IArr (List β)))
  | 0, _, files => .ok files
  | n + 1, i, files => do
    let v ← y.get i
    match ← row v with
    | none => splitLoop row y n (i + 1) files
    | some r => do
      let files ← setAll files r i
      splitLoop row y n (i + 1) files

/-- The segments at the given places, in order. -/
def segments : List (Nat × Nat) → List β → Res (List (List β))
  | [], _ => .ok []
  | (n, i) :: l, v => do
    let a ← segment n i v
    let r ← segments l v
    .ok (a :: r)

/-- `c1(0) = x`. -/
def setHead (c : List β) (x : β) : List β := match c with
  | [] => []
  | _ :: t => x :: t

/-- One turn of the loop over the inputs (55-100), `size` is `u.size()`. The first `contact1.setValue(c1, i)` (83) is left out: the second one (99) replaces the value. -/
def rowU (num : Nat → β) (size : Nat) (ui : List β) : Res (Option (List (List β))) := do
  let base ← segments [(3, 0), (3, 3), (3, 6), (6, 9), (3, 15), (6, 18), (3, 24), (3, 27), (3, 30), (3, 33), (3, 36), (3, 39), (6, 42)] ui
  let (c1, n) ←
    if size > 48 then do
      let s ← segment 12 48 ui
      .ok (num 1 :: s, 1)
    else .ok ([num 0], 0)
  let (c1, c2) ←
    if ui.length > 48 + 12 then do
      let s ← segment 12 (48 + 12) ui
      .ok (setHead c1 (num (n + 1)), num (n + 1) :: s)
    else .ok (c1, [num n])
  .ok (some (base ++ [c1, c2]))

/-- The split of the inputs (51-101): the arrays written to the fifteen files, in the order of their numbers. -/
def splitInputs (num : Nat → β) (u : IArr (List β)) : Res (List (IArr (List β))) :=
  splitLoop (rowU num u.size) u u.size u.getFirstIndex (List.replicate 15 IArr.empty)

/-- One turn of the loop over the measurements (142-177). -/
def rowY (num : Nat → β) (yi : List β) : Res (Option (List (List β))) :=
  if yi.length > 0 then do
    let base ← segments [(3, 0), (3, 3)] yi
    let (f1, n) ←
      if yi.length > 6 then do
        let s ← segment 6 6 yi
        .ok (num 1 :: s, 1)
      else .ok ([num 0], 0)
    let (f1, f2) ←
      if yi.length > 12 then do
        let s ← segment 6 12 yi
        .ok (setHead f1 (num (n + 1)), num (n + 1) :: s)
      else .ok (f1, [num n])
    .ok (some (base ++ [f1, f2]))
  else .ok none

/-- The split of the measurements (134-178). -/
def splitMeasurements (num : Nat → β) (y : IArr (List β)) : Res (List (IArr (List β))) :=
  splitLoop (rowY num) y y.size y.getFirstIndex (List.replicate 4 IArr.empty)

/-- One turn of the loop over the states (208-217). -/
def rowX (xi : List β) : Res (Option (List (List β))) := do
  let r ← segments [(3, 0), (3, 3), (3, 6), (3, 9), (6, 12), (6, 18), (6, 24), (3, 30), (3, 32)] xi
  .ok (some r)

/-- The split of the states (202-218). -/
def splitStates (x : IArr (List β)) : Res (List (IArr (List β))) :=
  splitLoop rowX x x.size x.getFirstIndex (List.replicate 9 IArr.empty)

end StateObs.Tools
