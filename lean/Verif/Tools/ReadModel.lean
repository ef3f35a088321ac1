import Verif.IndexedArray.File
/-!
# Reading the measurements of two files

`getMeasurements` of misc-tools/IMU-Observation-tester.cpp 8-45 (the same function is in misc-tools/real-offline-flexibility-estimator.cpp), and the reading of `getTrajectory`. The files are those of IndexedArray/File.lean: tokens, with an end of line after the last one, so that the end of a file
is reached when a reading finds no token. Simplifications: the indices (`unsigned`) are read like `int`; a token that is not a number is consumed as a whole. The numbers that the
variables declared without a value hold are arguments: `mem` for the indices, `a0` and `g0` for the vectors.
-/

namespace StateObs.Tools
open StateObs LogFile

variable {β Tok : Type}

/-- A stream with its flag `eof()`. -/
structure Source (Tok : Type) where
  s : Stream Tok
  eof : Bool

/-- The flag after a reading: set when the stream has not failed before and has no token left. -/
def Source.eofAfter (f : Source Tok) : Bool := f.eof || (!f.s.fail && f.s.toks.isEmpty)

/-- `f >> k`. -/
def Source.readInt (c : Codec β Tok) (f : Source Tok) (k : Int) : Source Tok × Int :=
  let (s, k') := f.s.readInt c k
  (⟨s, f.eofAfter⟩, k')

/-- `f >> x`. -/
def Source.readVal (c : Codec β Tok) (zero : β) (f : Source Tok) (x : β) : Source Tok × β :=
  let (s, y) := f.s.readVal c zero x
  (⟨s, f.eofAfter⟩, y)

/-- `f >> m[0] >> m[1] >> m[2]` (36-37). -/
def Source.readVec (c : Codec β Tok) (zero : β) (f : Source Tok) : List β → Source Tok × List β
  | [] => (f, [])
  | x :: xs =>
    let (f', y) := f.readVal c zero x
    let (f'', ys) := Source.readVec c zero f' xs
    (f'', y :: ys)

/-- The loop (27-43), `j` is the number of the turn; out of `fuel`: a loop that does not end. Only the flag of the file of the accelerometer is tested, twice (33). -/
def measLoop (c : Codec β Tok) (zero : β) (mem : Nat → Int × Int) : Nat → Nat → Source Tok → Source Tok → List β → List β → IArr (List β) → Res (IArr (List β))
  | 0, _, _, _, _, _, _ => .ub
  | fuel + 1, j, facc, fgyr, a, g, y =>
    let (facc, k1) := facc.readInt c (mem j).1
    let (fgyr, k2) := fgyr.readInt c (mem j).2
    if facc.eof || facc.eof || decide (k1 ≠ k2) then .ok y
    else
      let (facc, a) := facc.readVec c zero a
      let (fgyr, g) := fgyr.readVec c zero g
      do let y ← y.setValue (a ++ g) k1
         measLoop c zero mem fuel (j + 1) facc fgyr a g y

/-- `getMeasurements` (8-45), for existing files. -/
def getMeasurements (c : Codec β Tok) (zero : β) (mem : Nat → Int × Int) (a0 g0 : List β) (acc gyr : List (List Tok)) (fuel : Nat) : Res (IArr (List β)) :=
  measLoop c zero mem fuel 0 ⟨⟨acc.flatten, false⟩, false⟩ ⟨⟨gyr.flatten, false⟩, false⟩ a0 g0 IArr.empty

/-- The loop of `getTrajectory`, misc-tools/real-offline-flexibility-estimator.cpp 181-196; `mem` as above. -/
def trajLoop (c : Codec β Tok) (zero : β) (mem : Nat → Int) : Nat → Nat → Source Tok → List β → IArr (List β) → Res (IArr (List β))
  | 0, _, _, _, _ => .ub
  | fuel + 1, j, f, x, up =>
    let (f, k) := f.readInt c (mem j)
    if f.eof then .ok up
    else
      let (f, x) := f.readVec c zero x
      do let up ← up.setValue x k
         trajLoop c zero mem fuel (j + 1) f x up

/-- The array `up` of `getTrajectory`, misc-tools/real-offline-flexibility-estimator.cpp 169-196, for an existing file; `x0` is what the memory of `configuration` holds (six
components). -/
def readTrajectory (c : Codec β Tok) (zero : β) (mem : Nat → Int) (x0 : List β) (file : List (List Tok)) (fuel : Nat) : Res (IArr (List β)) :=
  trajLoop c zero mem fuel 0 ⟨⟨file.flatten, false⟩, false⟩ x0 IArr.empty

end StateObs.Tools
