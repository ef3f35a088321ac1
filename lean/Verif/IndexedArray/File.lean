import Verif.IndexedArray.Model
/-!
# Writing and reading log files

`definitions.hxx` 495-672. A matrix is represented by its coefficients in row-major order (`List β`); a file by its
lines, a line by its blank-separated tokens. The number formats of `operator<<` / `operator>>` are parameters
(`Codec`). Every written line ends with a newline. Simplification: a token that does not parse as a number is
consumed as a whole (`>>` may stop in its middle; the stream is in the failed state in both cases and is not read
any further).
-/

namespace StateObs

/-- Text representation used by the streams: `pInt`/`rInt` for `f << k`, `f >> k` with `int k`,
`pVal`/`rVal` for `double`. -/
structure Codec (β Tok : Type) where
  pInt : Int → Tok
  rInt : Tok → Option Int
  pVal : β → Tok
  rVal : Tok → Option β

namespace LogFile
variable {β Tok : Type}

/-- One line written by `writeInFile`, definitions.hxx 644-655: the index, then the coefficients. -/
def line (c : Codec β Tok) (k : Int) (m : List β) : List Tok := c.pInt k :: m.map c.pVal

/-- The loop of `writeInFile`, definitions.hxx 641-656, over the stored matrices from index `k` on. -/
def lines (c : Codec β Tok) : Int → List (List β) → List (List Tok)
  | _, [] => []
  | k, m :: ms => line c k m :: lines c (k + 1) ms

/-- `writeInFile`, definitions.hxx 624-672. `file` is the previous content, `opens` whether `f.open` succeeds.
Returns the new content and the array. -/
def writeInFile (c : Codec β Tok) (a : IArr (List β)) (file : List (List Tok)) (clearLog append opens : Bool) :
    Res (List (List Tok) × IArr (List β)) :=
  if opens then
    let f := (if append then file else []) ++ lines c a.k a.v
    .ok (f, if clearLog then a.clear else a)
  else .exn

/-- State of the input stream: remaining tokens and `fail()`. -/
structure Stream (Tok : Type) where
  toks : List Tok
  fail : Bool

/-- `f >> k` with `int k` (definitions.hxx 524): the variable is left unchanged if the stream has failed or is at its end,
and set to zero on a parse error. -/
def Stream.readInt (c : Codec β Tok) (s : Stream Tok) (k : Int) : Stream Tok × Int :=
  if s.fail then (s, k) else
  match s.toks with
  | [] => (⟨[], true⟩, k)
  | t :: ts => match c.rInt t with
    | some i => (⟨ts, false⟩, i)
    | none => (⟨ts, true⟩, 0)

/-- `f >> m(i,j)` (definitions.hxx 536). -/
def Stream.readVal (c : Codec β Tok) (zero : β) (s : Stream Tok) (x : β) : Stream Tok × β :=
  if s.fail then (s, x) else
  match s.toks with
  | [] => (⟨[], true⟩, x)
  | t :: ts => match c.rVal t with
    | some y => (⟨ts, false⟩, y)
    | none => (⟨ts, true⟩, zero)

/-- The double loop definitions.hxx 532-538, over the coefficients of the current matrix `m`. -/
def Stream.readMat (c : Codec β Tok) (zero : β) (s : Stream Tok) : List β → Stream Tok × List β
  | [] => (s, [])
  | x :: xs =>
    let (s', y) := s.readVal c zero x
    let (s'', ys) := Stream.readMat c zero s' xs
    (s'', y :: ys)

/-- The `while` loop of `readFromFile`, definitions.hxx 518-543. `fuel` bounds the number of iterations; running out of
it stands for a loop that never ends. `m` and `k` keep their value from one iteration to the next. -/
def readLoop (c : Codec β Tok) (zero : β) (withTimeStamp : Bool) :
    Nat → Stream Tok → List β → Int → IArr (List β) → Res (IArr (List β))
  | 0, _, _, _, _ => .ub
  | fuel + 1, s, m, k, a =>
    let (s, k) := if withTimeStamp then s.readInt c k else (s, k)
    if s.fail then .ok a
    else
      let (s, m) := s.readMat c zero m
      do let a ← a.setValue m k
         readLoop c zero withTimeStamp fuel s m (k + 1) a

/-- `readFromFile`, definitions.hxx 502-545, for an existing file: resets the array, starts with a zero matrix and `k=0`. -/
def readFromFile (c : Codec β Tok) (zero : β) (file : List (List Tok)) (rows cols : Nat) (withTimeStamp : Bool)
    (fuel : Nat) : Res (IArr (List β)) :=
  readLoop c zero withTimeStamp fuel ⟨file.flatten, false⟩ (List.replicate (rows * cols) zero) 0 IArr.empty

/-- The inner loop of `readVectorsFromFile`, definitions.hxx 590-602. -/
def readComponents (c : Codec β Tok) : List Tok → List β
  | [] => []
  | t :: ts => match c.rVal t with
    | some x => x :: readComponents c ts
    | none => []

/-- The outer loop of `readVectorsFromFile`, definitions.hxx 570-612: one iteration per line, until `getline` fails. -/
def readVecLoop (c : Codec β Tok) (withTimeStamp : Bool) :
    List (List Tok) → Int → IArr (List β) → Res (IArr (List β))
  | [], _, a => .ok a
  | l :: ls, k, a =>
    let (k, v) :=
      if withTimeStamp then
        match l with
        | [] => (k, [])
        | t :: ts => match c.rInt t with
          | some i => (i, readComponents c ts)
          | none => (0, [])
      else (k, readComponents c l)
    do let a ← a.setValue v k
       readVecLoop c withTimeStamp ls (k + 1) a

/-- `readVectorsFromFile`, definitions.hxx 554-614, for an existing file. -/
def readVectorsFromFile (c : Codec β Tok) (file : List (List Tok)) (withTimeStamp : Bool) : Res (IArr (List β)) :=
  readVecLoop c withTimeStamp file 0 IArr.empty

end LogFile
end StateObs
