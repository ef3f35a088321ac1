import Verif.IndexedArray.File
import Mathlib.Logic.Function.Basic
/-!
# `tools::Logger`

`include/state-observation/tools/logger.hpp` 16-90, `logger.hxx` 1-75, `src/logger.cpp` 1-134.

Addresses are integers. The memory is a function giving, for an address and the type it is read with, the matrix pushed by
`update_` (its coefficients in row-major order, conversions to `double` included); reading a variable that no longer exists is not
modelled. The log of an address is an entry of the list standing for the `std::map`, in increasing address order.
-/

namespace StateObs

/-- The `typeid`s that `record` or `update_` distinguish (logger.hxx 11-18, logger.cpp 83-128); `Index` is `long` and is covered by it. -/
inductive LogType where
  | matrix | vector | matrix3 | vector3 | int | unsigned | long | double | float
  | other
  deriving DecidableEq, Repr

/-- The types `record` accepts (logger.hxx 11-18: `unsigned` is missing). -/
def LogType.recordable : LogType → Bool
  | .unsigned => false
  | .other => false
  | _ => true

/-- `log_s`, logger.hpp 61-78. -/
structure Log (β : Type) where
  array : IArr (List β)
  filename : String
  type : LogType

/-- Members `path_`, `logs_`, `scalar_` (logger.hpp 85-87). -/
structure Logger (β : Type) where
  path : String
  logs : List (Int × Log β)
  scalar : List β

/-- What `update_` reads at an address. -/
abbrev Memory (β : Type) := Int → LogType → List β

namespace Logger
variable {β Tok : Type}

/-- Constructor, logger.cpp 8-11: `scalar_` is a 1×1 matrix with an unspecified coefficient `z`. -/
def new (z : β) : Logger β := ⟨"", [], [z]⟩

/-- `setPath`, logger.cpp 18-21. -/
def setPath (s : Logger β) (p : String) : Logger β := { s with path := p }

/-- `std::map::insert`: an existing entry is left alone. -/
def insert : List (Int × Log β) → Int → Log β → List (Int × Log β)
  | [], k, u => [(k, u)]
  | (j, v) :: t, k, u => if k < j then (k, u) :: (j, v) :: t else if k = j then (j, v) :: t else (j, v) :: insert t k u

/-- `std::map::find`. -/
def find (l : List (Int × Log β)) (a : Int) : Option (Log β) := (l.find? fun e => decide (e.1 = a)).map (·.2)

/-- `std::map::erase` of the entry of a key. -/
def erase (l : List (Int × Log β)) (a : Int) : List (Int × Log β) := l.filter fun e => decide (e.1 ≠ a)

/-- `record`, logger.hxx 6-34. -/
def record (s : Logger β) (a : Int) (t : LogType) (filename : String) : Res (Logger β) := do
  Res.assert t.recordable
  .ok { s with logs := insert s.logs a ⟨IArr.empty, filename, t⟩ }

/-- `update_`, logger.cpp 79-131: matrices and vectors are pushed directly, scalars through `scalar_`, which keeps its previous value
for any other type. Returns the array and `scalar_`. -/
def update (m : Memory β) (a : Int) (log : Log β) (scalar : List β) : Log β × List β :=
  match log.type with
  | .matrix => ({ log with array := log.array.pushBack (m a .matrix) }, scalar)
  | .vector => ({ log with array := log.array.pushBack (m a .vector) }, scalar)
  | .matrix3 => ({ log with array := log.array.pushBack (m a .matrix3) }, scalar)
  | .vector3 => ({ log with array := log.array.pushBack (m a .vector3) }, scalar)
  | .other => ({ log with array := log.array.pushBack scalar }, scalar)
  | t => ({ log with array := log.array.pushBack (m a t) }, m a t)

/-- The loop of `push`. -/
def pushLoop (m : Memory β) : List (Int × Log β) → List β → List (Int × Log β) × List β
  | [], sc => ([], sc)
  | (a, log) :: t, sc =>
    let r := update m a log sc
    let q := pushLoop m t r.2
    ((a, r.1) :: q.1, q.2)

/-- `push()`, logger.cpp 71-77. -/
def push (s : Logger β) (m : Memory β) : Logger β :=
  let r := pushLoop m s.logs s.scalar
  { s with logs := r.1, scalar := r.2 }

/-- `push(const T*)`, logger.hxx 36-47, called with a pointer to a pointer holding the address `a` (`find(*address)`: for any other `T`
the template does not compile). The `throw` is outside the `else`. -/
def pushOne (s : Logger β) (_ : Memory β) (a : Int) : Res (Logger β) :=
  match find s.logs a with
  | some _ => .exn
  | none => .assertFail

/-- `updateAddress`, logger.hxx 55-72. -/
def updateAddress (s : Logger β) (old new : Int) (t : LogType) : Res (Logger β) :=
  match find s.logs old with
  | none => .assertFail
  | some log => .ok { s with logs := erase (insert s.logs new ⟨IArr.empty, log.filename, t⟩) old }

/-- `getRecord`, logger.cpp 47-69. -/
def getRecord (s : Logger β) (a : Int) : Res (IArr (List β)) :=
  match find s.logs a with
  | none => .assertFail
  | some log => .ok log.array

/-- `clearTracking`, logger.cpp 34-37. -/
def clearTracking (s : Logger β) : Logger β := { s with logs := [] }

/-- `clearLogs`, logger.cpp 39-45. -/
def clearLogs (s : Logger β) : Logger β :=
  { s with logs := s.logs.map fun e => (e.1, { e.2 with array := e.2.array.clear }) }

/-- The files: content by path. -/
abbrev Files (Tok : Type) := String → List (List Tok)

/-- The loop of `save`. -/
def saveLoop (c : Codec β Tok) (path : String) (opens : String → Bool) (clear append : Bool) :
    List (Int × Log β) → Files Tok → Res (List (Int × Log β) × Files Tok)
  | [], fs => .ok ([], fs)
  | (a, log) :: t, fs =>
    if log.filename ≠ "" then do
      let p := path ++ "/" ++ log.filename
      let (content, array) ← LogFile.writeInFile c log.array (fs p) clear append (opens p)
      let (t', fs') ← saveLoop c path opens clear append t (Function.update fs p content)
      .ok ((a, { log with array := array }) :: t', fs')
    else do
      let (t', fs') ← saveLoop c path opens clear append t fs
      .ok ((a, log) :: t', fs')

/-- `save`, logger.cpp 23-32; `opens` tells which files can be opened for writing. -/
def save (c : Codec β Tok) (s : Logger β) (opens : String → Bool) (clear append : Bool) (fs : Files Tok) :
    Res (Logger β × Files Tok) := do
  let (l, fs') ← saveLoop c s.path opens clear append s.logs fs
  .ok ({ s with logs := l }, fs')

end Logger
end StateObs
