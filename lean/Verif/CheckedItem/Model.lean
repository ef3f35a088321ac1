import Verif.Outcome
/-!
# `CheckedItem`

`include/state-observation/tools/definitions.hpp` 277-339 (class), `definitions.hxx` 1-155 (functions).
The memory of the value is `Option α` (`none`: never initialised). `cfg` holds the template parameters and whether the
build is a debug build (`isDebug`, `BOOST_ASSERT` active). The assertion message and exception pointer are not modelled.
-/

namespace StateObs

/-- Template parameters `lazy`, `alwaysCheck`, `assertion` (definitions.hpp 277) and `isDebug` (definitions.hpp 136-140). -/
structure CheckCfg where
  lazy : Bool
  alwaysCheck : Bool
  assertion : Bool
  isDebug : Bool
  deriving DecidableEq

/-- `do_check_ = !lazy || isDebug`, definitions.hpp 318. -/
def CheckCfg.doCheck (c : CheckCfg) : Bool := !c.lazy || c.isDebug

/-- Members `isSet_` and `v_`. -/
structure CItem (α : Type) where
  flag : Bool
  v : Option α

namespace CItem
variable {α : Type}

/-- `CheckedItem(bool initialize)`, definitions.hxx 1-6; without initialisation the flag keeps the default `true` of
`detail::defaultTrue`. -/
def new (init : Bool) : CItem α := ⟨!init, none⟩

/-- `CheckedItem(const T&)`, definitions.hxx 30-34. -/
def ofValue (x : α) : CItem α := ⟨true, some x⟩

/-- `operator=(const T&)`, definitions.hxx 36-41. -/
def assign (_ : CItem α) (x : α) : CItem α := ⟨true, some x⟩

/-- Copy constructor and copy assignment, definitions.hxx 8-26, 43-64 (`i` is the assigned item). -/
def copyFrom (cfg : CheckCfg) (i c : CItem α) : CItem α := ⟨if cfg.doCheck then c.flag else i.flag, c.v⟩

/-- `isSet`, definitions.hxx 118-122: the stored flag, or constantly true if the flag does not exist (`DebugItem`,
definitions.hpp 244-269). -/
def isSet (cfg : CheckCfg) (i : CItem α) : Bool := if cfg.doCheck then i.flag else true

/-- `reset`, definitions.hxx 124-128. -/
def reset (i : CItem α) : CItem α := { i with flag := false }

/-- `set(bool)`, definitions.hxx 137-141; `set()` 130-135 is `setFlag true`. -/
def setFlag (i : CItem α) (b : Bool) : CItem α := { i with flag := b }

/-- `operator()()` with `chckitm_check_`, definitions.hxx 85-116. -/
def read (cfg : CheckCfg) (i : CItem α) : Res α :=
  if cfg.assertion && cfg.isDebug && !i.isSet cfg then .assertFail
  else if (cfg.alwaysCheck || cfg.isDebug) && !i.isSet cfg then .exn
  else match i.v with
    | some x => .ok x
    | none => .ub

end CItem
end StateObs
