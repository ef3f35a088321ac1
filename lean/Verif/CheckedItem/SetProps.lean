import Verif.CheckedItem.Model
import Mathlib.Logic.Function.Basic
/-!
# Property C06: checked items whose flag is set directly

`set()` and `set(bool)` change only whether the item counts as set: the item has a memory that `reset` does not erase. The
specification gives each name whether it is set, and what was last written.
-/

namespace StateObs.CheckedFlag
variable {ι α : Type} [DecidableEq ι]

/-- What a program does with its items. -/
inductive Op (ι α : Type) where
  | construct (i : ι) (x : α)
  | assign (i : ι) (x : α)
  | copy (i j : ι)
  | reset (i : ι)
  | set (i : ι) (b : Bool)

/-- Is the item set after these calls (the last call is the head of the list)? -/
def isSetAfter : List (Op ι α) → ι → Bool
  | [], _ => false
  | .construct j _ :: l, i => if i = j then true else isSetAfter l i
  | .assign j _ :: l, i => if i = j then true else isSetAfter l i
  | .copy j k :: l, i => if i = j then isSetAfter l k else isSetAfter l i
  | .reset j :: l, i => if i = j then false else isSetAfter l i
  | .set j b :: l, i => if i = j then b else isSetAfter l i

/-- The last value written to the item, possibly through copies; `reset` and `set` write nothing. -/
def writtenIn : List (Op ι α) → ι → Option α
  | [], _ => none
  | .construct j x :: l, i => if i = j then some x else writtenIn l i
  | .assign j x :: l, i => if i = j then some x else writtenIn l i
  | .copy j k :: l, i => if i = j then writtenIn l k else writtenIn l i
  | .reset _ :: l, i => writtenIn l i
  | .set _ _ :: l, i => writtenIn l i

/-- The same on the modelled items. -/
def impl (cfg : CheckCfg) (s : ι → CItem α) : Op ι α → ι → CItem α
  | .construct i x => Function.update s i (CItem.ofValue x)
  | .assign i x => Function.update s i ((s i).assign x)
  | .copy i j => Function.update s i ((s i).copyFrom cfg (s j))
  | .reset i => Function.update s i (s i).reset
  | .set i b => Function.update s i ((s i).setFlag b)

/-- The items after these calls (the last call is the head of the list). -/
def run (cfg : CheckCfg) (l : List (Op ι α)) : ι → CItem α := l.foldr (fun o s => impl cfg s o) (fun _ => CItem.new true)

theorem run_eq (cfg : CheckCfg) (l : List (Op ι α)) (i : ι) :
    (cfg.doCheck = true → (run cfg l i).flag = isSetAfter l i) ∧ (run cfg l i).v = writtenIn l i := by
  induction l generalizing i with
  | nil => exact ⟨fun _ => rfl, rfl⟩
  | cons o l ih =>
    have e : run cfg (o :: l) = impl cfg (run cfg l) o := rfl
    rw [e]
    cases o with
    | copy j k =>
      by_cases h : i = j
      · subst h
        refine ⟨fun hc => ?_, ?_⟩
        · simp [impl, isSetAfter, CItem.copyFrom, hc, (ih k).1 hc]
        · simp [impl, writtenIn, CItem.copyFrom, (ih k).2]
      · simpa [impl, isSetAfter, writtenIn, h] using ih i
    | _ j =>
      by_cases h : i = j
      · subst h
        simp [impl, isSetAfter, writtenIn, CItem.assign, CItem.ofValue, CItem.reset, CItem.setFlag, (ih i).2]
      · simpa [impl, isSetAfter, writtenIn, h] using ih i

/-- **C06**, with `set()` and `set(bool)`. After any sequence of constructions, assignments, copies, resets and changes of the
flag, in every configuration: an item that is set gives the last value written, even if it was written before a `reset`; if none
was ever written the result is indeterminate. An item that is not set fails in a debug build. `isSet()` gives the flag. -/
theorem C06_set (cfg : CheckCfg) (l : List (Op ι α)) (i : ι) :
    (cfg.doCheck = true → (run cfg l i).isSet cfg = isSetAfter l i) ∧
    (isSetAfter l i = true → (run cfg l i).read cfg = match writtenIn l i with | some x => .ok x | none => .ub) ∧
    (isSetAfter l i = false → cfg.isDebug = true →
      (run cfg l i).read cfg = if cfg.assertion then .assertFail else .exn) := by
  obtain ⟨hf, hv⟩ := run_eq cfg l i
  have hs : cfg.doCheck = true → (run cfg l i).isSet cfg = isSetAfter l i := fun hc => by simp [CItem.isSet, hc, hf hc]
  refine ⟨hs, fun h => ?_, fun h hd => ?_⟩
  · have hi : (run cfg l i).isSet cfg = true := by
      cases hc : cfg.doCheck with
      | true => rw [hs hc, h]
      | false => simp [CItem.isSet, hc]
    simp only [CItem.read, hi, hv]
    cases writtenIn l i <;> simp
  · have hi : (run cfg l i).isSet cfg = false := by rw [hs (by simp [CheckCfg.doCheck, hd]), h]
    cases ha : cfg.assertion <;> simp [CItem.read, hi, hd, ha]

/-- Non-vacuity: a value that is reset and set again, and an item set without a value. -/
example : let l : List (Op Bool Nat) := [.set true true, .set false true, .reset false, .assign false 4]
    (isSetAfter l false, writtenIn l false, isSetAfter l true, writtenIn l true) = (true, some 4, true, none) := by decide

end StateObs.CheckedFlag
