import Verif.CheckedItem.Model
import Mathlib.Logic.Function.Basic
/-!
# Property C06: checked items

A program works on any number of items (`ι` names them); the specification is a map from names to `Option α`.
-/

namespace StateObs.CheckedSpec
variable {ι α : Type} [DecidableEq ι]

/-- What a program does with its items. -/
inductive Op (ι α : Type) where
  | assign (i : ι) (x : α)
  | copy (i j : ι)
  | reset (i : ι)

/-- Meaning: each name holds a value or nothing. -/
def spec (s : ι → Option α) : Op ι α → ι → Option α
  | .assign i x => Function.update s i (some x)
  | .copy i j => Function.update s i (s j)
  | .reset i => Function.update s i none

/-- The same on the modelled items. -/
def impl (cfg : CheckCfg) (s : ι → CItem α) : Op ι α → ι → CItem α
  | .assign i x => Function.update s i ((s i).assign x)
  | .copy i j => Function.update s i ((s i).copyFrom cfg (s j))
  | .reset i => Function.update s i (s i).reset

/-- The item agrees with the specification. -/
def Agrees (cfg : CheckCfg) (it : CItem α) (o : Option α) : Prop :=
  (cfg.doCheck = true → (it.flag = true ↔ o.isSome)) ∧ ∀ x, o = some x → it.v = some x

theorem agrees_step (cfg : CheckCfg) (s : ι → CItem α) (o : ι → Option α) (h : ∀ i, Agrees cfg (s i) (o i))
    (op : Op ι α) (i : ι) : Agrees cfg (impl cfg s op i) (spec o op i) := by
  cases op with
  | assign j x =>
    by_cases hij : i = j
    · subst hij; simp [impl, spec, Agrees, CItem.assign]
    · simp [impl, spec, hij, h i]
  | copy j k =>
    by_cases hij : i = j
    · subst hij
      simp only [impl, spec, Function.update_self, Agrees, CItem.copyFrom]
      refine ⟨fun hc => ?_, (h k).2⟩
      rw [if_pos hc]; exact (h k).1 hc
    · simp [impl, spec, hij, h i]
  | reset j =>
    by_cases hij : i = j
    · subst hij; simp [impl, spec, Agrees, CItem.reset]
    · simp [impl, spec, hij, h i]

theorem agrees_run (cfg : CheckCfg) (ops : List (Op ι α)) (s : ι → CItem α) (o : ι → Option α)
    (h : ∀ i, Agrees cfg (s i) (o i)) (i : ι) :
    Agrees cfg (ops.foldl (impl cfg) s i) (ops.foldl spec o i) := by
  induction ops generalizing s o with
  | nil => exact h i
  | cons op ops ih => exact ih _ _ (agrees_step cfg s o h op)

/-- **C06**, checking builds. Starting from default-constructed items, after any sequence of assignments, copies and resets, in a
debug build reading an item gives the value of the specification if there is one, and fails (assertion, or exception if
assertions are disabled by the template parameter) if there is none. -/
theorem C06_read_debug (cfg : CheckCfg) (hd : cfg.isDebug = true) (ops : List (Op ι α)) (i : ι) :
    (ops.foldl (impl cfg) (fun _ => CItem.new true) i).read cfg =
      match ops.foldl spec (fun _ => none) i with
      | some x => .ok x
      | none => if cfg.assertion then .assertFail else .exn := by
  have h := agrees_run cfg ops (fun _ => CItem.new true) (fun _ => none) (by simp [Agrees, CItem.new]) i
  have hc : cfg.doCheck = true := by simp [CheckCfg.doCheck, hd]
  generalize ops.foldl (impl cfg) (fun _ => CItem.new true) i = it at h ⊢
  cases ho : ops.foldl spec (fun _ => none) i with
  | none =>
    rw [ho] at h
    have hf : it.flag = false := by simpa using h.1 hc
    cases ha : cfg.assertion <;> simp [CItem.read, CItem.isSet, hc, hd, ha, hf]
  | some x =>
    rw [ho] at h
    have hf : it.flag = true := (h.1 hc).2 rfl
    simp [CItem.read, CItem.isSet, hc, hf, h.2 x rfl]

/-- **C06**, release builds: an item whose specification has a value is read correctly in every configuration, and with
`alwaysCheck` (and not `lazy`) an item without value throws. -/
theorem C06_read_release (cfg : CheckCfg) (hd : cfg.isDebug = false) (ops : List (Op ι α)) (i : ι) :
    (∀ x, ops.foldl spec (fun _ => none) i = some x →
      (ops.foldl (impl cfg) (fun _ => CItem.new true) i).read cfg = .ok x) ∧
    (ops.foldl spec (fun _ => none) i = none → cfg.alwaysCheck = true → cfg.lazy = false →
      (ops.foldl (impl cfg) (fun _ => CItem.new true) i).read cfg = .exn) := by
  have h := agrees_run cfg ops (fun _ => CItem.new true) (fun _ => none) (by simp [Agrees, CItem.new]) i
  generalize ops.foldl (impl cfg) (fun _ => CItem.new true) i = it at h ⊢
  constructor
  · intro x hx
    rw [hx] at h
    cases hc : cfg.doCheck with
    | false => simp [CItem.read, CItem.isSet, hc, h.2 x rfl]
    | true =>
      have hf : it.flag = true := (h.1 hc).2 rfl
      simp [CItem.read, CItem.isSet, hc, hf, h.2 x rfl]
  · intro hn ha hl
    rw [hn] at h
    have hc : cfg.doCheck = true := by simp [CheckCfg.doCheck, hl]
    have hf : it.flag = false := by simpa using h.1 hc
    simp [CItem.read, CItem.isSet, hc, hd, ha, hf]

/-- `isSet()` is exact whenever the flag exists (not lazy, or debug). -/
theorem C06_isSet (cfg : CheckCfg) (hc : cfg.doCheck = true) (ops : List (Op ι α)) (i : ι) :
    (ops.foldl (impl cfg) (fun _ => CItem.new true) i).isSet cfg = (ops.foldl spec (fun _ => none) i).isSome := by
  have h := agrees_run cfg ops (fun _ => CItem.new true) (fun _ => none) (by simp [Agrees, CItem.new]) i
  rw [Bool.eq_iff_iff]
  simp only [CItem.isSet, hc, if_true]
  exact h.1 hc

/-- What is *not* guaranteed: in a release build without `alwaysCheck` a reset item still yields its old value. -/
theorem C06_release_stale : ∃ (cfg : CheckCfg) (it : CItem Nat), cfg.isDebug = false ∧ it.isSet cfg = false ∧
    it.read cfg = .ok 3 := ⟨⟨false, false, true, false⟩, (CItem.ofValue 3).reset, rfl, rfl, rfl⟩

/-- Non-vacuity: a history where items are set, copied over and reset. -/
example : let ops : List (Op Bool Nat) := [.assign true 5, .copy false true, .reset true, .assign true 7, .copy false true]
    (ops.foldl spec (fun _ => none) false, ops.foldl spec (fun _ => none) true) = (some 7, some 7) := by decide
example : let ops : List (Op Bool Nat) := [.assign true 5, .copy false true, .reset true, .copy false true]
    (ops.foldl (impl ⟨false, false, true, true⟩) (fun _ => CItem.new true) false).read ⟨false, false, true, true⟩
      = .assertFail := by decide

end StateObs.CheckedSpec
