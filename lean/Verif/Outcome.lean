/-!
# Outcomes of a C++ call

`ok`         – the call returns;
`assertFail` – a `BOOST_ASSERT` of the code fires (checking build);
`ub`         – undefined behaviour that no assertion of the code catches (or an uninitialised value is used);
`exn`        – a C++ exception is thrown.
-/

namespace StateObs

inductive Res (α : Type _) where
  | ok (a : α)
  | assertFail
  | ub
  | exn
  deriving Repr, DecidableEq

namespace Res

@[simp] def bind {α β} : Res α → (α → Res β) → Res β
  | ok a, f => f a
  | assertFail, _ => assertFail
  | ub, _ => ub
  | exn, _ => exn

instance : Monad Res where
  pure := ok
  bind := bind

@[simp] theorem pure_eq {α} (a : α) : (pure a : Res α) = ok a := rfl
@[simp] theorem ok_bind {α β} (a : α) (f : α → Res β) : (ok a >>= f) = f a := rfl
@[simp] theorem assertFail_bind {α β} (f : α → Res β) : ((assertFail : Res α) >>= f) = assertFail := rfl
@[simp] theorem ub_bind {α β} (f : α → Res β) : ((ub : Res α) >>= f) = ub := rfl
@[simp] theorem exn_bind {α β} (f : α → Res β) : ((exn : Res α) >>= f) = exn := rfl

theorem bind_eq_ok {α β} {r : Res α} {f : α → Res β} {b : β} :
    (r >>= f) = ok b ↔ ∃ a, r = ok a ∧ f a = ok b := by
  cases r <;> simp

theorem bind_assoc {α β γ} (r : Res α) (f : α → Res β) (g : β → Res γ) :
    ((r >>= f) >>= g) = (r >>= fun a => f a >>= g) := by
  cases r <;> rfl

/-- `BOOST_ASSERT(b)`. -/
def assert (b : Bool) : Res Unit := if b then ok () else assertFail

@[simp] theorem assert_true : assert true = ok () := rfl
@[simp] theorem assert_false : assert false = assertFail := rfl

/-- The call returned normally. -/
def isOk {α} : Res α → Prop
  | ok _ => True
  | _ => False

@[simp] theorem isOk_ok {α} (a : α) : (ok a).isOk := trivial
@[simp] theorem isOk_assertFail {α} : ¬ (assertFail : Res α).isOk := id
@[simp] theorem isOk_ub {α} : ¬ (ub : Res α).isOk := id
@[simp] theorem isOk_exn {α} : ¬ (exn : Res α).isOk := id

theorem isOk_iff {α} (r : Res α) : r.isOk ↔ ∃ a, r = ok a := by
  cases r <;> simp

end Res
end StateObs
