/-!
# Outcomes of modelled C++ code

Models the three ways a modelled call can end.

* `ok a`      : the call returns `a`.
* `abort`     : the call reaches `assertion_failed(...)` or `terminate_with(...)`
                (src/snitch_error_handling.cpp 8-25: prints a message and terminates / calls the
                user supplied handler, which must not return).
* `ub`        : the C++ text would have undefined behaviour at this point (write or read outside
                the storage, unterminated C string, ...). Never assumed away: theorems that need
                its absence prove it.
-/

namespace Verif

inductive Outcome (α : Type) where
  | ok (a : α)
  | abort
  | ub
deriving DecidableEq, Repr

namespace Outcome

/-- Sequencing: the first `abort` or `ub` ends the computation (src/snitch_error_handling.cpp 8-25:
`terminate_with` / `assertion_failed` are `[[noreturn]]`). -/
def bind {α β : Type} (x : Outcome α) (f : α → Outcome β) : Outcome β :=
  match x with
  | ok a => f a
  | abort => abort
  | ub => ub

instance : Monad Outcome where
  pure := ok
  bind := bind

@[simp] theorem pure_eq {α : Type} (a : α) : (pure a : Outcome α) = ok a := rfl
@[simp] theorem bind_ok {α β : Type} (a : α) (f : α → Outcome β) : (ok a >>= f) = f a := rfl
@[simp] theorem bind_abort {α β : Type} (f : α → Outcome β) :
    ((abort : Outcome α) >>= f) = abort := rfl
@[simp] theorem bind_ub {α β : Type} (f : α → Outcome β) : ((ub : Outcome α) >>= f) = ub := rfl

end Outcome
end Verif
