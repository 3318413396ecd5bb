/-!
# Outcomes of a C++ call

`Res α` is the outcome of evaluating a C++ expression of type `α`:
a value, a C++ exception, undefined behaviour, or (for loops modelled with fuel)
exhaustion of the fuel.  Undefined behaviour and fuel exhaustion are distinct
outcomes, never values, so a theorem that says "the result is `ok …`" also says that
neither happens.
-/

namespace Ergodic

/-- C++ exceptions thrown by the modelled code. -/
inductive Err where
  /-- `std::invalid_argument`, thrown explicitly by the repository's own code -/
  | invalidArgument
  /-- `std::out_of_range`, thrown by `std::vector::at` / `std::unordered_map::at` -/
  | outOfRange
  /-- `std::logic_error`, thrown by Armadillo on an index or size error -/
  | logicError
  /-- `std::runtime_error`, thrown by Armadillo's `inv` on a singular matrix -/
  | runtimeError
  deriving DecidableEq, Repr

/-- Outcome of a C++ evaluation. -/
inductive Res (α : Type) where
  | ok (a : α)
  | throw (e : Err)
  /-- undefined behaviour in the C++ standard's sense -/
  | ub
  /-- a loop modelled with fuel ran out of it (theorems show this never happens) -/
  | timeout
  deriving DecidableEq, Repr

namespace Res

/-- Sequencing: the second computation runs only when the first returned a value. -/
def bind {α β : Type} (r : Res α) (f : α → Res β) : Res β :=
  match r with
  | ok a => f a
  | throw e => throw e
  | ub => ub
  | timeout => timeout

instance : Monad Res where
  pure := ok
  bind := bind

@[simp] theorem pure_eq {α : Type} (a : α) : (pure a : Res α) = ok a := rfl
@[simp] theorem ok_bind {α β : Type} (a : α) (f : α → Res β) : (ok a >>= f) = f a := rfl
@[simp] theorem throw_bind {α β : Type} (e : Err) (f : α → Res β) :
    ((throw e : Res α) >>= f) = throw e := rfl
@[simp] theorem ub_bind {α β : Type} (f : α → Res β) : ((ub : Res α) >>= f) = ub := rfl
@[simp] theorem timeout_bind {α β : Type} (f : α → Res β) :
    ((timeout : Res α) >>= f) = timeout := rfl

theorem map_eq_bind {α β : Type} (f : α → β) (r : Res α) :
    (f <$> r) = (r >>= fun a => ok (f a)) := by cases r <;> rfl

instance : LawfulMonad Res := LawfulMonad.mk'
  (id_map := by intro α x; cases x <;> rfl)
  (pure_bind := by intros; rfl)
  (bind_assoc := by intro α β γ x f g; cases x <;> rfl)

@[simp] theorem map_ok {α β : Type} (f : α → β) (a : α) : (f <$> (ok a : Res α)) = ok (f a) := rfl

theorem bind_eq_ok {α β : Type} {r : Res α} {f : α → Res β} {b : β} :
    (r >>= f) = ok b ↔ ∃ a, r = ok a ∧ f a = ok b := by
  cases r <;> simp

/-- The computation returned a value. -/
def isOk {α : Type} : Res α → Bool
  | ok _ => true
  | _ => false

@[simp] theorem isOk_ok {α : Type} (a : α) : (ok a : Res α).isOk = true := rfl

theorem isOk_iff {α : Type} {r : Res α} : r.isOk = true ↔ ∃ a, r = ok a := by
  cases r <;> simp [isOk]

end Res
end Ergodic
