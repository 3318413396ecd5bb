import Verif.Spec.Session
import Verif.Lemmas.Exploration

/-!
# Lemmas about equal outcomes
-/

namespace Ergodic

theorem SameOutcome.bind {α β α' β' : Type} {R : α → α' → Prop} {S : β → β' → Prop} {a : Res α} {b : Res α'}
    {f : α → Res β} {g : α' → Res β'} (h : SameOutcome R a b)
    (hf : ∀ x y, R x y → SameOutcome S (f x) (g y)) : SameOutcome S (a >>= f) (b >>= g) := by
  cases h with
  | ok h => exact hf _ _ h
  | throw e => exact .throw e
  | ub => exact .ub
  | timeout => exact .timeout

theorem SameOutcome.of_map {α β : Type} {a : Res α} {b : Res β} {f : α → β} (h : b = f <$> a) :
    SameOutcome (fun x y => y = f x) a b := by
  subst h
  cases a with
  | ok a => exact .ok rfl
  | throw e => exact .throw e
  | ub => exact .ub
  | timeout => exact .timeout

theorem SameOutcome.of_eq {α : Type} {a b : Res α} (h : b = a) : SameOutcome (fun x y => y = x) a b := by
  subst h
  cases b with
  | ok a => exact .ok rfl
  | throw e => exact .throw e
  | ub => exact .ub
  | timeout => exact .timeout

theorem SameOutcome.bind' {α β α' β' : Type} {R : α → α' → Prop} {S : β → β' → Prop} {a : Res α} {b : Res α'}
    {f : α → Res β} {g : α' → Res β'} (h : SameOutcome R a b)
    (hf : ∀ x y, a = .ok x → R x y → SameOutcome S (f x) (g y)) : SameOutcome S (a >>= f) (b >>= g) := by
  cases h with
  | ok h => exact hf _ _ rfl h
  | throw e => exact .throw e
  | ub => exact .ub
  | timeout => exact .timeout

end Ergodic
