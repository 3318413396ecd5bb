import Verif.Spec.Exploration
import Verif.Spec.DynamicWindow
import Verif.Base.Overflow

/-!
# Arithmetic with special values

What the theorems on twists that are not finite need to know about arithmetic: a result computed from
an operand that is not finite is not finite (except where IEEE-754 says otherwise: a quotient by an
infinity, for instance).  Finite operands may well have a result that is not finite.
-/

namespace Ergodic

/-- Numbers of which some are finite, and operations that do not turn the others into finite ones. -/
class Special (F : Type) [Flt F] where
  /-- neither infinite nor NaN -/
  Fin : F → Prop
  add_l : ∀ a b : F, Fin (a +. b) → Fin a
  add_r : ∀ a b : F, Fin (a +. b) → Fin b
  sub_l : ∀ a b : F, Fin (a -. b) → Fin a
  mul_l : ∀ a b : F, Fin (a *. b) → Fin a
  mul_r : ∀ a b : F, Fin (a *. b) → Fin b
  div_l : ∀ a b : F, Fin (a /. b) → Fin a
  cos_arg : ∀ a : F, Fin (Flt.cos a) → Fin a
  /-- only finite numbers are converted to integers -/
  index : ∀ (a : F) (k : Int), Flt.trunc? (Flt.floor a) = some k → Fin a
  /-- a number of magnitude below another is finite -/
  below : ∀ a b : F, Flt.lt (fabs a) b = true → Fin a
  zero : Fin (lit 0 0 : F)

/-- Every component is finite. -/
def V3Fin {F : Type} [Flt F] [Special F] (v : V3 F) : Prop :=
  Special.Fin v.c0 ∧ Special.Fin v.c1 ∧ Special.Fin v.c2

end Ergodic
