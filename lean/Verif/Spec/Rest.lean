import Verif.Spec.DynamicWindow
import Verif.Base.Rounded

/-!
# Specification vocabulary: a robot at rest
-/

namespace Ergodic
variable {M : Machine}

/-- a pose or twist of numbers no larger than `2^100` -/
def Moderate (p : V3 (RDbl M)) : Prop :=
  ∃ x y θ : ℝ, p = ⟨.fin x, .fin y, .fin θ⟩ ∧ |x| ≤ 2 ^ 100 ∧ |y| ≤ 2 ^ 100 ∧ |θ| ≤ 2 ^ 100

/-- What is needed for zero to be among `n` evenly spaced numbers from `-a` to `a`. -/
def ZeroSampled (a : ℝ) (n : Nat) : Prop := a = 0 ∨ (3 ≤ n ∧ Odd n)

end Ergodic
