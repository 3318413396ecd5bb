import Mathlib.Data.Real.Basic

/-!
# Mirror images in the edges of an interval

Independent of the model.  Two coordinates are images of each other when one is carried to the other
by reflections in the edges `0` and `L` of the interval.
-/

namespace Ergodic

/-- `x` and `y` differ by a multiple of `2 L`, possibly after a change of sign. -/
def Image (L x y : ℝ) : Prop := ∃ m : ℤ, x = 2 * m * L + y ∨ x = 2 * m * L - y

/-- images under an even number of reflections -/
def Shifted (L x y : ℝ) : Prop := ∃ m : ℤ, x = 2 * m * L + y

/-- images under an odd number of reflections -/
def Mirrored (L x y : ℝ) : Prop := ∃ m : ℤ, x = 2 * m * L - y

end Ergodic
