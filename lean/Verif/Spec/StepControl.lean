import Mathlib.Data.Real.Basic

/-!
# What a step-size control is for

Independent of the model.  The estimated error of a step of length `h` of a method of order four
is `C h⁴` to leading order; a control aims at the length whose estimate is a given target.
-/

namespace Ergodic

/-- `h` is the length in `[lo, hi]` that comes closest to an estimated error `target` when the
estimate is `C h⁴`: inside the interval it meets the target, at the lower end the estimate may be
too large, at the upper end too small. -/
structure AimsAt (C target lo hi h : ℝ) : Prop where
  low : lo ≤ h
  high : h ≤ hi
  over : target < C * h ^ 4 → h = lo
  under : C * h ^ 4 < target → h = hi

end Ergodic
