import Verif.Base.Rounded
import Verif.Spec.Grid

/-!
# Specification vocabulary for rounded arithmetic
-/

namespace Ergodic

/-- The smallest normal number, `2^-1022` (`DBL_MIN`). -/
noncomputable def minNormal : ℝ := 2 ^ 53 * tiny

/-- The map has its lower-left corner at `(a, b)` and cells of side `r`, all finite numbers. -/
structure Placed {M : Machine} (g : GridMap (RDbl M)) (a b r : ℝ) : Prop where
  xmin : g.xmin = .fin a
  ymin : g.ymin = .fin b
  resolution : g.resolution = .fin r
  positive : 0 < r

/-- An axis of `n` cells of side `r` from `a`, none further than `2^44` cells from the origin.
(A cell of 1 mm may be seventeen million kilometres away.) -/
structure NearOrigin (a r : ℝ) (n : ℕ) : Prop where
  normal : minNormal ≤ r
  near : |a| + n * r ≤ 2 ^ 44 * r

end Ergodic
