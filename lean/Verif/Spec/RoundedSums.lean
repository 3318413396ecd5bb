import Verif.Base.Rounded
import Verif.Spec.Basis

/-!
# Specification vocabulary for sums with rounding
-/

namespace Ergodic

/-- The real number a finite rounded number stands for. -/
noncomputable def RDbl.val {M : Machine} (x : RDbl M) : ℝ :=
  match (x : Dbl) with
  | .fin r => r
  | _ => 0

/-- sum of the absolute values -/
noncomputable def absSum (l : List ℝ) : ℝ := (l.map fun x => |x|).sum

/-- A rectangle with finite sides, and a point whose distance from its lower edges is at most `c`
times its size.  (A kilometre is less than `2^10` metres, the visible universe less than `2^90`.) -/
structure InScale {M : Machine} (lx ly : RDbl M) (c : ℝ) (x y : RDbl M) : Prop where
  lx_num : lx = .fin lx.val
  ly_num : ly = .fin ly.val
  x_num : x = .fin x.val
  y_num : y = .fin y.val
  lx_pos : 0 < lx.val
  lx_le : lx.val ≤ 2 ^ 100
  ly_pos : 0 < ly.val
  ly_le : ly.val ≤ 2 ^ 100
  x_le : |x.val| ≤ c * lx.val
  y_le : |y.val| ≤ c * ly.val

/-- The allowance for a basis function with frequency `(k1, k2)` at a point whose distance from the
lower edges is at most `c` times the size of the map. -/
noncomputable def basisError (k1 k2 : ℕ) (c : ℝ) : ℝ := (k1 + k2) * c / 2 ^ 47 + 3 / 2 ^ 52

/-- The allowance for a partial derivative of a basis function. -/
noncomputable def slopeError (k k' : ℕ) (L c : ℝ) : ℝ := k * (1 / L) * ((1 + 2 * (k + k') * c) / 2 ^ 46)

end Ergodic
