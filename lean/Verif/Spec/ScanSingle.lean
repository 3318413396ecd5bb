import Verif.Spec.Mapping

/-!
# Specification vocabulary: single precision and the geometry of a beam
-/

namespace Ergodic

/-- A finite binary32 number. -/
def IsSingle (x : ℝ) : Prop :=
  ∃ m e : ℤ, |m| < 2 ^ 24 ∧ -149 ≤ e ∧ e ≤ 104 ∧ x = m * 2 ^ e

/-- Rounding to nearest in single precision (ties either way). -/
structure SingleRounding (rnd : ℝ → ℝ) : Prop where
  single : ∀ x, |x| < 2 ^ 127 → IsSingle (rnd x)
  nearest : ∀ x y, IsSingle y → |rnd x - x| ≤ |y - x|

/-- The sum of two `float`s; special values as for `double`s. -/
noncomputable def addSingle (rnd : ℝ → ℝ) (a b : Dbl) : Dbl :=
  match Dbl.add a b with
  | .fin x => .fin (rnd x)
  | x => x

/-- Where a beam of length `r` at angle `a` ends, for a robot at `(px, py)` with heading `pt` and a sensor at
`(sx, sy)` with direction `st` on the robot. -/
noncomputable def endPoint (px py pt sx sy st r a : ℝ) : ℝ × ℝ :=
  (px + (sx * Real.cos pt - sy * Real.sin pt) + r * Real.cos (pt + st + a),
   py + (sx * Real.sin pt + sy * Real.cos pt) + r * Real.sin (pt + st + a))

/-- A map of exact numbers with lower left corner `(ax, ay)` and cells of side `res`. -/
structure LaidOut (g : GridMap Dbl) (ax ay res : ℝ) : Prop where
  xmin : g.xmin = .fin ax
  ymin : g.ymin = .fin ay
  resolution : g.resolution = .fin res
  positive : 0 < res

/-- The point is farther than `δ` from all lines between cells. -/
def OffLines (ax ay res : ℝ) (p : ℝ × ℝ) (δ : ℝ) : Prop :=
  ∀ j : ℤ, δ < |p.1 - (ax + j * res)| ∧ δ < |p.2 - (ay + j * res)|

end Ergodic
