import Verif.Spec.Collision

/-!
# Obstacles between the circles of the search
-/

namespace Ergodic

/-- Squared distance, in cells, from the robot cell of a search to the cell in row `i`, column `j`. -/
def sqCells (cfg : CollisionConfig) (i j : Int) : Int :=
  (j - cfg.cx) * (j - cfg.cx) + (i - cfg.cy) * (i - cfg.cy)

/-- The robot cells are the same or touch, be it at a corner. -/
def Touching (a b : CollisionConfig) : Prop := |a.cx - b.cx| ≤ 1 ∧ |a.cy - b.cy| ≤ 1

/-- Distance from the point `(x, y)` to the centre of the cell in row `i`, column `j`. -/
noncomputable def centreDist (g : GridMap ℝ) (i j : Int) (x y : ℝ) : ℝ :=
  √((g.xmin + (j + 1 / 2) * g.resolution - x) ^ 2 + (g.ymin + (i + 1 / 2) * g.resolution - y) ^ 2)

end Ergodic
