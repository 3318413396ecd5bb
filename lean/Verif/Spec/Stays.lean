import Verif.Spec.ClosedLoop
import Verif.Spec.Collision
import Verif.Props.Speed

/-!
# Specification vocabulary: an obstacle that stays on the maps
-/

namespace Ergodic

/-- The map has cells of side `ρ` and shows the one centred at `(ox, oy)` occupied. -/
structure ShowsAt (thr ρ ox oy : ℝ) (m : OccupancyGrid ℝ) : Prop where
  resolution : m.resolution = ρ
  cell : ∃ i j : Int, Occupied thr (mapOf m) i j ∧ m.originX + (j + 1 / 2) * ρ = ox ∧
    m.originY + (i + 1 / 2) * ρ = oy

/-- The position is inside the map, more than `D` from its right and upper edges and no less than `D` from
the others. -/
structure InsideBy (m : OccupancyGrid ℝ) (D : ℝ) (x : V3 ℝ) : Prop where
  left : m.originX + D ≤ x.c0
  right : x.c0 + D < m.originX + m.width.toNat * m.resolution
  below : m.originY + D ≤ x.c1
  above : x.c1 + D < m.originY + m.height.toNat * m.resolution

end Ergodic
