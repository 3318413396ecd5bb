import Verif.Spec.Grid
import Verif.Model.Collision

/-!
# Specification vocabulary for collision checking

Cells are addressed by integer row/column; offsets are measured from the robot cell.
-/

namespace Ergodic
variable {F : Type} [Flt F]

/-- The cell at row `i`, column `j` exists and its value is not below the threshold. -/
def Occupied (thr : F) (g : GridMap F) (i j : Int) : Prop :=
  0 ≤ i ∧ i < g.ysize.toNat ∧ 0 ≤ j ∧ j < g.xsize.toNat ∧
  ∃ v : Int8, cellAt g i.toNat j.toNat = some v ∧
    Flt.lt (Flt.ofInt v.toInt /. lit 100 0 : F) thr = false

/-- Digital circle of radius `r`: with `m` the larger and `n` the smaller of the absolute
coordinates, `m` is the integer nearest to `√(r² - n²)` (`m² - m < r² - n² ≤ m² + m`); a
diagonal cell is left out when it only just qualifies. -/
def OnRing (r dx dy : Int) : Prop :=
  max |dx| |dy| * max |dx| |dy| - max |dx| |dy| < r * r - min |dx| |dy| * min |dx| |dy| ∧
  r * r - min |dx| |dy| * min |dx| |dy| ≤ max |dx| |dy| * max |dx| |dy| + max |dx| |dy| ∧
  (|dx| = |dy| → r * r ≠ 2 * (dx * dx) - |dx| + 1)

instance (r dx dy : Int) : Decidable (OnRing r dx dy) :=
  inferInstanceAs (Decidable (_ ∧ _ ∧ (_ → _)))

/-- The map has a cell, the robot cell is not below the lower edges (it need not be a cell of the
map), and every number of the search stays inside the range of `int`: maps and robot cells of at
most `2^30` a side, radii of at most `2^15 - 1` cells. -/
structure InRange (g : GridMap F) (cfg : CollisionConfig) : Prop where
  cx0 : 0 ≤ cfg.cx
  cy0 : 0 ≤ cfg.cy
  cx1 : cfg.cx ≤ 2 ^ 30
  cy1 : cfg.cy ≤ 2 ^ 30
  x0 : 0 < g.xsize.toNat
  y0 : 0 < g.ysize.toNat
  xsize : g.xsize.toNat ≤ 2 ^ 30
  ysize : g.ysize.toNat ≤ 2 ^ 30
  r_max : cfg.r_max ≤ 32767

/-- A collision detector and a map as the nodes use them: a stored cell for every declared
one, at least one cell and at most `2^30` a side, a positive resolution, non-negative radii
of fewer than `2^15` cells, search radius at least the boundary radius. -/
structure Sensible (c : Collision ℝ) (g : GridMap ℝ) : Prop where
  wf : WellFormed g
  res : 0 < g.resolution
  x0 : g.xsize ≠ 0
  y0 : g.ysize ≠ 0
  xsize : g.xsize.toNat ≤ 2 ^ 30
  ysize : g.ysize.toNat ≤ 2 ^ 30
  bnd : 0 ≤ c.boundary_radius
  obs : 0 ≤ c.obstacle_threshold
  order : c.boundary_radius ≤ c.search_radius
  search : c.search_radius < 32768 * g.resolution
  col : c.boundary_radius + c.obstacle_threshold < 32768 * g.resolution

/-- The point is not below the lower edges of the map, nor more than `2^30` cells from them.  It may
be outside the map, to the right or above. -/
def NotBelow (g : GridMap ℝ) (x y : ℝ) : Prop :=
  g.xmin ≤ x ∧ x ≤ g.xmin + 2 ^ 30 * g.resolution ∧ g.ymin ≤ y ∧ y ≤ g.ymin + 2 ^ 30 * g.resolution

/-- Squared distance between the centres of the cells `(i, j)` and `(k, l)`. -/
noncomputable def centreDistSq (g : GridMap ℝ) (i j k l : Int) : ℝ :=
  ((i : ℝ) * g.resolution - k * g.resolution) ^ 2 + ((j : ℝ) * g.resolution - l * g.resolution) ^ 2

end Ergodic
