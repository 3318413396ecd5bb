import Verif.Model.Grid

/-!
# Specification vocabulary for grid maps

Stated in natural numbers and in the plane, independently of how the code computes.
-/

namespace Ergodic
variable {F : Type}

/-- Row `i`, column `j` exist in the map. -/
def IsCell (g : GridMap F) (i j : UInt32) : Prop := i.toNat < g.ysize.toNat ∧ j.toNat < g.xsize.toNat

instance (g : GridMap F) (i j : UInt32) : Decidable (IsCell g i j) :=
  inferInstanceAs (Decidable (_ ∧ _))

/-- The number of cells the map declares, as a natural number. -/
def numCells (g : GridMap F) : Nat := g.xsize.toNat * g.ysize.toNat

/-- The number of declared cells fits the index type. -/
def Fits (g : GridMap F) : Prop := numCells g < 2 ^ 32

instance (g : GridMap F) : Decidable (Fits g) := inferInstanceAs (Decidable (_ < _))

/-- A map that stores exactly the cells it declares, and whose indices fit `unsigned int`. -/
structure WellFormed (g : GridMap F) : Prop where
  fits : Fits g
  size : g.data.length = numCells g

/-- Number of cells a message declares. -/
def OccupancyGrid.numCells (m : OccupancyGrid F) : Nat := m.width.toNat * m.height.toNat

/-- A message that carries exactly the cells it declares. -/
def OccupancyGrid.WellFormed (m : OccupancyGrid F) : Prop :=
  m.numCells < 2 ^ 32 ∧ m.data.length = m.numCells

/-- The stored integer at row `i`, column `j`, read off the row-major data. -/
def cellAt (g : GridMap F) (i j : Nat) : Option Int8 := g.data[i * g.xsize.toNat + j]?

/-- The closed map rectangle over the reals: `xsize × ysize` squares of side `resolution`
with lower-left corner `(xmin, ymin)`. -/
def InRect (g : GridMap ℝ) (x y : ℝ) : Prop :=
  g.xmin ≤ x ∧ x ≤ g.xmin + g.xsize.toNat * g.resolution ∧
  g.ymin ≤ y ∧ y ≤ g.ymin + g.ysize.toNat * g.resolution

/-- The point lies in the closed square of cell `(i, j)`. -/
def InClosedCell (g : GridMap ℝ) (i j : UInt32) (x y : ℝ) : Prop :=
  g.xmin + j.toNat * g.resolution ≤ x ∧ x ≤ g.xmin + (j.toNat + 1) * g.resolution ∧
  g.ymin + i.toNat * g.resolution ≤ y ∧ y ≤ g.ymin + (i.toNat + 1) * g.resolution

/-- The point lies in the half-open square of cell `(i, j)` (lower edges included). -/
def InHalfOpenCell (g : GridMap ℝ) (i j : UInt32) (x y : ℝ) : Prop :=
  g.xmin + j.toNat * g.resolution ≤ x ∧ x < g.xmin + (j.toNat + 1) * g.resolution ∧
  g.ymin + i.toNat * g.resolution ≤ y ∧ y < g.ymin + (i.toNat + 1) * g.resolution

/-- Maps a program can obtain: the default map, a map accepted by a constructor (whose
declared cells fit the index type), or an update of such a map with a message satisfying
`P`. -/
inductive ReachableGrid {F : Type} [Flt F] (P : OccupancyGrid F → Prop) : GridMap F → Prop
  | default : ReachableGrid P GridMap.empty
  | limits {xmin xmax ymin ymax res data g} :
      GridMap.ofLimits xmin xmax ymin ymax res data = .ok g → Fits g → ReachableGrid P g
  | msg {m g} : GridMap.ofMsg m = .ok g → Fits g → ReachableGrid P g
  | update {g m} : ReachableGrid P g → P m → ReachableGrid P (g.update m)

end Ergodic
