import Verif.Base.Vec

/-!
# Model of `grid.hpp` / `grid.cpp`

`unsigned int` is `UInt32` (arithmetic modulo `2^32`, as in C++); `int8_t` is `Int8`;
`std::vector<int8_t>` is `List Int8`.  Warnings printed to `std::cout` are not modelled.
-/

namespace Ergodic
variable {F : Type} [Flt F]

/-- The fields of `nav_msgs/OccupancyGrid` the code reads (grid.cpp:63-94): `info.width`,
`info.height`, `info.resolution`, `info.origin.position.{x,y}`, `data`.
Simplification: `info.resolution` is `float32` in the message; the conversion to `double`
is exact, so it is a number of type `F` here. -/
structure OccupancyGrid (F : Type) where
  width : UInt32
  height : UInt32
  resolution : F
  originX : F
  originY : F
  data : List Int8

/-- `class GridMap` data members (grid.hpp:255-258). -/
structure GridMap (F : Type) where
  xsize : UInt32
  ysize : UInt32
  resolution : F
  xmin : F
  ymin : F
  xmax : F
  ymax : F
  data : List Int8

/-- `axis_length` (grid.hpp:61-64). -/
def axisLength (lower upper resolution : F) : Res UInt32 :=
  castU32 (Flt.round ((upper -. lower) /. resolution))

/-- `axis_upper` (grid.hpp:73-76). -/
def axisUpper (lower resolution : F) (size : UInt32) : F :=
  resolution *. Flt.ofInt size.toNat +. lower

namespace GridMap

/-- `GridMap::GridMap(xmin, xmax, ymin, ymax, resolution, grid_data)` (grid.cpp:46-61). -/
def ofLimits (xmin xmax ymin ymax resolution : F) (data : List Int8) : Res (GridMap F) := do
  let xsize ← axisLength xmin xmax resolution
  let ysize ← axisLength ymin ymax resolution
  if (xsize * ysize).toNat ≠ data.length then
    .throw .invalidArgument
  else
    .ok { xsize, ysize, resolution, xmin, ymin, xmax, ymax, data }

/-- the member assignments shared by the message constructor (grid.cpp:64-71) and
`update` (grid.cpp:86-93) -/
def assign (msg : OccupancyGrid F) : GridMap F :=
  { xsize := msg.width
    ysize := msg.height
    resolution := msg.resolution
    xmin := msg.originX
    ymin := msg.originY
    xmax := axisUpper msg.originX msg.resolution msg.width
    ymax := axisUpper msg.originY msg.resolution msg.height
    data := msg.data }

/-- `GridMap::GridMap(const nav_msgs::OccupancyGrid::ConstPtr&)` (grid.cpp:63-77). -/
def ofMsg (msg : OccupancyGrid F) : Res (GridMap F) :=
  let g := assign msg
  if (g.xsize * g.ysize).toNat ≠ g.data.length then .throw .invalidArgument else .ok g

/-- `GridMap::GridMap()` (grid.cpp:79-82): the empty grid. -/
def empty : GridMap F :=
  { xsize := 0, ysize := 0, resolution := lit 0 0, xmin := lit 0 0, ymin := lit 0 0,
    xmax := lit 0 0, ymax := lit 0 0, data := [] }

/-- `GridMap::update` (grid.cpp:84-94): every member is overwritten from the message;
the data size is not checked. -/
def update (_g : GridMap F) (msg : OccupancyGrid F) : GridMap F := assign msg

/-- `GridMap::gridBounds(i, j)` (grid.cpp:96-100), unsigned arithmetic. -/
def gridBounds (g : GridMap F) (i j : UInt32) : Bool :=
  decide (i ≤ g.ysize - 1) && decide (j ≤ g.xsize - 1)

/-- `GridMap::gridBounds(idx)` (grid.cpp:102-107), unsigned arithmetic. -/
def gridBoundsIdx (g : GridMap F) (idx : UInt32) : Bool :=
  decide (idx ≤ g.xsize * g.ysize - 1)

/-- `GridMap::grid2RowMajor` (grid.cpp:109-117); out of bounds only prints a warning. -/
def grid2RowMajor (g : GridMap F) (i j : UInt32) : UInt32 := i * g.xsize + j

/-- `GridMap::rowMajor2Grid` (grid.cpp:119-124); integer division by zero is undefined. -/
def rowMajor2Grid (g : GridMap F) (idx : UInt32) : Res (UInt32 × UInt32) :=
  if g.xsize = 0 then .ub
  else
    let i := idx / g.xsize
    let j := idx - i * g.xsize
    .ok (i, j)

/-- `GridMap::grid2World(i, j)` (grid.cpp:126-131). -/
def grid2World (g : GridMap F) (i j : UInt32) : V2 F :=
  ⟨Flt.ofInt j.toNat *. g.resolution +. g.resolution /. lit 2 0 +. g.xmin,
   Flt.ofInt i.toNat *. g.resolution +. g.resolution /. lit 2 0 +. g.ymin⟩

/-- `GridMap::grid2World(idx)` (grid.cpp:133-141). -/
def grid2WorldIdx (g : GridMap F) (idx : UInt32) : Res (V2 F) := do
  let ij ← g.rowMajor2Grid idx
  .ok ⟨Flt.ofInt ij.2.toNat *. g.resolution +. g.resolution /. lit 2 0 +. g.xmin,
       Flt.ofInt ij.1.toNat *. g.resolution +. g.resolution /. lit 2 0 +. g.ymin⟩

/-- `GridMap::world2Grid` (grid.cpp:143-159), returning `(i, j)`. -/
def world2Grid (g : GridMap F) (x y : F) : Res (UInt32 × UInt32) := do
  let j ← castU32 (Flt.floor ((x -. g.xmin) /. g.resolution))
  let i ← castU32 (Flt.floor ((y -. g.ymin) /. g.resolution))
  let j' := if j = g.xsize then j - 1 else j
  let i' := if i = g.ysize then i - 1 else i
  .ok (i', j')

/-- `GridMap::world2RowMajor` (grid.cpp:161-165). -/
def world2RowMajor (g : GridMap F) (x y : F) : Res UInt32 := do
  let ij ← g.world2Grid x y
  .ok (g.grid2RowMajor ij.1 ij.2)

/-- `GridMap::getCell(idx)` (grid.cpp:177-184): explicit bounds check, then
`std::vector::at`. -/
def getCellIdx (g : GridMap F) (idx : UInt32) : Res F :=
  if ¬ g.gridBoundsIdx idx then .throw .invalidArgument
  else
    match g.data[idx.toNat]? with
    | some v => .ok (Flt.ofInt v.toInt /. lit 100 0)
    | none => .throw .outOfRange

/-- `GridMap::getCell(i, j)` (grid.cpp:172-175). -/
def getCell (g : GridMap F) (i j : UInt32) : Res F := g.getCellIdx (g.grid2RowMajor i j)

/-- `GridMap::getCell(x, y)` (grid.cpp:167-170). -/
def getCellXY (g : GridMap F) (x y : F) : Res F := do
  let idx ← g.world2RowMajor x y
  g.getCellIdx idx

/-- `GridMap::size` (grid.hpp:250-253). -/
def size (g : GridMap F) : UInt32 := g.xsize * g.ysize

end GridMap
end Ergodic
