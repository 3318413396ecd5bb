import Verif.Model.Numerics

/-!
# Model of `mapping.hpp` / `mapping.cpp`

`int` is `Int` (unbounded), see `Verif/Model/Collision.lean`.  Simplification: the scan's
`float32` fields (`ranges`, `angle_min`, `angle_increment`, `range_min`, `range_max`, and
the running `beam_angle`) are numbers of the same type `F` as the doubles.
-/

namespace Ergodic
variable {F : Type} [Flt F]

/-- The fields of `sensor_msgs/LaserScan` the code reads (mapping.cpp:91-124). -/
structure LaserScan (F : Type) where
  angle_min : F
  angle_increment : F
  range_min : F
  range_max : F
  ranges : List F

/-- `logOdds2Prob` (mapping.cpp:51-54). -/
def logOdds2Prob (l : F) : F := lit 1 0 -. lit 1 0 /. (lit 1 0 +. Flt.exp l)

/-- `prob2LogOdds` (mapping.cpp:61-64). -/
def prob2LogOdds (p : F) : F := Flt.log (p /. (lit 1 0 -. p))

/-- `class OccupancyMapper` data members (mapping.hpp:128-132). -/
structure OccupancyMapper (F : Type) where
  Tbs : M3 F
  log_odds_prior : F
  log_odds_occ : F
  log_odds_free : F

namespace OccupancyMapper

/-- `OccupancyMapper::OccupancyMapper` (mapping.cpp:66-75). -/
def new (Tbs : M3 F) : OccupancyMapper F :=
  { Tbs
    log_odds_prior := prob2LogOdds (lit 5 1)
    log_odds_occ := prob2LogOdds (lit 90 2)
    log_odds_free := prob2LogOdds (lit 35 2) }

/-- `OccupancyMapper::updateCell` (mapping.cpp:341-348); the `int` coordinates are
converted to `unsigned int` by the call of `grid2RowMajor`. -/
def updateCell (m : OccupancyMapper F) (g : GridMap F) (x y : Int) (log : F) :
    Res (GridMap F) := do
  let idx := g.grid2RowMajor (i2u y) (i2u x)
  let p ← g.getCellIdx idx
  let log_odds := prob2LogOdds p +. log -. m.log_odds_prior
  let v ← castI8 (logOdds2Prob log_odds *. lit 100 0)
  if idx.toNat < g.data.length then .ok { g with data := g.data.set idx.toNat v }
  else .throw .outOfRange

/-- The loops `for (y = y0; …; y--)` and `for (y = y0; …; y++)` of mapping.cpp:143-155
(`s` is the increment, `n` the number of iterations left). -/
def vertLoop (m : OccupancyMapper F) (x0 s : Int) : Nat → Int → GridMap F → Res (GridMap F)
  | 0, _, g => .ok g
  | n + 1, y, g => do
    let g ← m.updateCell g x0 y m.log_odds_free
    vertLoop m x0 s n (y + s) g

/-- The loops `for (x = x0; …; x--)` and `for (x = x0; …; x++)` of mapping.cpp:168-180. -/
def horzLoop (m : OccupancyMapper F) (y0 s : Int) : Nat → Int → GridMap F → Res (GridMap F)
  | 0, _, g => .ok g
  | n + 1, x, g => do
    let g ← m.updateCell g x y0 m.log_odds_free
    horzLoop m y0 s n (x + s) g

/-- The loop of `lineLow` (mapping.cpp:263-280): `n` iterations left; state `x, y, D, ctr`. -/
def lineLowLoop (m : OccupancyMapper F) (dx dy yi : Int) :
    Nat → Int → Int → Int → Int → GridMap F → Res (GridMap F)
  | 0, _, _, _, _, g => .ok g
  | n + 1, x, y, D, ctr, g => do
    let g ← if ctr ≠ 0 then m.updateCell g x y m.log_odds_free else .ok g
    let y' := if D > 0 then y + yi else y
    let D' := if D > 0 then D - 2 * dx else D
    lineLowLoop m dx dy yi n (x + 1) y' (D' + 2 * dy) (ctr + 1) g

/-- `OccupancyMapper::lineLow` (mapping.cpp:245-281); the `for` loop runs
`max(0, x1 - x0)` times. -/
def lineLow (m : OccupancyMapper F) (g : GridMap F) (x0 y0 x1 y1 : Int) : Res (GridMap F) :=
  let dx := x1 - x0
  let dy0 := y1 - y0
  let yi : Int := if dy0 < 0 then -1 else 1
  let dy := if dy0 < 0 then -dy0 else dy0
  lineLowLoop m dx dy yi (x1 - x0).toNat x0 y0 (2 * dy - dx) 0 g

/-- The loop of `lineHigh` (mapping.cpp:301-318). -/
def lineHighLoop (m : OccupancyMapper F) (dx dy xi : Int) :
    Nat → Int → Int → Int → Int → GridMap F → Res (GridMap F)
  | 0, _, _, _, _, g => .ok g
  | n + 1, x, y, D, ctr, g => do
    let g ← if ctr ≠ 0 then m.updateCell g x y m.log_odds_free else .ok g
    let x' := if D > 0 then x + xi else x
    let D' := if D > 0 then D - 2 * dy else D
    lineHighLoop m dx dy xi n x' (y + 1) (D' + 2 * dx) (ctr + 1) g

/-- `OccupancyMapper::lineHigh` (mapping.cpp:283-319). -/
def lineHigh (m : OccupancyMapper F) (g : GridMap F) (x0 y0 x1 y1 : Int) : Res (GridMap F) :=
  let dx0 := x1 - x0
  let dy := y1 - y0
  let xi : Int := if dx0 < 0 then -1 else 1
  let dx := if dx0 < 0 then -dx0 else dx0
  lineHighLoop m dx dy xi (y1 - y0).toNat x0 y0 (2 * dx - dy) 0 g

/-- The loop of `lineDiag` (mapping.cpp:332-338). -/
def lineDiagLoop (m : OccupancyMapper F) (xi yi x1 y1 : Int) :
    Nat → Int → Int → GridMap F → Res (GridMap F)
  | 0, _, _, _ => .timeout
  | fuel + 1, x, y, g =>
    if x ≠ x1 ∧ y ≠ y1 then do
      let g ← m.updateCell g x y m.log_odds_free
      lineDiagLoop m xi yi x1 y1 fuel (x + xi) (y + yi) g
    else .ok g

/-- `OccupancyMapper::lineDiag` (mapping.cpp:321-339). -/
def lineDiag (m : OccupancyMapper F) (g : GridMap F) (x0 y0 x1 y1 : Int) : Res (GridMap F) :=
  let dx := x1 - x0
  let dy := y1 - y0
  let xi : Int := if dx < 0 then -1 else 1
  let yi : Int := if dy < 0 then -1 else 1
  lineDiagLoop m xi yi x1 y1 (dx.natAbs + 1) x0 y0 g

/-- `OccupancyMapper::rayTrace` (mapping.cpp:130-243). -/
def rayTrace (m : OccupancyMapper F) (g : GridMap F) (x0 y0 x1 y1 : Int) :
    Res (GridMap F) :=
  let dx := x1 - x0
  let dy := y1 - y0
  if dx = 0 then
    if dy < 0 then vertLoop m x0 (-1) (y0 - y1).toNat y0 g
    else vertLoop m x0 1 (y1 - y0).toNat y0 g
  else if dy = 0 then
    if dx < 0 then horzLoop m y0 (-1) (x0 - x1).toNat x0 g
    else horzLoop m y0 1 (x1 - x0).toNat x0 g
  else if dy.natAbs < dx.natAbs then
    if x0 > x1 then do
      let g ← m.updateCell g x0 y0 m.log_odds_free
      m.lineLow g x1 y1 x0 y0
    else do
      let g ← m.updateCell g x0 y0 m.log_odds_free
      m.lineLow g x0 y0 x1 y1
  else if dy.natAbs > dx.natAbs then
    if y0 > y1 then do
      let g ← m.updateCell g x0 y0 m.log_odds_free
      m.lineHigh g x1 y1 x0 y0
    else do
      let g ← m.updateCell g x0 y0 m.log_odds_free
      m.lineHigh g x0 y0 x1 y1
  else if dy.natAbs = dx.natAbs then m.lineDiag g x0 y0 x1 y1
  else .throw .invalidArgument

/-- One iteration of the beam loop (mapping.cpp:99-124) without the `beam_angle`
increment, which both paths perform. -/
def beam (m : OccupancyMapper F) (scan : LaserScan F) (Tms : M3 F) (psg : UInt32 × UInt32)
    (beam_angle range : F) (g : GridMap F) : Res (GridMap F) :=
  if Flt.lt scan.range_max range || Flt.lt range scan.range_min then .ok g
  else do
    let pt := Tms.mulVec (polar2CartesianHomo beam_angle range)
    let ptg ← g.world2Grid pt.c0 pt.c1
    if g.gridBounds ptg.1 ptg.2 then do
      let g ← m.rayTrace g (u2i psg.2) (u2i psg.1) (u2i ptg.2) (u2i ptg.1)
      m.updateCell g (u2i ptg.2) (u2i ptg.1) m.log_odds_occ
    else .ok g

/-- The beam loop (mapping.cpp:97-125) over the ranges left. -/
def beamLoop (m : OccupancyMapper F) (scan : LaserScan F) (Tms : M3 F)
    (psg : UInt32 × UInt32) : List F → F → GridMap F → Res (GridMap F)
  | [], _, g => .ok g
  | r :: rs, a, g => do
    let g ← m.beam scan Tms psg a r g
    beamLoop m scan Tms psg rs (a +. scan.angle_increment) g

/-- `OccupancyMapper::updateMap` (mapping.cpp:77-128): the returned flag and the map. -/
def updateMap (m : OccupancyMapper F) (g : GridMap F) (scan : LaserScan F) (pose : V3 F) :
    Res (Bool × GridMap F) := do
  let psg ← g.world2Grid pose.c0 pose.c1
  if ¬ g.gridBounds psg.1 psg.2 then .ok (false, g)
  else do
    let Tms := (transform2d pose.c0 pose.c1 pose.c2).mul m.Tbs
    let g ← m.beamLoop scan Tms psg scan.ranges scan.angle_min g
    .ok (true, g)

end OccupancyMapper
end Ergodic
