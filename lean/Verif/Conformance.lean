import Verif.Model.Node
import Verif.Model.Mapping

/-!
# Running the model on machine numbers

These are tests, not proofs, and no theorem depends on this file.  The model is instantiated with
Lean's `Float` (IEEE-754 double) and

* replays every assertion of the repository's unit tests in `/repo/test`;
* evaluates the witnesses of the refutations that are proved in exact arithmetic, to see that
  rounding does not rescue the code;
* runs both executables with the shipped parameters for a few iterations.

`#guard` fails the build when an expression does not evaluate to `true`.
-/

namespace Ergodic.Conformance
open Ergodic

/-- IEEE-754 doubles.  `trunc?` gives a number outside every integer type when the magnitude is
`2^62` or more. -/
instance instFltFloat : Flt Float where
  add a b := a + b
  sub a b := a - b
  mul a b := a * b
  div a b := a / b
  neg a := -a
  lt a b := a < b
  floor := Float.floor
  round := Float.round
  sqrt := Float.sqrt
  sin := Float.sin
  cos := Float.cos
  exp := Float.exp
  log := Float.log
  atan2 := Float.atan2
  pow := Float.pow
  lit m e := if m < 0 then -Float.ofScientific m.natAbs true e else Float.ofScientific m.natAbs true e
  ofInt := Float.ofInt
  pi := 3.14159265358979323846
  maxFin := 1.7976931348623157e308
  trunc? x :=
    if x.isNaN || x.isInf then none
    else if x.abs < 4611686018427387904.0 then some x.toInt64.toInt
    else if x < 0 then some (-2 ^ 62) else some (2 ^ 62)

/-- `ASSERT_NEAR` -/
def near (a b tol : Float) : Bool := (a - b).abs ≤ tol

/-- `ASSERT_DOUBLE_EQ` on numbers of magnitude at most one -/
def same (a b : Float) : Bool := near a b 1e-15

/-- the value of a call that returns, tested -/
def holds {α : Type} (r : Res α) (p : α → Bool) : Bool :=
  match r with
  | .ok a => p a
  | _ => false

/-- the call is undefined behaviour -/
def isUb {α : Type} : Res α → Bool
  | .ub => true
  | _ => false

/-- the call throws this exception -/
def throws {α : Type} (e : Err) : Res α → Bool
  | .throw e' => e == e'
  | _ => false

/-! ## test_grid.cpp -/

def grid1 : Res (GridMap Float) := GridMap.ofLimits 0.0 2.0 0.0 3.0 1.0 (List.replicate 6 0)
def grid2 : Res (GridMap Float) := GridMap.ofLimits (-0.5) 0.5 0.0 1.5 0.5 (List.replicate 6 0)
def grid3 : Res (GridMap Float) := GridMap.ofLimits (-0.5) 0.5 0.0 1.5 0.5 [0, 0, 0, 100, 90, 0]

#guard holds grid1 fun g => g.grid2RowMajor 2 1 == 5
#guard holds grid1 fun g => holds (g.rowMajor2Grid 5) fun p => p == (2, 1)
#guard holds grid1 fun g => g.gridBoundsIdx 5 && !g.gridBoundsIdx 6
#guard holds grid1 fun g => g.gridBounds 2 0 && !g.gridBounds 0 2
#guard holds grid2 fun g => same (g.grid2World 0 1).c0 0.25 && same (g.grid2World 0 1).c1 0.25
#guard holds grid2 fun g => holds (g.grid2WorldIdx 4) fun p => same p.c0 (-0.25) && same p.c1 1.25
#guard holds grid2 fun g => holds (g.world2Grid (-0.25) 1.25) fun p => p == (2, 0)
#guard holds grid2 fun g => holds (g.world2RowMajor 0.25 0.75) fun i => i == 3
#guard holds grid3 fun g => holds (g.getCellIdx 4) fun v => v == 0.9
#guard holds grid3 fun g => holds (g.getCellXY (-0.25) 1.25) fun v => v == 0.9
#guard holds grid3 fun g => holds (g.getCell 1 1) fun v => v == 1.0

/-! ## test_cart.cpp -/

def cart : Cart Float := ⟨0.033, 0.08⟩
def cartX : V3 Float := ⟨1.0, 2.0, 0.707⟩

#guard let d := cart.f cartX ⟨0.1, 0.2⟩
  near d.c0 0.003763 1e-6 && near d.c1 0.003215 1e-6 && near d.c2 0.020625 1e-6
#guard let a := cart.fdx cartX ⟨0.1, 0.2⟩; near a.r0.c2 (-0.003215) 1e-6 && near a.r1.c2 0.003763 1e-6
#guard let b := cart.fdu cartX
  near b.r0.c0 0.012545 1e-6 && near b.r0.c1 0.012545 1e-6 && near b.r1.c0 0.010717 1e-6 &&
  near b.r1.c1 0.010717 1e-6 && near b.r2.c0 (-0.20625) 1e-6 && near b.r2.c1 0.20625 1e-6
#guard let v := cart.wheels2Twist ⟨1.0, 1.0⟩; near v.c0 0.033 1e-6 && near v.c1 0 1e-6 && near v.c2 0 1e-6
#guard let v := cart.wheels2Twist ⟨-1.0, 1.0⟩; near v.c0 0 1e-6 && near v.c1 0 1e-6 && near v.c2 0.4125 1e-6
#guard let v := cart.wheels2Twist ⟨1.0, -1.0⟩; near v.c0 0 1e-6 && near v.c1 0 1e-6 && near v.c2 (-0.4125) 1e-6
#guard holds (SimpleCart.f cartX ⟨0.5, 0.0, 0.01⟩) fun d =>
  near d.c0 0.380156 1e-6 && near d.c1 0.324777 1e-6 && near d.c2 0.01 1e-6
#guard let a := SimpleCart.fdx cartX ⟨0.5, 0.0, 0.01⟩
  near a.r0.c2 (-0.324777) 1e-6 && near a.r1.c2 0.380156 1e-6
#guard let b := SimpleCart.fdu cartX; near b.r0.c0 0.760313 1e-6 && near b.r1.c0 0.649555 1e-6

/-! ## test_omni.cpp -/

def mecanum : Mecanum Float := ⟨0.1, 0.5, 0.5⟩
def wheels : V4 Float := ⟨0.5, 0.4, 0.6, 0.3⟩

#guard let d := mecanum.f cartX wheels
  near d.c0 0.040709 1e-6 && near d.c1 0.021626 1e-6 && near d.c2 0.005 1e-6
#guard let a := mecanum.fdx cartX wheels; near a.r0.c2 (-0.021626) 1e-6 && near a.r1.c2 0.040709 1e-6
#guard let b := mecanum.fdu cartX
  near b.r0.c0 0.035246 1e-6 && near b.r0.c1 0.002768 1e-6 && near b.r0.c2 0.035246 1e-6 &&
  near b.r0.c3 0.002768 1e-6 && near b.r1.c0 (-0.002768) 1e-6 && near b.r1.c1 0.035246 1e-6 &&
  near b.r1.c2 (-0.002768) 1e-6 && near b.r1.c3 0.035246 1e-6 && near b.r2.c0 (-0.025) 1e-6 &&
  near b.r2.c1 0.025 1e-6 && near b.r2.c2 0.025 1e-6 && near b.r2.c3 (-0.025) 1e-6

/-! ## test_integrator.cpp -/

#guard holds (RungeKutta.solve (0.1 : Float) (fun x u => .ok ((⟨0.1, 2.0⟩ : Cart Float).f x u)) ⟨0, 0, 0⟩
    (List.replicate 4 ⟨1.0, 1.0⟩) 0.4) fun xs =>
  xs.length == 4 && ((xs.zip [0.01, 0.02, 0.03, 0.04]).all fun p =>
    same p.1.c0 p.2 && same p.1.c1 0 && same p.1.c2 0)

def twist : V3 Float := ⟨1.0, 0.5, 0.5⟩

#guard let p := integrateTwist ⟨0, 0, 0⟩ twist 0.1
  near p.c0 0.0987 1e-4 && near p.c1 0.0525 1e-4 && near p.c2 0.05 1e-4

/-- the poses after `1, …, n` steps -/
def poses (n : Nat) : List (V3 Float) :=
  (List.range n).map fun i => (List.range (i + 1)).foldl (fun x _ => integrateTwist x twist 0.1) ⟨1, 0, 0⟩

#guard ((poses 5).zip [(1.0987, 0.0525, 0.05), (1.1947, 0.1098, 0.1), (1.2876, 0.1719, 0.15),
    (1.3774, 0.2385, 0.2), (1.4637, 0.3096, 0.25)]).all fun p =>
  near p.1.c0 p.2.1 1e-4 && near p.1.c1 p.2.2.1 1e-4 && near p.1.c2 p.2.2.2 1e-4

/-! ## Witnesses of the refutations -/

def demo : GridMap Float :=
  { xsize := 3, ysize := 2, resolution := 1, xmin := 0, ymin := 0, xmax := 3, ymax := 2
    data := [0, 100, 50, -1, 20, 30] }

/-- three cells in a row -/
def strip (v : Int8) : GridMap Float :=
  { xsize := 3, ysize := 1, resolution := 1, xmin := 0, ymin := 0, xmax := 3, ymax := 1
    data := [v, v, v] }

-- C02: an empty map reports every cell in bounds
#guard (GridMap.empty : GridMap Float).gridBounds 7 9
-- C03 and C11: a column past the edge reads the next row
#guard holds (demo.getCell 0 3) fun a => holds (demo.getCell 1 0) fun b => a == b
-- C09: past the right edge gets the last column, left of the left edge is undefined
#guard holds (demo.world2Grid 3.5 0.5) fun a => a == (0, 2)
#guard isUb (demo.world2RowMajor (-0.5) 0.5)
-- C17: the "inverse" is not one when rotation and translation are both present
#guard let m := (transform2dInv (transform2d 1 0 0 : M3 Float)).mul (transform2d 1 0 0)
  !near m.r0.c2 0 1e-6
-- C24: a threshold in percent is accepted, and then nothing is an obstacle
#guard holds (Collision.new (0.7 : Float) 1 0.2 80) fun c => c.occupied_threshold == 80
-- C26: an obstacle between two circles is not reported, 1.41 m from a robot that keeps 2 m
#guard holds ((⟨0, 3, 2, 0.8⟩ : Collision Float).collisionCheck
  { xsize := 3, ysize := 3, resolution := 1, xmin := 0, ymin := 0, xmax := 3, ymax := 3
    data := [0, 0, 0, 0, 0, 0, 0, 0, 100] } ⟨1.5, 1.5, 0⟩) fun b => !b

def mapper : OccupancyMapper Float :=
  OccupancyMapper.new ⟨⟨1, 0, 0⟩, ⟨0, 1, 0⟩, ⟨0, 0, 1⟩⟩

/-- `n` updates of the middle cell -/
def observe (log : Float) (n : Nat) (g : GridMap Float) : Res (GridMap Float) :=
  (List.range n).foldl (fun g _ => g.bind fun g => mapper.updateCell g 1 0 log) (.ok g)

-- C35: seven misses make a cell free for ever; the hits that follow change nothing
#guard holds (observe mapper.log_odds_free 6 (strip 50)) fun g => g.data != [50, 0, 50]
#guard holds (observe mapper.log_odds_free 7 (strip 50)) fun g => g.data == [50, 0, 50] &&
  holds (observe mapper.log_odds_occ 1000 g) fun g' => g'.data == [50, 0, 50]
-- C38: a scan over unknown cells is undefined, over cells at 50 % it is not
def scan1 : LaserScan Float :=
  { angle_min := 0, angle_increment := 1, range_min := 0.1, range_max := 10, ranges := [2] }
#guard isUb (mapper.updateMap (strip (-1)) scan1 ⟨0.5, 0.5, 0⟩)
#guard holds (mapper.updateMap (strip 50) scan1 ⟨0.5, 0.5, 0⟩) fun r => r.1 && r.2.data != [50, 50, 50]
-- C44: without targets the distribution is not a number
#guard ((⟨[]⟩ : Target Float).fill ⟨0, 0⟩ [⟨0, 0⟩]).all fun v => v.isNaN
-- C53: a constant derivative is overshot by 2197/5610168 and that is the reported error
#guard holds (RungeKutta45.step (fun _ (_ : V3 Float) => .ok ⟨1, 0, 0⟩) ⟨0, 0, 0⟩ ⟨0, 0, 0⟩ (1 : Float))
  fun p => p.1.c0 > 1.00039 && p.2 > 0.00039
-- C54: storage for three columns is written four times; the last time may pass the horizon
#guard throws .logicError ((⟨0.3, 0.3, 1, 100⟩ : RungeKutta45 Float).solve
  (fun _ (_ : V3 Float) => .ok ⟨0, 0, 0⟩) ⟨0, 0, 0⟩ [⟨0, 0, 0⟩] 1 1)
#guard holds ((⟨0.1, 10, 1, 100⟩ : RungeKutta45 Float).solve
  (fun _ (_ : V3 Float) => .ok ⟨0, 0, 0⟩) ⟨0, 0, 0⟩ [⟨0, 0, 0⟩] 1 1) fun r =>
    match r with
    | some l => l.any fun p => p.1 > 1
    | none => false

/-! ## The shipped configurations, end to end

`config/explore_omni.yaml` and `config/explore_cart.yaml`, with one target inside a map of
3 m × 3 m.  One iteration before the map arrives and three after, the robot staying where it is. -/

def shipped (weights : List Float) : Params Float :=
  { map_frame_id := "map", val_dt := 0.1, val_horizon := 0.5
    max_vel_x := 1, max_vel_y := 1, max_rot_vel := 2
    min_vel_x := -1, min_vel_y := -1, min_rot_vel := -2
    acc_lim_x := 2.5, acc_lim_y := 2.5, acc_lim_th := 1
    boundary_radius := 0.7, search_radius := 1, obstacle_threshold := 0.2, occupied_threshold := 0.8
    ec_dt := 0.1, ec_horizon := 5, target_resolution := 0.1, expl_weight := 1
    num_basis := 10, buffer_size := 1000000, batch_size := 100, control_weights := weights
    dwa_dt := 0.1, dwa_horizon := 2, acc_dt := 0.2, vx_samples := 3, vy_samples := 8, vth_samples := 5
    targets := [(⟨2.5, 2.5⟩, ⟨1.5, 1.5⟩)] }

/-- free everywhere, except for one column of cells when `wall` -/
def room (wall : Bool) : OccupancyGrid Float :=
  ⟨30, 30, 0.1, 0, 0, (List.range 900).map fun i => if wall && i % 30 == 25 then 100 else 0⟩

/-- the robot in the middle of the room, heading for the wall -/
def middle : TransformMsg Float := ⟨1.5, 1.5, 0, 0, 0, 1⟩

def history (wall : Bool) (n : Nat) : List (Event Float) :=
  .tick (some middle) [] :: .map (room wall) :: List.replicate n (.tick (some middle) [])

/-- the twists published -/
def twists : List (Out Float) → List (V3 Float)
  | [] => []
  | .twist t :: os => t :: twists os
  | _ :: os => twists os

def play (node : Res (Node Float × List (Out Float))) (wall : Bool) (n : Nat) : Res (List (V3 Float)) := do
  let n0 ← node
  let r ← n0.1.run (history wall n)
  .ok (twists r.2)

def inLimits (u : V3 Float) : Bool := u.c0.abs ≤ 1 && u.c1.abs ≤ 1 && u.c2.abs ≤ 2

#guard holds (play (Node.omni (shipped [1, 1, 0.5])) false 3) fun us =>
  us.length == 3 && us.all inLimits && us.any fun u => u.c0 != 0
#guard holds (play (Node.cart (shipped [1, 0.5])) false 3) fun us =>
  us.length == 3 && us.all inLimits && us.all fun u => u.c1 == 0
-- heading for the wall is not valid, so the dynamic window takes over and slides along it
#guard holds (play (Node.omni (shipped [1, 1, 0.5])) true 3) fun us =>
  us.length == 3 && us.all inLimits && us.all fun u => u.c0 == 0 && u.c1 != 0

end Ergodic.Conformance
