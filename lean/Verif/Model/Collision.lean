import Verif.Model.Grid

/-!
# Model of `collision.hpp` / `collision.cpp`

`int` is `Int` (unbounded).  The C++ arithmetic agrees with it as long as no intermediate
value leaves the `int` range; `Verif/Props/Collision.lean` proves bounds on every
intermediate of the circle sweep.  The one place where the code mixes `int` with
`unsigned int` (`checkCell`) is modelled with the exact modulo-`2^32` conversions.
-/

namespace Ergodic
variable {F : Type} [Flt F]

/-- `enum class CollisionMsg` (collision.hpp:55-60). -/
inductive CollisionMsg where
  | crash
  | obstacle
  | none
  deriving DecidableEq, Repr

/-- `struct CollisionConfig` (collision.hpp:63-82). -/
structure CollisionConfig where
  r_bnd : Int
  r_col : Int
  r_max : Int
  cx : Int
  cy : Int
  dx : Int := 0
  dy : Int := 0
  sqrd_obs : Int := -1
  deriving DecidableEq, Repr

/-- `class Collision` data members (collision.hpp:160-163). -/
structure Collision (F : Type) where
  boundary_radius : F
  search_radius : F
  obstacle_threshold : F
  occupied_threshold : F

namespace Collision

/-- `Collision::Collision` (collision.cpp:46-63). -/
def new (boundary_radius search_radius obstacle_threshold occupied_threshold : F) :
    Res (Collision F) :=
  if Flt.lt search_radius boundary_radius then .throw .invalidArgument
  else if Flt.lt (lit 100 0) occupied_threshold || Flt.lt occupied_threshold (lit 0 0) then
    .throw .invalidArgument
  else .ok { boundary_radius, search_radius, obstacle_threshold, occupied_threshold }

/-- `Collision::checkCell` (collision.cpp:216-243).  `cj`, `ci` are `unsigned int`; the
differences `cfg.cx - cj` are computed in `unsigned int`. -/
def checkCell (c : Collision F) (g : GridMap F) (cfg : CollisionConfig) (cj ci : UInt32) :
    Res (Bool × CollisionConfig) :=
  if g.gridBounds ci cj then do
    let v ← g.getCell ci cj
    if ¬ Flt.lt v c.occupied_threshold then
      let sq := u2i ((i2u cfg.cx - cj) * (i2u cfg.cx - cj) + (i2u cfg.cy - ci) * (i2u cfg.cy - ci))
      let cfg' :=
        if sq < cfg.sqrd_obs ∨ cfg.sqrd_obs = -1 then
          { cfg with sqrd_obs := sq, dx := u2i (cj - i2u cfg.cx), dy := u2i (ci - i2u cfg.cy) }
        else cfg
      .ok (decide (sq ≤ cfg.r_col * cfg.r_col), cfg')
    else .ok (false, cfg)
  else .ok (false, cfg)

/-- The loop of `Collision::bresenhamCircle` (collision.cpp:172-211).  The C++ variable `r`
is reused as a copy of the old `err`. -/
def circleLoop (c : Collision F) (g : GridMap F) :
    Nat → Int → Int → Int → CollisionConfig → Res (Bool × CollisionConfig)
  | 0, _, _, _, _ => .timeout
  | fuel + 1, x, y, err, cfg =>
    if x < 0 then do
      -- Quadrant 1
      let (hit1, cfg1) ← checkCell c g cfg (i2u (cfg.cx - x)) (i2u (cfg.cy + y))
      if hit1 then .ok (true, cfg1) else do
      -- Quadrant 2
      let (hit2, cfg2) ← checkCell c g cfg1 (i2u (cfg.cx - y)) (i2u (cfg.cy - x))
      if hit2 then .ok (true, cfg2) else do
      -- Quadrant 3
      let (hit3, cfg3) ← checkCell c g cfg2 (i2u (cfg.cx + x)) (i2u (cfg.cy - y))
      if hit3 then .ok (true, cfg3) else do
      -- Quadrant 4
      let (hit4, cfg4) ← checkCell c g cfg3 (i2u (cfg.cx + y)) (i2u (cfg.cy + x))
      if hit4 then .ok (true, cfg4) else
      let r := err
      let (y', err') := if r ≤ y then (y + 1, err + (2 * (y + 1) + 1)) else (y, err)
      let (x', err'') := if r > x ∨ err' > y' then (x + 1, err' + (2 * (x + 1) + 1)) else (x, err')
      circleLoop c g fuel x' y' err'' cfg4
    else .ok (false, cfg)

/-- `Collision::bresenhamCircle` (collision.cpp:166-214); `2 * r + 2` loop tests suffice
(proved). -/
def bresenhamCircle (c : Collision F) (g : GridMap F) (cfg : CollisionConfig) (r : Int) :
    Res (Bool × CollisionConfig) :=
  circleLoop c g (2 * r.toNat + 2) (-r) 0 (2 - 2 * r) cfg

/-- The loop of `Collision::search` (collision.cpp:154-161). -/
def searchLoop (c : Collision F) (g : GridMap F) :
    Nat → Int → CollisionConfig → Res (Bool × CollisionConfig)
  | 0, _, _ => .timeout
  | fuel + 1, r, cfg =>
    if r ≤ cfg.r_max then do
      let (hit, cfg') ← bresenhamCircle c g cfg r
      if hit then .ok (true, cfg') else searchLoop c g fuel (r + 1) cfg'
    else .ok (false, cfg)

/-- `Collision::search` (collision.cpp:148-164). -/
def search (c : Collision F) (g : GridMap F) (cfg : CollisionConfig) :
    Res (Bool × CollisionConfig) :=
  searchLoop c g ((cfg.r_max - cfg.r_bnd + 1).toNat + 1) cfg.r_bnd cfg

/-- The `CollisionConfig` built by each query (collision.cpp:68-73, 98-103, 128-133):
floors are converted from `double` to `int`, the cell indices from `unsigned` to `int`. -/
def config (c : Collision F) (g : GridMap F) (pose : V3 F) : Res CollisionConfig := do
  let psg ← g.world2Grid pose.c0 pose.c1
  let rb ← castI32 (Flt.floor (c.boundary_radius /. g.resolution))
  let rc ← castI32 (Flt.floor ((c.boundary_radius +. c.obstacle_threshold) /. g.resolution))
  let rm ← castI32 (Flt.floor (c.search_radius /. g.resolution))
  .ok { r_bnd := rb, r_col := rc, r_max := rm, cx := u2i psg.2, cy := u2i psg.1 }

/-- `Collision::minDistance` (collision.cpp:65-93). -/
def minDistance (c : Collision F) (g : GridMap F) (pose : V3 F) :
    Res (CollisionMsg × F) := do
  let cfg ← c.config g pose
  let (hit, cfg') ← search c g cfg
  if hit then .ok (.crash, lit 0 0)
  else if cfg'.sqrd_obs ≠ -1 then
    .ok (.obstacle,
      Flt.sqrt (Flt.ofInt cfg'.sqrd_obs) *. g.resolution -. c.boundary_radius)
  else .ok (.none, Flt.maxFin)

/-- `Collision::minDirection` (collision.cpp:95-124): `search` is called twice on the
same configuration. -/
def minDirection (c : Collision F) (g : GridMap F) (pose : V3 F) :
    Res (CollisionMsg × V2 F) := do
  let cfg ← c.config g pose
  let (_, cfg1) ← search c g cfg
  let (hit, cfg2) ← search c g cfg1
  if hit then .ok (.crash, ⟨lit 0 0, lit 0 0⟩)
  else if cfg2.sqrd_obs ≠ -1 then
    .ok (.obstacle, ⟨g.resolution *. Flt.ofInt cfg2.dx, g.resolution *. Flt.ofInt cfg2.dy⟩)
  else .ok (.none, ⟨Flt.maxFin, Flt.maxFin⟩)

/-- `Collision::collisionCheck` (collision.cpp:126-141). -/
def collisionCheck (c : Collision F) (g : GridMap F) (pose : V3 F) : Res Bool := do
  let cfg ← c.config g pose
  let (hit, _) ← search c g cfg
  .ok hit

/-- `Collision::totalPadding` (collision.cpp:143-146). -/
def totalPadding (c : Collision F) : F := c.boundary_radius +. c.obstacle_threshold

end Collision
end Ergodic
