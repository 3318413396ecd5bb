import Verif.Model.Exploration

/-!
# A collision check running while a map message arrives

`ros::AsyncSpinner` (exploration_cart_node.cpp:106, exploration_omni_node.cpp:108) delivers the
callbacks on a second thread and nothing locks `grid_`.  The writer is `Exploration::mapCallback`,
a sequence of nine assignments; the reader is one collision check, a sequence of calls of `GridMap`
members.  An execution says for every call of the reader what the map looks like at that moment.

Simplifications: an assignment and a call of a `GridMap` member are indivisible and everybody sees
the assignments in program order.  C++ promises neither (a data race is undefined behaviour), so the
executions here are only the harmless ones.
-/

namespace Ergodic
variable {F : Type} [Flt F]

/-- The assignments of `GridMap::update` in order (grid.cpp:86-93), then `map_received_ = true`
(exploration.hpp:173); the receiver is the map and the flag. -/
def store (msg : OccupancyGrid F) : Nat → GridMap F × Bool → GridMap F × Bool
  | 0, (g, b) => ({ g with xsize := msg.width }, b)
  | 1, (g, b) => ({ g with ysize := msg.height }, b)
  | 2, (g, b) => ({ g with resolution := msg.resolution }, b)
  | 3, (g, b) => ({ g with xmin := msg.originX }, b)
  | 4, (g, b) => ({ g with ymin := msg.originY }, b)
  | 5, (g, b) => ({ g with xmax := axisUpper g.xmin g.resolution g.xsize }, b)
  | 6, (g, b) => ({ g with ymax := axisUpper g.ymin g.resolution g.ysize }, b)
  | 7, (g, b) => ({ g with data := msg.data }, b)
  | 8, (g, _) => (g, true)
  | _ + 9, s => s

/-- The map and the flag after the first `k` assignments. -/
def stored (msg : OccupancyGrid F) (s : GridMap F × Bool) : Nat → GridMap F × Bool
  | 0 => s
  | k + 1 => store msg k (stored msg s k)

namespace Collision

/-- `Collision::checkCell` (collision.cpp:216-243) with `gridBounds` called on the map seen at
access `t` and `getCell` on the one seen at access `t + 1`. -/
def checkCellI (c : Collision F) (gs : Nat → GridMap F) (t : Nat) (cfg : CollisionConfig)
    (cj ci : UInt32) : Res (Bool × CollisionConfig) :=
  if (gs t).gridBounds ci cj then do
    let v ← (gs (t + 1)).getCell ci cj
    if ¬ Flt.lt v c.occupied_threshold then
      let sq := u2i ((i2u cfg.cx - cj) * (i2u cfg.cx - cj) + (i2u cfg.cy - ci) * (i2u cfg.cy - ci))
      let cfg' :=
        if sq < cfg.sqrd_obs ∨ cfg.sqrd_obs = -1 then
          { cfg with sqrd_obs := sq, dx := u2i (cj - i2u cfg.cx), dy := u2i (ci - i2u cfg.cy) }
        else cfg
      .ok (decide (sq ≤ cfg.r_col * cfg.r_col), cfg')
    else .ok (false, cfg)
  else .ok (false, cfg)

/-- The loop of `Collision::bresenhamCircle` (collision.cpp:172-211); every cell takes two accesses,
the last component counts them. -/
def circleLoopI (c : Collision F) (gs : Nat → GridMap F) :
    Nat → Int → Int → Int → CollisionConfig → Nat → Res (Bool × CollisionConfig × Nat)
  | 0, _, _, _, _, _ => .timeout
  | fuel + 1, x, y, err, cfg, t =>
    if x < 0 then do
      let (hit1, cfg1) ← checkCellI c gs t cfg (i2u (cfg.cx - x)) (i2u (cfg.cy + y))
      if hit1 then .ok (true, cfg1, t + 2) else do
      let (hit2, cfg2) ← checkCellI c gs (t + 2) cfg1 (i2u (cfg.cx - y)) (i2u (cfg.cy - x))
      if hit2 then .ok (true, cfg2, t + 4) else do
      let (hit3, cfg3) ← checkCellI c gs (t + 4) cfg2 (i2u (cfg.cx + x)) (i2u (cfg.cy - y))
      if hit3 then .ok (true, cfg3, t + 6) else do
      let (hit4, cfg4) ← checkCellI c gs (t + 6) cfg3 (i2u (cfg.cx + y)) (i2u (cfg.cy + x))
      if hit4 then .ok (true, cfg4, t + 8) else
      let r := err
      let (y', err') := if r ≤ y then (y + 1, err + (2 * (y + 1) + 1)) else (y, err)
      let (x', err'') := if r > x ∨ err' > y' then (x + 1, err' + (2 * (x + 1) + 1)) else (x, err')
      circleLoopI c gs fuel x' y' err'' cfg4 (t + 8)
    else .ok (false, cfg, t)

/-- The loop of `Collision::search` (collision.cpp:154-161). -/
def searchLoopI (c : Collision F) (gs : Nat → GridMap F) :
    Nat → Int → CollisionConfig → Nat → Res (Bool × CollisionConfig × Nat)
  | 0, _, _, _ => .timeout
  | fuel + 1, r, cfg, t =>
    if r ≤ cfg.r_max then do
      let (hit, cfg', t') ← circleLoopI c gs (2 * r.toNat + 2) (-r) 0 (2 - 2 * r) cfg t
      if hit then .ok (true, cfg', t') else searchLoopI c gs fuel (r + 1) cfg' t'
    else .ok (false, cfg, t)

/-- `Collision::collisionCheck` (collision.cpp:126-141): access 0 is `world2Grid`, accesses 1-3 are
`resolution()`, the rest belongs to the search. -/
def collisionCheckI (c : Collision F) (gs : Nat → GridMap F) (pose : V3 F) : Res Bool := do
  let psg ← (gs 0).world2Grid pose.c0 pose.c1
  let rb ← castI32 (Flt.floor (c.boundary_radius /. (gs 1).resolution))
  let rc ← castI32 (Flt.floor ((c.boundary_radius +. c.obstacle_threshold) /. (gs 2).resolution))
  let rm ← castI32 (Flt.floor (c.search_radius /. (gs 3).resolution))
  let cfg : CollisionConfig := { r_bnd := rb, r_col := rc, r_max := rm, cx := u2i psg.2, cy := u2i psg.1 }
  let r ← searchLoopI c gs ((cfg.r_max - cfg.r_bnd + 1).toNat + 1) cfg.r_bnd cfg 4
  .ok r.1

end Collision
end Ergodic
