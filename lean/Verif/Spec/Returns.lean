import Verif.Spec.Failure
import Verif.Spec.Collision

/-!
# Specification vocabulary: what an iteration needs in order to return

Besides the conversions of `Verif.Spec.Failure` these are the conditions under which nothing is thrown: the map has a cell
for every index looked up, the grid of samples of the target is no larger than `unsigned int` counts, the random integers
are positions in the memory, and every column of the reference asked for is there.
-/

namespace Ergodic
variable {F : Type} [Flt F]

/-- A collision query on the map `g` at the pose `p` that can be answered: as many data as cells, at least one cell and at
most `2^30` a side, and the five conversions in range. -/
structure QueryServed (c : Collision F) (g : GridMap F) (p : V3 F) : Prop where
  stored : WellFormed g
  width : 0 < g.xsize.toNat ∧ g.xsize.toNat ≤ 2 ^ 30
  height : 0 < g.ysize.toNat ∧ g.ysize.toNat ≤ 2 ^ 30
  column : InRange32 (Flt.floor ((p.c0 -. g.xmin) /. g.resolution)) 0 (2 ^ 30 + 1)
  row : InRange32 (Flt.floor ((p.c1 -. g.ymin) /. g.resolution)) 0 (2 ^ 30 + 1)
  boundary : InRange32 (Flt.floor (c.boundary_radius /. g.resolution)) (-32768) 32768
  collision : InRange32 (Flt.floor ((c.boundary_radius +. c.obstacle_threshold) /. g.resolution)) (-32768) 32768
  search : InRange32 (Flt.floor (c.search_radius /. g.resolution)) (-32768) 32768

/-- Every query made while driving the twist `u` for up to `n` steps from `x` can be answered: up to the first
collision. -/
def DriveServed (c : Collision F) (g : GridMap F) (u : V3 F) (dt : F) (x : V3 F) (n : Nat) : Prop :=
  ∀ k < n, (∀ l < k, c.collisionCheck g (poseAfter u dt x (l + 1)) = .ok false) →
    QueryServed c g (poseAfter u dt x (k + 1))

/-- The map has the size the controller is set up for, or the samples of the target can be counted. -/
def TargetServed (s : Expl F) : Prop :=
  let w := s.grid.xmax -. s.grid.xmin
  let h := s.grid.ymax -. s.grid.ymin
  (almostEqual w s.ec.basis.lx = true ∧ almostEqual h s.ec.basis.ly = true) ∨
    ∃ m n : Nat, Flt.trunc? (Flt.round ((w -. lit 0 0) /. s.ec.resolution)) = some (m : Int) ∧
      Flt.trunc? (Flt.round ((h -. lit 0 0) /. s.ec.resolution)) = some (n : Int) ∧ (m + 1) * (n + 1) < 4294967296

/-- As many random integers as asked for, each a position in the memory. -/
def DrawsServed (s : Expl F) (draws : List Nat) : Prop :=
  draws.length = s.ec.buffer.batch_size ∧ ∀ r ∈ draws, r < s.ec.buffer.memory.length

/-- What the check of the twist and the search for another one need, in the state before it. -/
structure AvoidServed (s : Expl F) : Prop where
  ahead : ∀ n, Flt.trunc? (fabs (s.val_horizon /. s.val_dt)) = some n →
    DriveServed s.collision s.grid s.u s.val_dt s.pose n.toNat
  window : validateControl s.collision s.grid s.pose s.u s.val_dt s.val_horizon = .ok false →
    ∀ u, IsSample s.dwa s.vb u → DriveServed s.dwa.collision s.grid u s.dwa.dt s.pose s.dwa.steps.toNat
  columns : validateControl s.collision s.grid s.pose s.u s.val_dt s.val_horizon = .ok false →
    s.follow_dwa = false → ∀ n, Flt.trunc? (fabs (s.ec.horizon /. s.ec.dt)) = some n → ∀ k < s.dwa.steps.toNat,
      InRange32 (Flt.round (Flt.ofInt (DynamicWindow.lastCol n.toNat) *. stride (lit 0 0) s.dwa.dt k /.
        (Flt.ofInt n.toNat *. s.ec.dt))) 0 n

/-- Everything the iteration starting in `s` needs, once there are a map and a pose. -/
def Served (s : Expl F) (tf : Option (TransformMsg F)) (draws : List Nat) : Prop :=
  let t := (s.localize tf).advanceDwa
  t.map_received = true → t.pose_known = true →
    (t.follow_dwa = false → TargetServed t ∧ DrawsServed t draws) ∧ ∀ r o, t.replan draws = .ok (r, o) → AvoidServed r

/-- What the cart needs besides, which accepts no lateral velocity: the planned columns have none. -/
def StraightPlan (s : Expl F) (tf : Option (TransformMsg F)) (draws : List Nat) : Prop :=
  let t := (s.localize tf).advanceDwa
  t.map_received = true → t.pose_known = true → t.follow_dwa = false →
    ∀ e u, t.ec.control t.grid t.pose draws = .ok (e, u) → ∀ v ∈ e.ut, almostEqual v.c1 (lit 0 0) = true

end Ergodic
