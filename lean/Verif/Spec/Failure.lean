import Verif.Spec.DynamicWindow
import Verif.Model.Exploration

/-!
# Specification vocabulary: the conversions an iteration of the node relies on

The truncated value of a `double` has to lie in the range of the integer type it is converted to.  The ranges below are
those of the types, except that cell indices and radii are required to be small enough that no sum or product of the
circle sweep leaves the range of `int`.
-/

namespace Ergodic
variable {F : Type} [Flt F]

/-- The truncated value of `x` is in `[lo, hi)`. -/
def InRange32 (x : F) (lo hi : Int) : Prop := ∃ n, Flt.trunc? x = some n ∧ lo ≤ n ∧ n < hi

/-- The number of steps of length `dt` in `horizon` is an `unsigned int`. -/
def CountFits (horizon dt : F) : Prop := InRange32 (fabs (horizon /. dt)) 0 4294967296

/-- The five conversions of a collision query at the pose `p`: the column, the row, and three radii in cells. -/
structure QueryFits (c : Collision F) (g : GridMap F) (p : V3 F) : Prop where
  column : InRange32 (Flt.floor ((p.c0 -. g.xmin) /. g.resolution)) 0 2147450880
  row : InRange32 (Flt.floor ((p.c1 -. g.ymin) /. g.resolution)) 0 2147450880
  boundary : InRange32 (Flt.floor (c.boundary_radius /. g.resolution)) (-32768) 32768
  collision : InRange32 (Flt.floor ((c.boundary_radius +. c.obstacle_threshold) /. g.resolution)) (-32768) 32768
  search : InRange32 (Flt.floor (c.search_radius /. g.resolution)) (-32768) 32768

/-- The queries made while driving the twist `u` for up to `n` steps from `x`: up to the first collision. -/
def DriveFits (c : Collision F) (g : GridMap F) (u : V3 F) (dt : F) (x : V3 F) (n : Nat) : Prop :=
  ∀ k < n, (∀ l < k, c.collisionCheck g (poseAfter u dt x (l + 1)) = .ok false) →
    QueryFits c g (poseAfter u dt x (k + 1))

/-- What is fixed when the node starts: the model answers or throws, the two numbers of steps are converted, and the
limits are not inverted. -/
structure Settled (s : Expl F) : Prop where
  model : ∀ x u, (∃ y, s.ec.model.f x u = .ok y) ∨ ∃ e, s.ec.model.f x u = .throw e
  ec_count : CountFits s.ec.horizon s.ec.dt
  dwa_count : CountFits s.dwa.horizon s.dwa.dt
  val_count : CountFits s.val_horizon s.val_dt
  lim0 : Flt.lt s.ec.umax.c0 s.ec.umin.c0 = false
  lim1 : Flt.lt s.ec.umax.c1 s.ec.umin.c1 = false
  lim2 : Flt.lt s.ec.umax.c2 s.ec.umin.c2 = false

/-- The map has the size the controller is set up for, or the two numbers of samples of its sides are converted. -/
def TargetFits (s : Expl F) : Prop :=
  let w := s.grid.xmax -. s.grid.xmin
  let h := s.grid.ymax -. s.grid.ymin
  (almostEqual w s.ec.basis.lx = true ∧ almostEqual h s.ec.basis.ly = true) ∨
    (InRange32 (Flt.round ((w -. lit 0 0) /. s.ec.resolution)) 0 4294967296 ∧
      InRange32 (Flt.round ((h -. lit 0 0) /. s.ec.resolution)) 0 4294967296)

/-- The columns of the reference looked up by the window search, for a reference of `m` columns. -/
def ColumnFits (s : Expl F) (m : Nat) : Prop :=
  ∀ k < s.dwa.steps.toNat,
    InRange32 (Flt.round (Flt.ofInt (DynamicWindow.lastCol m) *. stride (lit 0 0) s.dwa.dt k /.
      (Flt.ofInt m *. s.ec.dt))) 0 4294967296

/-- What the check of the twist and the search for another one rely on, in the state before it. -/
structure AvoidFits (s : Expl F) : Prop where
  ahead : ∀ n, Flt.trunc? (fabs (s.val_horizon /. s.val_dt)) = some n →
    DriveFits s.collision s.grid s.u s.val_dt s.pose n.toNat
  window : validateControl s.collision s.grid s.pose s.u s.val_dt s.val_horizon = .ok false →
    ∀ u, IsSample s.dwa s.vb u → DriveFits s.dwa.collision s.grid u s.dwa.dt s.pose s.dwa.steps.toNat
  columns : validateControl s.collision s.grid s.pose s.u s.val_dt s.val_horizon = .ok false →
    s.follow_dwa = false → ∀ n, Flt.trunc? (fabs (s.ec.horizon /. s.ec.dt)) = some n → ColumnFits s n.toNat

/-- The iteration starting in `s` comes to a conversion that is not defined: of the size of the map while planning, or of
a pose, radius or column while avoiding obstacles. -/
def Trouble (s : Expl F) (tf : Option (TransformMsg F)) (draws : List Nat) : Prop :=
  let t := (s.localize tf).advanceDwa
  t.map_received = true ∧ t.pose_known = true ∧
    ((t.follow_dwa = false ∧ ¬ TargetFits t) ∨ ∃ r o, t.replan draws = .ok (r, o) ∧ ¬ AvoidFits r)

end Ergodic
