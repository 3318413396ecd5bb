import Verif.Spec.Exploration
import Verif.Spec.Collision

/-!
# Specification vocabulary: surroundings in which the node can keep running

Everything here speaks about the parameters and the history of events only.
-/

namespace Ergodic

/-- Every point within `D` of the position is neither below the lower edges of the map nor more
than `2^30` cells from them. -/
def Room (g : GridMap ℝ) (x : V3 ℝ) (D : ℝ) : Prop :=
  g.xmin + D ≤ x.c0 ∧ x.c0 + D ≤ g.xmin + 2 ^ 30 * g.resolution ∧
  g.ymin + D ≤ x.c1 ∧ x.c1 + D ≤ g.ymin + 2 ^ 30 * g.resolution

/-- The grid on which the target is sampled has fewer than `2^32` points. -/
def TargetGridFits (g : GridMap ℝ) (resolution : ℝ) : Prop :=
  (⌊(g.xmax - g.xmin) / resolution + 1 / 2⌋₊ + 1) *
    (⌊(g.ymax - g.ymin) / resolution + 1 / 2⌋₊ + 1) < 2 ^ 32

/-- What the surroundings supply for an iteration of the loop after the events `pre`: random
integers as many as asked for, each the index of a remembered pose; and if there is a map, one the
detector `c` can work with. -/
structure Supplied (c : Collision ℝ) (resolution : ℝ) (buffer_size batch_size : Nat)
    (pre : List (Event ℝ)) (tf : Option (TransformMsg ℝ)) (draws : List Nat) : Prop where
  count : draws.length = batch_size
  range : ∀ r ∈ draws, r < min (poses (pre ++ [.tick tf draws])).length buffer_size
  map : ∀ m, (maps pre).getLast? = some m → Sensible c (mapOf m) ∧ TargetGridFits (mapOf m) resolution

/-- Every iteration of the history is supplied. -/
def AllSupplied (c : Collision ℝ) (resolution : ℝ) (buffer_size batch_size : Nat)
    (es : List (Event ℝ)) : Prop :=
  ∀ pre tf draws post, es = pre ++ .tick tf draws :: post →
    Supplied c resolution buffer_size batch_size pre tf draws

/-- At every iteration the robot has room `D` to the lower edges of the current map. -/
def AlwaysRoom (D : ℝ) (es : List (Event ℝ)) : Prop :=
  ∀ pre tf draws post m x, es = pre ++ .tick tf draws :: post → (maps pre).getLast? = some m →
    (poses (pre ++ [.tick tf draws])).getLast? = some x → Room (mapOf m) x D

/-- At every iteration the robot is inside the current map. -/
def AlwaysInside (es : List (Event ℝ)) : Prop :=
  ∀ pre tf draws post m x, es = pre ++ .tick tf draws :: post → (maps pre).getLast? = some m →
    (poses (pre ++ [.tick tf draws])).getLast? = some x → InRect (mapOf m) x.c0 x.c1

/-- Parameters that make sense: positive steps and resolution, non-negative horizons, at least two
controller steps, no horizon of `2^32` steps, a window horizon within the controller's columns, and
velocity limits that contain rest. -/
structure Sane (p : Params ℝ) : Prop where
  resolution : 0 < p.target_resolution
  ec_dt : 0 < p.ec_dt
  ec_two : 2 * p.ec_dt ≤ p.ec_horizon
  ec_fits : p.ec_horizon < 2 ^ 32 * p.ec_dt
  dwa_dt : 0 < p.dwa_dt
  dwa_horizon : 0 ≤ p.dwa_horizon
  dwa_fits : p.dwa_horizon < 2 ^ 32 * p.dwa_dt
  val_dt : 0 < p.val_dt
  val_horizon : 0 ≤ p.val_horizon
  val_fits : p.val_horizon < 2 ^ 32 * p.val_dt
  columns : p.dwa_horizon ≤ (⌊p.ec_horizon / p.ec_dt⌋₊ + 1 / 2) * p.ec_dt
  min_x : p.min_vel_x ≤ 0
  max_x : 0 ≤ p.max_vel_x
  min_y : p.min_vel_y ≤ 0
  max_y : 0 ≤ p.max_vel_y
  min_rot : p.min_rot_vel ≤ 0
  max_rot : 0 ≤ p.max_rot_vel

end Ergodic
