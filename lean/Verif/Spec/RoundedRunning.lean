import Verif.Spec.Exploration
import Verif.Props.RoundedControl
import Verif.Props.RoundedCollision
import Verif.Props.Speed

/-!
# Specification vocabulary: surroundings in which the node keeps running in rounded arithmetic

Everything here speaks about the parameters and the history of events only.
-/

namespace Ergodic
variable {M : Machine}

/-- A finite twist of speed at most `v` and turning rate at most `w`. -/
def Slow (v w : ℝ) (u : V3 (RDbl M)) : Prop :=
  ∃ a b c : ℝ, u = ⟨.fin a, .fin b, .fin c⟩ ∧ speed ⟨a, b, c⟩ ≤ v ∧ |c| ≤ w

/-- Looking `n` steps of `dt` ahead at speed `v` and turning rate `w`, from coordinates up to `X`,
takes room `D`: the length of the way, a two millionth of it, and a rounding error per step. -/
structure Lookahead (dt v w X D : ℝ) (n : ℕ) : Prop where
  step_lo : 1 / 1000 ≤ dt
  step_hi : dt ≤ 64
  long : 1 / 2 ^ 60 ≤ v * dt
  turn : w * dt ≤ 64
  far : n * (v * dt * (1 + 1 / 2 ^ 21) + 2 * (X + (3 * n + 19) * (v * dt)) / 2 ^ 52) ≤ D

/-- Every point within `D` of the position is neither below the lower edges of the map nor more
than `2^29` cells from them; the heading is an angle, the coordinates are at most `X`. -/
def RoomRd (g : GridMap (RDbl M)) (p : V3 (RDbl M)) (X D : ℝ) : Prop :=
  ∃ x y θ ax ay r : ℝ, p = ⟨.fin x, .fin y, .fin θ⟩ ∧ Placed g ax ay r ∧ |θ| ≤ 4 ∧ |x| ≤ X ∧ |y| ≤ X ∧
    ax + D ≤ x ∧ x + D ≤ ax + 2 ^ 29 * r ∧ ay + D ≤ y ∧ y + D ≤ ay + 2 ^ 29 * r

/-- A map the node can work with: finite numbers, radii of fewer than `2^15` cells, sides of at
least a millimetre and a target grid that is not too fine. -/
structure MapOk (c : Collision (RDbl M)) (resolution : RDbl M) (target : Target (RDbl M))
    (g : GridMap (RDbl M)) : Prop where
  sensible : ∃ ax ay r b s o, SensibleRd c g ax ay r b s o
  num : MapNum g
  small : GridSmall g resolution
  seen : TargetSeen target resolution g

/-- What the surroundings supply for an iteration of the loop after the events `pre`: random
integers as many as asked for, each the index of a remembered pose; a map, if there is one, that
the node can work with; and then room around the robot, if it is localised. -/
structure SuppliedRd (c : Collision (RDbl M)) (resolution : RDbl M) (target : Target (RDbl M))
    (buffer_size batch_size : Nat) (X D : ℝ) (pre : List (Event (RDbl M)))
    (tf : Option (TransformMsg (RDbl M))) (draws : List Nat) : Prop where
  count : draws.length = batch_size
  range : ∀ r ∈ draws, r < min (poses (pre ++ [.tick tf draws])).length buffer_size
  map : ∀ m, (maps pre).getLast? = some m → MapOk c resolution target (mapOf m)
  room : ∀ m x, (maps pre).getLast? = some m → (poses (pre ++ [.tick tf draws])).getLast? = some x →
    RoomRd (mapOf m) x X D

/-- Every iteration of the history is supplied. -/
def AllSuppliedRd (c : Collision (RDbl M)) (resolution : RDbl M) (target : Target (RDbl M))
    (buffer_size batch_size : Nat) (X D : ℝ) (es : List (Event (RDbl M))) : Prop :=
  ∀ pre tf draws post, es = pre ++ .tick tf draws :: post →
    SuppliedRd c resolution target buffer_size batch_size X D pre tf draws

/-- The numbers among the parameters are the finite numbers `q`. -/
structure ReadsAs (p : Params (RDbl M)) (q : Params ℝ) : Prop where
  val_dt : p.val_dt = .fin q.val_dt
  val_horizon : p.val_horizon = .fin q.val_horizon
  max_vel_x : p.max_vel_x = .fin q.max_vel_x
  max_vel_y : p.max_vel_y = .fin q.max_vel_y
  max_rot_vel : p.max_rot_vel = .fin q.max_rot_vel
  min_vel_x : p.min_vel_x = .fin q.min_vel_x
  min_vel_y : p.min_vel_y = .fin q.min_vel_y
  min_rot_vel : p.min_rot_vel = .fin q.min_rot_vel
  acc_lim_x : p.acc_lim_x = .fin q.acc_lim_x
  acc_lim_y : p.acc_lim_y = .fin q.acc_lim_y
  acc_lim_th : p.acc_lim_th = .fin q.acc_lim_th
  ec_dt : p.ec_dt = .fin q.ec_dt
  ec_horizon : p.ec_horizon = .fin q.ec_horizon
  target_resolution : p.target_resolution = .fin q.target_resolution
  expl_weight : p.expl_weight = .fin q.expl_weight
  dwa_dt : p.dwa_dt = .fin q.dwa_dt
  dwa_horizon : p.dwa_horizon = .fin q.dwa_horizon
  acc_dt : p.acc_dt = .fin q.acc_dt
  weights : p.control_weights = q.control_weights.map .fin
  targets : p.targets = q.targets.map fun t => (⟨.fin t.1.c0, .fin t.1.c1⟩, ⟨.fin t.2.c0, .fin t.2.c1⟩)

/-- Parameters that make sense: nonzero weights, at least two controller steps and at most a million,
horizons of at most `2^24` steps, a window horizon within the controller's columns, velocity limits
that contain rest, and room `D` for both look-aheads at speed `v` and turning rate `w`. -/
structure SaneRd (M : Machine) (q : Params ℝ) (v w X D : ℝ) : Prop where
  weights : ∀ a ∈ q.control_weights, a ≠ 0
  ec_dt : minNormal ≤ q.ec_dt
  ec_two : 2 * q.ec_dt ≤ q.ec_horizon
  ec_fits : q.ec_horizon ≤ 2 ^ 20 * q.ec_dt
  dwa_horizon : 0 ≤ q.dwa_horizon
  dwa_fits : q.dwa_horizon ≤ 2 ^ 24 * q.dwa_dt
  val_horizon : 0 ≤ q.val_horizon
  val_fits : q.val_horizon ≤ 2 ^ 24 * q.val_dt
  columns : q.dwa_horizon ≤ ⌊M.rnd (q.ec_horizon / q.ec_dt)⌋₊ * q.ec_dt * (1 + 1 / 2 ^ 31)
  min_x : q.min_vel_x ≤ 0
  max_x : 0 ≤ q.max_vel_x
  min_y : q.min_vel_y ≤ 0
  max_y : 0 ≤ q.max_vel_y
  min_rot : q.min_rot_vel ≤ 0
  max_rot : 0 ≤ q.max_rot_vel
  dwa_room : Lookahead q.dwa_dt v w X D ⌊M.rnd (q.dwa_horizon / q.dwa_dt)⌋₊
  val_room : Lookahead q.val_dt v w X D ⌊M.rnd (q.val_horizon / q.val_dt)⌋₊

/-- A velocity between the limits, or above by a rounding error of numbers up to `B` per sample. -/
def Between (lo hi : ℝ) (samples : UInt32) (B a : ℝ) : Prop :=
  lo ≤ a ∧ a ≤ hi + (samples.toNat + 1) * B / 2 ^ 46

/-- A measured twist of finite numbers of size at most `B` from which the limits can be reached. -/
def OdomOk (M : Machine) (q : Params ℝ) (B : ℝ) (vb : V3 (RDbl M)) : Prop :=
  ∃ a b c : ℝ, vb = ⟨.fin a, .fin b, .fin c⟩ ∧
    AxisNumbers.Sane ⟨a, q.acc_lim_x, q.acc_dt, q.min_vel_x, q.max_vel_x⟩ M B ∧
    AxisNumbers.Sane ⟨b, q.acc_lim_y, q.acc_dt, q.min_vel_y, q.max_vel_y⟩ M B ∧
    AxisNumbers.Sane ⟨c, q.acc_lim_th, q.acc_dt, q.min_rot_vel, q.max_rot_vel⟩ M B

/-- The same for the cart: any lateral velocity up to `lat`. -/
def CartOdomOk (M : Machine) (q : Params ℝ) (B lat : ℝ) (vb : V3 (RDbl M)) : Prop :=
  ∃ a b c : ℝ, vb = ⟨.fin a, .fin b, .fin c⟩ ∧
    AxisNumbers.Sane ⟨a, q.acc_lim_x, q.acc_dt, q.min_vel_x, q.max_vel_x⟩ M B ∧ M.rnd b ≤ lat ∧
    AxisNumbers.Sane ⟨c, q.acc_lim_th, q.acc_dt, q.min_rot_vel, q.max_rot_vel⟩ M B

end Ergodic
