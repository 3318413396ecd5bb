import Verif.Model.Exploration

/-!
# Model of the two executables

`exploration_cart_node.cpp` and `exploration_omni_node.cpp`.  The parameter server is a
structure of values.  Simplification: the values are those after the conversions to `unsigned int` and the
pairing of `means` and `sigmas`; these are in `Verif.Model.Launch`.
-/

namespace Ergodic
variable {F : Type} [Flt F]

/-- The parameters read by both executables (exploration_cart_node.cpp:116-179,
exploration_omni_node.cpp:118-185); the cart ignores the `y` entries. -/
structure Params (F : Type) where
  map_frame_id : String
  val_dt : F
  val_horizon : F
  max_vel_x : F
  max_vel_y : F
  max_rot_vel : F
  min_vel_x : F
  min_vel_y : F
  min_rot_vel : F
  acc_lim_x : F
  acc_lim_y : F
  acc_lim_th : F
  boundary_radius : F
  search_radius : F
  obstacle_threshold : F
  occupied_threshold : F
  ec_dt : F
  ec_horizon : F
  target_resolution : F
  expl_weight : F
  num_basis : Nat
  buffer_size : Nat
  batch_size : Nat
  control_weights : List F
  dwa_dt : F
  dwa_horizon : F
  acc_dt : F
  vx_samples : UInt32
  vy_samples : UInt32
  vth_samples : UInt32
  /-- means and sigmas of the target -/
  targets : List (V2 F × V2 F)

/-- A running executable: the exploration object and whether ROS is still up (`nh_.ok()`). -/
structure Node (F : Type) where
  expl : Expl F
  up : Bool

/-- `std::vector::at` -/
def vecAt {α : Type} (l : List α) (i : Nat) : Res α :=
  match l[i]? with
  | some v => .ok v
  | none => .throw .outOfRange

/-- diagonal 3×3 matrix -/
def diag3 (a b c : F) : M3 F :=
  ⟨⟨a, lit 0 0, lit 0 0⟩, ⟨lit 0 0, b, lit 0 0⟩, ⟨lit 0 0, lit 0 0, c⟩⟩

namespace Node

/-- `main` of the cart up to the control loop (exploration_cart_node.cpp:99-206): the
lateral limits, acceleration and sample count are zero. -/
def cart (p : Params F) : Res (Node F × List (Out F)) := do
  let w0 ← vecAt p.control_weights 0
  let w1 ← vecAt p.control_weights 1
  let up := !Flt.lt p.ec_horizon p.dwa_horizon
  let gaussians ← p.targets.mapM fun t => Gaussian.new t.1 t.2
  let target : Target F := { gaussians }
  let collision ← Collision.new p.boundary_radius p.search_radius p.obstacle_threshold
    p.occupied_threshold
  let ec ← ErgodicControl.new cartModel collision p.ec_dt p.ec_horizon p.target_resolution
    p.expl_weight p.num_basis p.buffer_size p.batch_size
    (diag3 (lit 1 0 /. w0) (lit 0 0) (lit 1 0 /. w1))
    ⟨p.min_vel_x, lit 0 0, p.min_rot_vel⟩ ⟨p.max_vel_x, lit 0 0, p.max_rot_vel⟩
  let dwa ← DynamicWindow.new collision p.dwa_dt p.dwa_horizon p.acc_dt p.acc_lim_x
    (lit 0 0) p.acc_lim_th p.max_vel_x p.min_vel_x (lit 0 0) (lit 0 0) p.max_rot_vel
    p.min_rot_vel p.vx_samples 0 p.vth_samples
  let (expl, out) := Expl.start ec collision dwa target p.map_frame_id p.val_dt p.val_horizon
  .ok ({ expl, up }, out)

/-- `main` of the omni robot up to the control loop (exploration_omni_node.cpp:101-211). -/
def omni (p : Params F) : Res (Node F × List (Out F)) := do
  let w0 ← vecAt p.control_weights 0
  let w1 ← vecAt p.control_weights 1
  let w2 ← vecAt p.control_weights 2
  let up := !Flt.lt p.ec_horizon p.dwa_horizon
  let gaussians ← p.targets.mapM fun t => Gaussian.new t.1 t.2
  let target : Target F := { gaussians }
  let collision ← Collision.new p.boundary_radius p.search_radius p.obstacle_threshold
    p.occupied_threshold
  let ec ← ErgodicControl.new omniModel collision p.ec_dt p.ec_horizon p.target_resolution
    p.expl_weight p.num_basis p.buffer_size p.batch_size
    (diag3 (lit 1 0 /. w0) (lit 1 0 /. w1) (lit 1 0 /. w2))
    ⟨p.min_vel_x, p.min_vel_y, p.min_rot_vel⟩ ⟨p.max_vel_x, p.max_vel_y, p.max_rot_vel⟩
  let dwa ← DynamicWindow.new collision p.dwa_dt p.dwa_horizon p.acc_dt p.acc_lim_x
    p.acc_lim_y p.acc_lim_th p.max_vel_x p.min_vel_x p.max_vel_y p.min_vel_y p.max_rot_vel
    p.min_rot_vel p.vx_samples p.vy_samples p.vth_samples
  let (expl, out) := Expl.start ec collision dwa target p.map_frame_id p.val_dt p.val_horizon
  .ok ({ expl, up }, out)

/-- One event: when ROS is down the `while (nh_.ok())` loop body does not run and no
callback is delivered (exploration.hpp:197). -/
def step (n : Node F) (e : Event F) : Res (Node F × List (Out F)) :=
  if n.up then do
    let (expl, o) ← n.expl.step e
    .ok ({ n with expl }, o)
  else .ok (n, [])

/-- A history of events. -/
def run (n : Node F) : List (Event F) → Res (Node F × List (Out F))
  | [] => .ok (n, [])
  | e :: es => do
    let (n, o) ← n.step e
    let (n', o') ← run n es
    .ok (n', o ++ o')

end Node
end Ergodic
