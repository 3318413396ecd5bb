import Verif.Model.ErgodicControl

/-!
# Model of `exploration.hpp`

The node is a state machine.  An event is a map message, an odometry message, or one
iteration of the control loop together with its environment: the result of the transform
lookup (`none` when it throws `tf2::TransformException`) and the random integers drawn.
Callbacks are atomic here; their interleaving with the control loop at the level of
individual member accesses is modelled separately in `Verif/Model/Interleaving.lean`.
Simplification: `ros::Rate`, logging and the ROS transport are not modelled.
-/

namespace Ergodic
variable {F : Type} [Flt F]

/-- A successful transform lookup: translation `x, y` and rotation quaternion
(exploration.hpp:203-206). -/
structure TransformMsg (F : Type) where
  x : F
  y : F
  qx : F
  qy : F
  qz : F
  qw : F

/-- `geometry_msgs/Twist` fields written (exploration.hpp:281-284). -/
abbrev TwistMsg (F : Type) := V3 F

/-- What the node publishes. -/
inductive Out (F : Type) where
  | target (m : List (Marker F))
  | trajectory (p : PathMsg F)
  | dwaPath (p : PathMsg F)
  | twist (t : TwistMsg F)

/-- Data members of `Exploration` (exploration.hpp:110-119) and the local variables of
`Exploration::control` (exploration.hpp:181-195). -/
structure Expl (F : Type) where
  ec : ErgodicControl F
  collision : Collision F
  dwa : DynamicWindow F
  map_received : Bool
  vb : V3 F
  grid : GridMap F
  map_frame_id : String
  val_dt : F
  val_horizon : F
  u : V3 F
  pose : V3 F
  pose_known : Bool
  follow_dwa : Bool
  i : UInt32

/-- Events seen by the node. -/
inductive Event (F : Type) where
  | map (msg : OccupancyGrid F)
  | odom (vb : V3 F)
  | tick (tf : Option (TransformMsg F)) (draws : List Nat)

namespace Expl

/-- `Exploration::Exploration` (exploration.hpp:133-146) followed by the part of
`Exploration::control` before the loop (exploration.hpp:181-195). -/
def start (ec : ErgodicControl F) (collision : Collision F) (dwa : DynamicWindow F)
    (target : Target F) (map_frame_id : String) (val_dt val_horizon : F) :
    Expl F × List (Out F) :=
  ({ ec := ec.setTarget target, collision, dwa
     map_received := false, vb := V3.zero, grid := GridMap.empty
     map_frame_id, val_dt, val_horizon
     u := V3.zero, pose := V3.zero, pose_known := false, follow_dwa := false, i := 0 },
   [.target (target.markers map_frame_id)])

/-- `Exploration::odomCallback` (exploration.hpp:160-166). -/
def odomCallback (s : Expl F) (vb : V3 F) : Expl F := { s with vb }

/-- `Exploration::mapCallback` (exploration.hpp:168-174). -/
def mapCallback (s : Expl F) (msg : OccupancyGrid F) : Expl F :=
  { s with grid := s.grid.update msg, map_received := true }

/-- The `try` block (exploration.hpp:199-218). -/
def localize (s : Expl F) : Option (TransformMsg F) → Expl F
  | none => s
  | some t =>
    let pose : V3 F := ⟨t.x, t.y, getYaw t.qx t.qy t.qz t.qw⟩
    { s with pose, ec := s.ec.addStateMemory pose, pose_known := true }

/-- exploration.hpp:223-228: count the iterations spent on a DWA twist. -/
def advanceDwa (s : Expl F) : Expl F :=
  if s.follow_dwa then
    let i := s.i + 1
    { s with i, follow_dwa := decide (i ≠ s.dwa.steps) }
  else s

/-- exploration.hpp:230-236: replan with the ergodic controller unless a DWA twist is being
followed. -/
def replan (s : Expl F) (draws : List Nat) : Res (Expl F × List (Out F)) :=
  if s.follow_dwa then .ok (s, [])
  else do
    let (ec, u) ← s.ec.control s.grid s.pose draws
    let p ← ec.path s.map_frame_id
    .ok ({ s with ec, u }, [.trajectory p])

/-- exploration.hpp:238-279: validate the twist and fall back on DWA. -/
def avoid (s : Expl F) : Res (Expl F × List (Out F)) := do
  let valid ← validateControl s.collision s.grid s.pose s.u s.val_dt s.val_horizon
  if valid then .ok (s, [])
  else if s.follow_dwa then do
    let r ← s.dwa.controlTwist s.grid s.pose s.vb s.u
    .ok ({ s with u := r.2, follow_dwa := false }, [])
  else do
    let opt_traj ← s.ec.optTraj
    let r ← s.dwa.controlTraj s.grid s.pose s.vb opt_traj s.ec.timeStep
    let s := { s with u := r.2, follow_dwa := r.1 }
    if r.1 then do
      let p ← constTwistPath s.map_frame_id s.pose s.u s.dwa.dt s.dwa.horizon
      .ok ({ s with i := 0 }, [.dwaPath p])
    else .ok (s, [])

/-- One iteration of the `while` loop (exploration.hpp:197-292). -/
def iteration (s : Expl F) (tf : Option (TransformMsg F)) (draws : List Nat) :
    Res (Expl F × List (Out F)) := do
  let s := s.localize tf
  if s.map_received && s.pose_known then do
    let s := s.advanceDwa
    let (s, o1) ← s.replan draws
    let (s, o2) ← s.avoid
    .ok (s, o1 ++ o2 ++ [.twist s.u])
  else .ok (s, [])

/-- The node's reaction to one event. -/
def step (s : Expl F) : Event F → Res (Expl F × List (Out F))
  | .map msg => .ok (s.mapCallback msg, [])
  | .odom vb => .ok (s.odomCallback vb, [])
  | .tick tf draws => s.iteration tf draws

/-- The node's reaction to a history of events: final state and everything published. -/
def run (s : Expl F) : List (Event F) → Res (Expl F × List (Out F))
  | [] => .ok (s, [])
  | e :: es => do
    let (s, o) ← s.step e
    let (s', o') ← run s es
    .ok (s', o ++ o')

end Expl
end Ergodic
