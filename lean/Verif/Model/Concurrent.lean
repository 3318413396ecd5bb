import Verif.Model.Exploration

/-!
# Callbacks delivered while an iteration of the control loop is running

`ros::AsyncSpinner` (exploration_cart_node.cpp:106, exploration_omni_node.cpp:108) runs the callbacks
on a second thread.  Here an iteration of the loop of `Exploration::control` may be interrupted at
four places: before the flag is tested, before the ergodic controller reads the map, before the
validation reads it, and before the search of the dynamic window reads the map and the measured
twist.

Simplifications: a callback is indivisible, and so is each of these three reads (the controller, the
validation and the search each see one map).  What happens when a callback runs in the middle of a
collision check is in `Verif/Model/Interleaving.lean`.
-/

namespace Ergodic
variable {F : Type} [Flt F]

/-- A message delivered to the node. -/
inductive Callback (F : Type) where
  | map (msg : OccupancyGrid F)
  | odom (vb : V3 F)

/-- Where the messages that arrive during an iteration are delivered. -/
structure Slots (F : Type) where
  /-- before `map_received_` is tested (exploration.hpp:221) -/
  flag : List (Callback F) := []
  /-- before `ergodic_control_.control` (exploration.hpp:232) -/
  plan : List (Callback F) := []
  /-- before `validate_control` (exploration.hpp:238) -/
  check : List (Callback F) := []
  /-- before `dwa_.control` (exploration.hpp:245, 262) -/
  search : List (Callback F) := []

namespace Expl

/-- One callback (exploration.hpp:160-174). -/
def deliverOne (s : Expl F) : Callback F → Expl F
  | .map msg => s.mapCallback msg
  | .odom vb => s.odomCallback vb

/-- Callbacks in order. -/
def deliver (s : Expl F) (cs : List (Callback F)) : Expl F := cs.foldl deliverOne s

/-- exploration.hpp:238-279 with callbacks between the validation and what follows it. -/
def avoidC (s : Expl F) (cs : List (Callback F)) : Res (Expl F × List (Out F)) := do
  let valid ← validateControl s.collision s.grid s.pose s.u s.val_dt s.val_horizon
  let s := s.deliver cs
  if valid then .ok (s, [])
  else if s.follow_dwa then do
    let r ← s.dwa.controlTwist s.grid s.pose s.vb s.u
    .ok ({ s with u := r.2, follow_dwa := false }, [])
  else do
    let opt_traj ← s.ec.optTraj
    let r ← s.dwa.controlTraj s.grid s.pose s.vb opt_traj s.ec.timeStep
    let s := { s with u := r.2, follow_dwa := r.1 }
    if r.1 then do
      let p ← constTwistPath s.map_frame_id s.pose s.u s.dwa.dt s.dwa.horizon
      .ok ({ s with i := 0 }, [.dwaPath p])
    else .ok (s, [])

/-- One iteration of the `while` loop (exploration.hpp:197-292) with callbacks in between.  When the
flag is not set the later places are not reached and their callbacks come after the iteration. -/
def iterationC (s : Expl F) (tf : Option (TransformMsg F)) (draws : List Nat) (c : Slots F) :
    Res (Expl F × List (Out F)) := do
  let s := (s.localize tf).deliver c.flag
  if s.map_received && s.pose_known then do
    let s := (s.deliver c.plan).advanceDwa
    let (s, o1) ← s.replan draws
    let s := s.deliver c.check
    let (s, o2) ← s.avoidC c.search
    .ok (s, o1 ++ o2 ++ [.twist s.u])
  else .ok (s.deliver (c.plan ++ c.check ++ c.search), [])

end Expl
end Ergodic
