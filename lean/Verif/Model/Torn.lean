import Verif.Model.Concurrent

/-!
# Odometry arriving while the velocity window is computed

`Exploration::odomCallback` assigns the three components of `vb_` one after the other on the thread of
the callbacks, and `DynamicWindow::window` gets `vb_` by reference and reads every component twice,
once for the lower and once for the upper end of the axis.  Nothing locks `vb_`.

Simplifications: reading and assigning one component are indivisible and everybody sees the
assignments in program order (C++ promises neither, a data race is undefined behaviour).  Maps that
arrive during the computation of the window are delivered before it, which nothing can tell apart:
`window` does not read the map.
-/

namespace Ergodic
variable {F : Type} [Flt F]

/-- an assignment to one component of `vb_` -/
inductive Write (F : Type) where
  | x (v : F)
  | y (v : F)
  | w (v : F)

/-- `vb_` after an assignment -/
def Write.put (vb : V3 F) : Write F → V3 F
  | .x v => { vb with c0 := v }
  | .y v => { vb with c1 := v }
  | .w v => { vb with c2 := v }

/-- The assignments of `Exploration::odomCallback` in order (exploration.hpp:163-165). -/
def odomWrites (v : V3 F) : List (Write F) := [.x v.c0, .y v.c1, .w v.c2]

/-- The assignments of several messages, one message after the other. -/
def writesOf (msgs : List (V3 F)) : List (Write F) := msgs.flatMap odomWrites

/-- `vb_` after the first `k` assignments -/
def seen (vb : V3 F) (ws : List (Write F)) (k : Nat) : V3 F := (ws.take k).foldl Write.put vb

/-- How many assignments happen before each of the six reads of `DynamicWindow::window`, counted from
the previous read (dynamic_window.cpp:200, 201, 203, 204, 206, 207). -/
structure Gaps where
  x1 : Nat := 0
  x2 : Nat := 0
  y1 : Nat := 0
  y2 : Nat := 0
  w1 : Nat := 0
  w2 : Nat := 0

/-- What is read for the lower ends (dynamic_window.cpp:200, 203, 206). -/
def readLower (vb : V3 F) (ws : List (Write F)) (g : Gaps) : V3 F :=
  ⟨(seen vb ws g.x1).c0, (seen vb ws (g.x1 + g.x2 + g.y1)).c1,
   (seen vb ws (g.x1 + g.x2 + g.y1 + g.y2 + g.w1)).c2⟩

/-- What is read for the upper ends (dynamic_window.cpp:201, 204, 207). -/
def readUpper (vb : V3 F) (ws : List (Write F)) (g : Gaps) : V3 F :=
  ⟨(seen vb ws (g.x1 + g.x2)).c0, (seen vb ws (g.x1 + g.x2 + g.y1 + g.y2)).c1,
   (seen vb ws (g.x1 + g.x2 + g.y1 + g.y2 + g.w1 + g.w2)).c2⟩

namespace DynamicWindow

/-- `DynamicWindow::window` (dynamic_window.cpp:193-235) when the reads for the lower ends give `a`
and those for the upper ends give `b`. -/
def windowT (d : DynamicWindow F) (a b : V3 F) : V3 F × V3 F :=
  let lo := d.velLower a
  let up := d.velUpper b
  (lo, ⟨delta d.vx_samples lo.c0 up.c0, delta d.vy_samples lo.c1 up.c1,
        delta d.vth_samples lo.c2 up.c2⟩)

/-- The body shared by both `control` functions (dynamic_window.cpp:96-138 and 145-190). -/
def searchWindowT (d : DynamicWindow F) (a b : V3 F) (cost : V3 F → Res F) :
    Res (Bool × V3 F) := do
  let w := d.windowT a b
  let s ← vxLoop cost w.1.c1 w.1.c2 w.2.c0 w.2.c1 w.2.c2 d.vy_samples.toNat
    d.vth_samples.toNat d.vx_samples.toNat w.1.c0 (Flt.maxFin, V3.zero)
  if almostEqual s.1 Flt.maxFin then .ok (false, s.2) else .ok (true, s.2)

/-- `DynamicWindow::control(grid, x0, vb, vref)` (dynamic_window.cpp:92-139). -/
def controlTwistT (d : DynamicWindow F) (g : GridMap F) (x0 a b vref : V3 F) :
    Res (Bool × V3 F) :=
  d.searchWindowT a b (fun u => d.objectiveTwist g x0 vref u)

/-- `DynamicWindow::control(grid, x0, vb, xt_ref, dt_ref)` (dynamic_window.cpp:141-191). -/
def controlTrajT (d : DynamicWindow F) (g : GridMap F) (x0 a b : V3 F) (xt_ref : List (V3 F))
    (dt_ref : F) : Res (Bool × V3 F) :=
  let tf := Flt.ofInt xt_ref.length *. dt_ref
  d.searchWindowT a b (fun u => d.objectiveTraj g x0 u xt_ref tf)

end DynamicWindow

namespace Expl

/-- exploration.hpp:238-279 with whole callbacks between the validation and what follows it, and with
the odometry messages `msgs` written while the window is computed.  What is not written by the time
of the last read is written before the next iteration. -/
def avoidT (s : Expl F) (cs : List (Callback F)) (msgs : List (V3 F)) (g : Gaps) :
    Res (Expl F × List (Out F)) := do
  let valid ← validateControl s.collision s.grid s.pose s.u s.val_dt s.val_horizon
  let s := s.deliver cs
  let a := readLower s.vb (writesOf msgs) g
  let b := readUpper s.vb (writesOf msgs) g
  let s := { s with vb := (writesOf msgs).foldl Write.put s.vb }
  if valid then .ok (s, [])
  else if s.follow_dwa then do
    let r ← s.dwa.controlTwistT s.grid s.pose a b s.u
    .ok ({ s with u := r.2, follow_dwa := false }, [])
  else do
    let opt_traj ← s.ec.optTraj
    let r ← s.dwa.controlTrajT s.grid s.pose a b opt_traj s.ec.timeStep
    let s := { s with u := r.2, follow_dwa := r.1 }
    if r.1 then do
      let p ← constTwistPath s.map_frame_id s.pose s.u s.dwa.dt s.dwa.horizon
      .ok ({ s with i := 0 }, [.dwaPath p])
    else .ok (s, [])

/-- One iteration of the `while` loop (exploration.hpp:197-292) with callbacks in between and odometry
during the computation of the window. -/
def iterationT (s : Expl F) (tf : Option (TransformMsg F)) (draws : List Nat) (c : Slots F)
    (msgs : List (V3 F)) (g : Gaps) : Res (Expl F × List (Out F)) := do
  let s := (s.localize tf).deliver c.flag
  if s.map_received && s.pose_known then do
    let s := (s.deliver c.plan).advanceDwa
    let (s, o1) ← s.replan draws
    let s := s.deliver c.check
    let (s, o2) ← s.avoidT c.search msgs g
    .ok (s, o1 ++ o2 ++ [.twist s.u])
  else
    let s := s.deliver (c.plan ++ c.check ++ c.search)
    .ok ({ s with vb := (writesOf msgs).foldl Write.put s.vb }, [])

end Expl
end Ergodic
