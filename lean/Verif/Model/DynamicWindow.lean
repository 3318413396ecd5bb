import Verif.Model.Integrator

/-!
# Model of `dynamic_window.hpp` / `dynamic_window.cpp`
-/

namespace Ergodic
variable {F : Type} [Flt F]

/-- `class DynamicWindow` data members (dynamic_window.hpp:161-172). -/
structure DynamicWindow (F : Type) where
  collision : Collision F
  dt : F
  horizon : F
  acc_dt : F
  acc_lim_x : F
  acc_lim_y : F
  acc_lim_th : F
  max_vel_x : F
  min_vel_x : F
  max_vel_y : F
  min_vel_y : F
  max_rot_vel : F
  min_rot_vel : F
  vx_samples : UInt32
  vy_samples : UInt32
  vth_samples : UInt32
  steps : UInt32

namespace DynamicWindow

/-- `if (samples == 0) samples = 1` (dynamic_window.cpp:70-89). -/
def atLeastOne (n : UInt32) : UInt32 := if n = 0 then 1 else n

/-- `DynamicWindow::DynamicWindow` (dynamic_window.cpp:46-90). -/
def new (collision : Collision F)
    (dt horizon acc_dt acc_lim_x acc_lim_y acc_lim_th max_vel_x min_vel_x max_vel_y
      min_vel_y max_rot_vel min_rot_vel : F)
    (vx_samples vy_samples vth_samples : UInt32) : Res (DynamicWindow F) := do
  let steps ← numSteps horizon dt
  .ok { collision, dt, horizon, acc_dt, acc_lim_x, acc_lim_y, acc_lim_th, max_vel_x,
        min_vel_x, max_vel_y, min_vel_y, max_rot_vel, min_rot_vel
        vx_samples := atLeastOne vx_samples
        vy_samples := atLeastOne vy_samples
        vth_samples := atLeastOne vth_samples
        steps }

/-- one entry of `delta_vb` (dynamic_window.cpp:214-227) -/
def delta (samples : UInt32) (lower upper : F) : F :=
  if 1 < samples then (upper -. lower) /. Flt.ofInt (samples - 1).toNat else lit 0 0

/-- `vel_lower` (dynamic_window.cpp:200, 203, 206). -/
def velLower (d : DynamicWindow F) (vb : V3 F) : V3 F :=
  ⟨fmax (vb.c0 -. d.acc_lim_x *. d.acc_dt) d.min_vel_x,
   fmax (vb.c1 -. d.acc_lim_y *. d.acc_dt) d.min_vel_y,
   fmax (vb.c2 -. d.acc_lim_th *. d.acc_dt) d.min_rot_vel⟩

/-- `vel_upper` (dynamic_window.cpp:201, 204, 207). -/
def velUpper (d : DynamicWindow F) (vb : V3 F) : V3 F :=
  ⟨fmin (vb.c0 +. d.acc_lim_x *. d.acc_dt) d.max_vel_x,
   fmin (vb.c1 +. d.acc_lim_y *. d.acc_dt) d.max_vel_y,
   fmin (vb.c2 +. d.acc_lim_th *. d.acc_dt) d.max_rot_vel⟩

/-- `DynamicWindow::window` (dynamic_window.cpp:193-235): `(vel_lower, delta_vb)`. -/
def window (d : DynamicWindow F) (vb : V3 F) : V3 F × V3 F :=
  let lo := d.velLower vb
  let up := d.velUpper vb
  (lo, ⟨delta d.vx_samples lo.c0 up.c0, delta d.vy_samples lo.c1 up.c1,
        delta d.vth_samples lo.c2 up.c2⟩)

/-- The loop of `objective(grid, x0, vref, u)` (dynamic_window.cpp:241-251): `some cost` is
the early return on a collision. -/
def rollout (d : DynamicWindow F) (g : GridMap F) (u : V3 F) : Nat → V3 F → Res (Option F)
  | 0, _ => .ok none
  | n + 1, pose => do
    let p1 := integrateTwist pose u d.dt
    let p2 : V3 F := { p1 with c2 := normalizeAnglePI p1.c2 }
    let hit ← d.collision.collisionCheck g p2
    if hit then .ok (some Flt.maxFin) else rollout d g u n p2

/-- `DynamicWindow::objective(grid, x0, vref, u)` (dynamic_window.cpp:237-256). -/
def objectiveTwist (d : DynamicWindow F) (g : GridMap F) (x0 vref u : V3 F) : Res F := do
  match ← d.rollout g u d.steps.toNat x0 with
  | some c => .ok c
  | none =>
    let e := vref.sub u
    .ok (e.dot e)

/-- `xt_ref.n_cols - 1` in 64-bit unsigned arithmetic -/
def lastCol (n : Nat) : Int := if n = 0 then 18446744073709551615 else (n : Int) - 1

/-- The loop of `objective(grid, x0, u, xt_ref, tf)` (dynamic_window.cpp:266-283): `n`
iterations left.  `arma::norm` of a 2-vector is `sqrt(a² + b²)`. -/
def trajLoop (d : DynamicWindow F) (g : GridMap F) (u : V3 F) (xt_ref : List (V3 F)) (tf : F) :
    Nat → V3 F → F → F → Res F
  | 0, _, _, cost => .ok cost
  | n + 1, pose, t, cost => do
    let p1 := integrateTwist pose u d.dt
    let p2 : V3 F := { p1 with c2 := normalizeAnglePI p1.c2 }
    let hit ← d.collision.collisionCheck g p2
    if hit then .ok Flt.maxFin
    else do
      let j ← castU32 (Flt.round (Flt.ofInt (lastCol xt_ref.length) *. t /. tf))
      let xr ← col xt_ref j.toNat
      let e := xr.xy.sub p2.xy
      let cost1 := cost +. Flt.sqrt (e.dot e)
      let cost2 := cost1 +.
        fabs (normalizeAnglePI (normalizeAnglePI xr.c2 -. p2.c2))
      trajLoop d g u xt_ref tf n p2 (t +. d.dt) cost2

/-- `DynamicWindow::objective(grid, x0, u, xt_ref, tf)` (dynamic_window.cpp:258-286). -/
def objectiveTraj (d : DynamicWindow F) (g : GridMap F) (x0 u : V3 F)
    (xt_ref : List (V3 F)) (tf : F) : Res F :=
  d.trajLoop g u xt_ref tf d.steps.toNat x0 (lit 0 0) (lit 0 0)

/-- The `w` loop (dynamic_window.cpp:111-126 and 163-178): `n` iterations left, state
`(min_cost, u_opt)`. -/
def wLoop (cost : V3 F → Res F) (vx vy dw : F) : Nat → F → F × V3 F → Res (F × V3 F)
  | 0, _, s => .ok s
  | n + 1, w, s => do
    let u : V3 F := ⟨vx, vy, w⟩
    let c ← cost u
    let s' := if Flt.lt c s.1 then (c, u) else s
    wLoop cost vx vy dw n (w +. dw) s'

/-- The `vy` loop (dynamic_window.cpp:108-128 and 160-180). -/
def vyLoop (cost : V3 F → Res F) (vx w0 dvy dw : F) (nw : Nat) :
    Nat → F → F × V3 F → Res (F × V3 F)
  | 0, _, s => .ok s
  | n + 1, vy, s => do
    let s' ← wLoop cost vx vy dw nw w0 s
    vyLoop cost vx w0 dvy dw nw n (vy +. dvy) s'

/-- The `vx` loop (dynamic_window.cpp:105-130 and 157-182). -/
def vxLoop (cost : V3 F → Res F) (vy0 w0 dvx dvy dw : F) (ny nw : Nat) :
    Nat → F → F × V3 F → Res (F × V3 F)
  | 0, _, s => .ok s
  | n + 1, vx, s => do
    let s' ← vyLoop cost vx w0 dvy dw nw ny vy0 s
    vxLoop cost vy0 w0 dvx dvy dw ny nw n (vx +. dvx) s'

/-- The body shared by both `control` functions (dynamic_window.cpp:96-138 and 145-190). -/
def searchWindow (d : DynamicWindow F) (vb : V3 F) (cost : V3 F → Res F) :
    Res (Bool × V3 F) := do
  let w := d.window vb
  let s ← vxLoop cost w.1.c1 w.1.c2 w.2.c0 w.2.c1 w.2.c2 d.vy_samples.toNat
    d.vth_samples.toNat d.vx_samples.toNat w.1.c0 (Flt.maxFin, V3.zero)
  if almostEqual s.1 Flt.maxFin then .ok (false, s.2) else .ok (true, s.2)

/-- `DynamicWindow::control(grid, x0, vb, vref)` (dynamic_window.cpp:92-139). -/
def controlTwist (d : DynamicWindow F) (g : GridMap F) (x0 vb vref : V3 F) :
    Res (Bool × V3 F) :=
  d.searchWindow vb (fun u => d.objectiveTwist g x0 vref u)

/-- `DynamicWindow::control(grid, x0, vb, xt_ref, dt_ref)` (dynamic_window.cpp:141-191). -/
def controlTraj (d : DynamicWindow F) (g : GridMap F) (x0 vb : V3 F) (xt_ref : List (V3 F))
    (dt_ref : F) : Res (Bool × V3 F) :=
  let tf := Flt.ofInt xt_ref.length *. dt_ref
  d.searchWindow vb (fun u => d.objectiveTraj g x0 u xt_ref tf)

end DynamicWindow
end Ergodic
