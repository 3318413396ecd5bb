import Verif.Model.Exploration
import Verif.Model.Mapping

/-!
# The model with a meter

The functions an iteration of the control loop and the processing of a scan consist of, written once more so that each
keeps account of the elementary operations it performs: `Metered α` is an outcome together with the work done up to it,
whether the call returned, threw or became undefined.  Every price is a parameter.  `Verif.Lemmas.Metered` proves that
without the meter these are the functions of the model, outcome for outcome.
-/

namespace Ergodic

/-- What the elementary operations cost. -/
structure Prices where
  /-- `checkCell` (collision.cpp:216-243) -/
  cell : Nat
  /-- one evaluation of the robot model (integrator.hpp:179-182) -/
  flow : Nat
  /-- one evaluation of `rhodot` (integrator.hpp:189-192) -/
  adjoint : Nat
  /-- one basis function or its gradient at one point (basis.cpp:84-85, 99-103) -/
  wave : Nat
  /-- one Gaussian at one point (target.cpp:68-76) -/
  density : Nat
  /-- `updateCell` (mapping.cpp:341-348) -/
  update : Nat

/-- An outcome and the work done up to it. -/
structure Metered (α : Type) where
  work : Nat
  res : Res α

namespace Metered

/-- Sequencing: the work adds up; the second computation runs only when the first returned a value. -/
def bind {α β : Type} (m : Metered α) (f : α → Metered β) : Metered β :=
  match m.res with
  | .ok a => ⟨m.work + (f a).work, (f a).res⟩
  | .throw e => ⟨m.work, .throw e⟩
  | .ub => ⟨m.work, .ub⟩
  | .timeout => ⟨m.work, .timeout⟩

instance : Monad Metered where
  pure a := ⟨0, .ok a⟩
  bind := bind

/-- A computation whose work is not counted. -/
def free {α : Type} (r : Res α) : Metered α := ⟨0, r⟩

/-- A computation of a given price. -/
def charge {α : Type} (price : Nat) (r : Res α) : Metered α := ⟨price, r⟩

/-- A function of a given price applied to every entry. -/
def each {α β : Type} (price : Nat) (f : α → β) : List α → Metered (List β)
  | [] => free (.ok [])
  | x :: xs => do
    let y ← charge price (.ok (f x))
    let ys ← each price f xs
    free (.ok (y :: ys))

end Metered

variable {F : Type} [Flt F]
open Metered

namespace Meter
variable (p : Prices)

/-- `Collision.circleLoop` (collision.cpp:172-211). -/
def circleLoop (c : Collision F) (g : GridMap F) :
    Nat → Int → Int → Int → CollisionConfig → Metered (Bool × CollisionConfig)
  | 0, _, _, _, _ => free .timeout
  | fuel + 1, x, y, err, cfg =>
    if x < 0 then do
      let a ← charge p.cell (c.checkCell g cfg (i2u (cfg.cx - x)) (i2u (cfg.cy + y)))
      if a.1 then free (.ok (true, a.2)) else do
      let b ← charge p.cell (c.checkCell g a.2 (i2u (cfg.cx - y)) (i2u (cfg.cy - x)))
      if b.1 then free (.ok (true, b.2)) else do
      let d ← charge p.cell (c.checkCell g b.2 (i2u (cfg.cx + x)) (i2u (cfg.cy - y)))
      if d.1 then free (.ok (true, d.2)) else do
      let e ← charge p.cell (c.checkCell g d.2 (i2u (cfg.cx + y)) (i2u (cfg.cy + x)))
      if e.1 then free (.ok (true, e.2)) else
      let r := err
      let (y', err') := if r ≤ y then (y + 1, err + (2 * (y + 1) + 1)) else (y, err)
      let (x', err'') := if r > x ∨ err' > y' then (x + 1, err' + (2 * (x + 1) + 1)) else (x, err')
      circleLoop c g fuel x' y' err'' e.2
    else free (.ok (false, cfg))

/-- `Collision.bresenhamCircle` (collision.cpp:166-214). -/
def bresenhamCircle (c : Collision F) (g : GridMap F) (cfg : CollisionConfig) (r : Int) :
    Metered (Bool × CollisionConfig) :=
  circleLoop p c g (2 * r.toNat + 2) (-r) 0 (2 - 2 * r) cfg

/-- `Collision.searchLoop` (collision.cpp:154-161). -/
def searchLoop (c : Collision F) (g : GridMap F) :
    Nat → Int → CollisionConfig → Metered (Bool × CollisionConfig)
  | 0, _, _ => free .timeout
  | fuel + 1, r, cfg =>
    if r ≤ cfg.r_max then do
      let a ← bresenhamCircle p c g cfg r
      if a.1 then free (.ok (true, a.2)) else searchLoop c g fuel (r + 1) a.2
    else free (.ok (false, cfg))

/-- `Collision.search` (collision.cpp:148-164). -/
def search (c : Collision F) (g : GridMap F) (cfg : CollisionConfig) : Metered (Bool × CollisionConfig) :=
  searchLoop p c g ((cfg.r_max - cfg.r_bnd + 1).toNat + 1) cfg.r_bnd cfg

/-- `Collision.collisionCheck` (collision.cpp:126-141). -/
def collisionCheck (c : Collision F) (g : GridMap F) (pose : V3 F) : Metered Bool := do
  let cfg ← free (c.config g pose)
  let a ← search p c g cfg
  free (.ok a.1)

/-- `validateLoop` (numerics.hpp:318-327). -/
def validateLoop (c : Collision F) (g : GridMap F) (u : V3 F) (dt : F) : Nat → V3 F → Metered Bool
  | 0, _ => free (.ok true)
  | n + 1, x => do
    let x1 := integrateTwist x u dt
    let x2 : V3 F := { x1 with c2 := normalizeAnglePI x1.c2 }
    let hit ← collisionCheck p c g x2
    if hit then free (.ok false) else validateLoop c g u dt n x2

/-- `validateControl` (numerics.hpp:312-330). -/
def validateControl (c : Collision F) (g : GridMap F) (x0 u : V3 F) (dt horizon : F) : Metered Bool := do
  let steps ← free (numSteps horizon dt)
  validateLoop p c g u dt steps.toNat x0

/-- `DynamicWindow.rollout` (dynamic_window.cpp:241-251). -/
def rollout (d : DynamicWindow F) (g : GridMap F) (u : V3 F) : Nat → V3 F → Metered (Option F)
  | 0, _ => free (.ok none)
  | n + 1, pose => do
    let p1 := integrateTwist pose u d.dt
    let p2 : V3 F := { p1 with c2 := normalizeAnglePI p1.c2 }
    let hit ← collisionCheck p d.collision g p2
    if hit then free (.ok (some Flt.maxFin)) else rollout d g u n p2

/-- `DynamicWindow.objectiveTwist` (dynamic_window.cpp:237-256). -/
def objectiveTwist (d : DynamicWindow F) (g : GridMap F) (x0 vref u : V3 F) : Metered F := do
  let o ← rollout p d g u d.steps.toNat x0
  free (match o with
    | some c => .ok c
    | none =>
      let e := vref.sub u
      .ok (e.dot e))

/-- `DynamicWindow.trajLoop` (dynamic_window.cpp:266-283). -/
def trajLoop (d : DynamicWindow F) (g : GridMap F) (u : V3 F) (xt_ref : List (V3 F)) (tf : F) :
    Nat → V3 F → F → F → Metered F
  | 0, _, _, cost => free (.ok cost)
  | n + 1, pose, t, cost => do
    let p1 := integrateTwist pose u d.dt
    let p2 : V3 F := { p1 with c2 := normalizeAnglePI p1.c2 }
    let hit ← collisionCheck p d.collision g p2
    if hit then free (.ok Flt.maxFin)
    else do
      let j ← free (castU32 (Flt.round (Flt.ofInt (DynamicWindow.lastCol xt_ref.length) *. t /. tf)))
      let xr ← free (col xt_ref j.toNat)
      let e := xr.xy.sub p2.xy
      let cost1 := cost +. Flt.sqrt (e.dot e)
      let cost2 := cost1 +. fabs (normalizeAnglePI (normalizeAnglePI xr.c2 -. p2.c2))
      trajLoop d g u xt_ref tf n p2 (t +. d.dt) cost2

/-- `DynamicWindow.objectiveTraj` (dynamic_window.cpp:258-286). -/
def objectiveTraj (d : DynamicWindow F) (g : GridMap F) (x0 u : V3 F) (xt_ref : List (V3 F)) (tf : F) : Metered F :=
  trajLoop p d g u xt_ref tf d.steps.toNat x0 (lit 0 0) (lit 0 0)

/-- `DynamicWindow.wLoop` (dynamic_window.cpp:111-126 and 163-178). -/
def wLoop (cost : V3 F → Metered F) (vx vy dw : F) : Nat → F → F × V3 F → Metered (F × V3 F)
  | 0, _, s => free (.ok s)
  | n + 1, w, s => do
    let u : V3 F := ⟨vx, vy, w⟩
    let c ← cost u
    let s' := if Flt.lt c s.1 then (c, u) else s
    wLoop cost vx vy dw n (w +. dw) s'

/-- `DynamicWindow.vyLoop` (dynamic_window.cpp:108-128 and 160-180). -/
def vyLoop (cost : V3 F → Metered F) (vx w0 dvy dw : F) (nw : Nat) : Nat → F → F × V3 F → Metered (F × V3 F)
  | 0, _, s => free (.ok s)
  | n + 1, vy, s => do
    let s' ← wLoop cost vx vy dw nw w0 s
    vyLoop cost vx w0 dvy dw nw n (vy +. dvy) s'

/-- `DynamicWindow.vxLoop` (dynamic_window.cpp:105-130 and 157-182). -/
def vxLoop (cost : V3 F → Metered F) (vy0 w0 dvx dvy dw : F) (ny nw : Nat) :
    Nat → F → F × V3 F → Metered (F × V3 F)
  | 0, _, s => free (.ok s)
  | n + 1, vx, s => do
    let s' ← vyLoop cost vx w0 dvy dw nw ny vy0 s
    vxLoop cost vy0 w0 dvx dvy dw ny nw n (vx +. dvx) s'

/-- `DynamicWindow.searchWindow` (dynamic_window.cpp:96-138 and 145-190). -/
def searchWindow (d : DynamicWindow F) (vb : V3 F) (cost : V3 F → Metered F) : Metered (Bool × V3 F) := do
  let w := d.window vb
  let s ← vxLoop cost w.1.c1 w.1.c2 w.2.c0 w.2.c1 w.2.c2 d.vy_samples.toNat
    d.vth_samples.toNat d.vx_samples.toNat w.1.c0 (Flt.maxFin, V3.zero)
  if almostEqual s.1 Flt.maxFin then free (.ok (false, s.2)) else free (.ok (true, s.2))

/-- `DynamicWindow.controlTwist` (dynamic_window.cpp:92-139). -/
def controlTwist (d : DynamicWindow F) (g : GridMap F) (x0 vb vref : V3 F) : Metered (Bool × V3 F) :=
  searchWindow d vb (fun u => objectiveTwist p d g x0 vref u)

/-- `DynamicWindow.controlTraj` (dynamic_window.cpp:141-191). -/
def controlTraj (d : DynamicWindow F) (g : GridMap F) (x0 vb : V3 F) (xt_ref : List (V3 F)) (dt_ref : F) :
    Metered (Bool × V3 F) :=
  let tf := Flt.ofInt xt_ref.length *. dt_ref
  searchWindow d vb (fun u => objectiveTraj p d g x0 u xt_ref tf)

/-- `RungeKutta.step` (integrator.hpp:176-184). -/
def step (dt : F) (f : V3 F → V3 F → Res (V3 F)) (x u : V3 F) : Metered (V3 F) := do
  let k1 ← charge p.flow (f x u)
  let k2 ← charge p.flow (f (x.add (V3.smul dt (V3.smul (lit 5 1) k1))) u)
  let k3 ← charge p.flow (f (x.add (V3.smul dt (V3.smul (lit 5 1) k2))) u)
  let k4 ← charge p.flow (f (x.add (V3.smul dt k3)) u)
  free (.ok (x.add (V3.smul (dt /. lit 6 0)
    (((k1.add (V3.smul (lit 2 0) k2)).add (V3.smul (lit 2 0) k3)).add k4))))

/-- `RungeKutta.solveLoop` (integrator.hpp:144-149). -/
def solveLoop (dt : F) (f : V3 F → V3 F → Res (V3 F)) (ut : List (V3 F)) :
    Nat → Nat → V3 F → Metered (List (V3 F))
  | 0, _, _ => free (.ok [])
  | n + 1, i, x => do
    let u ← free (col ut i)
    let x1 ← step p dt f x u
    let x2 : V3 F := { x1 with c2 := normalizeAnglePI x1.c2 }
    let rest ← solveLoop dt f ut n (i + 1) x2
    free (.ok (x2 :: rest))

/-- `RungeKutta.solve` (integrator.hpp:135-152). -/
def solve (dt : F) (f : V3 F → V3 F → Res (V3 F)) (x0 : V3 F) (ut : List (V3 F)) (horizon : F) :
    Metered (List (V3 F)) := do
  let steps ← free (numSteps horizon dt)
  solveLoop p dt f ut steps.toNat 0 x0

/-- `RungeKutta.stepBack` (integrator.hpp:186-194). -/
def stepBack (dt : F) (func : CoStateFunc F) (rho gdx dbar : V3 F) (fdx : M3 F) : Metered (V3 F) := do
  let k1 ← charge p.adjoint (.ok (func rho gdx dbar fdx))
  let k2 ← charge p.adjoint (.ok (func (rho.sub (V3.smul dt (V3.smul (lit 5 1) k1))) gdx dbar fdx))
  let k3 ← charge p.adjoint (.ok (func (rho.sub (V3.smul dt (V3.smul (lit 5 1) k2))) gdx dbar fdx))
  let k4 ← charge p.adjoint (.ok (func (rho.sub (V3.smul dt k3)) gdx dbar fdx))
  free (.ok (rho.sub (V3.smul (dt /. lit 6 0)
    (((k1.add (V3.smul (lit 2 0) k2)).add (V3.smul (lit 2 0) k3)).add k4))))

/-- `RungeKutta.solveBackLoop` (integrator.hpp:166-171). -/
def solveBackLoop (dt : F) (func : CoStateFunc F) (fdx : V3 F → V3 F → M3 F)
    (xt ut edx bdx : List (V3 F)) : Nat → V3 F → List (V3 F) → Metered (List (V3 F))
  | 0, _, acc => free (.ok acc)
  | i + 1, rho, acc => do
    let e ← free (col edx i)
    let b ← free (col bdx i)
    let x ← free (col xt i)
    let u ← free (col ut i)
    let rho' ← stepBack p dt func rho e b (fdx x u)
    solveBackLoop dt func fdx xt ut edx bdx i rho' (rho' :: acc)

/-- `RungeKutta.solveBack` (integrator.hpp:154-174). -/
def solveBack (dt : F) (func : CoStateFunc F) (fdx : V3 F → V3 F → M3 F) (rhoT : V3 F)
    (xt ut edx bdx : List (V3 F)) (horizon : F) : Metered (List (V3 F)) := do
  let steps ← free (numSteps horizon dt)
  solveBackLoop p dt func fdx xt ut edx bdx steps.toNat rhoT []

/-- `Basis.trajCoeff` (basis.cpp:109-120): the basis functions at each point of the trajectory.  The order of the two
loops is the model's, the number of evaluations the code's. -/
def coefficients (b : Basis F) (xt : List (V3 F)) : List (Int × Int) → Metered (List F)
  | [] => free (.ok [])
  | k :: ks => do
    let vs ← each p.wave (fun x : V3 F => b.fk x.xy k) xt
    let rest ← coefficients b xt ks
    free (.ok ((lit 1 0 /. Flt.ofInt xt.length) *. fsum vs :: rest))

/-- `Basis.spatialCoeff` (basis.cpp:122-133). -/
def spatialLoop (b : Basis F) (phi_vals : List F) (phi_grid : List (V2 F)) : List (Int × Int) → Metered (List F)
  | [] => free (.ok [])
  | k :: ks => do
    let vs ← each p.wave (fun x : V2 F => b.fk x k) phi_grid
    let rest ← spatialLoop b phi_vals phi_grid ks
    free (.ok (fsum (List.zipWith (fun w v => w *. v) vs phi_vals) :: rest))

/-- `Basis.spatialCoeff` (basis.cpp:122-133). -/
def spatialCoeff (b : Basis F) (phi_vals : List F) (phi_grid : List (V2 F)) : Metered (List F) :=
  if phi_vals.length < phi_grid.length then free (.throw .logicError)
  else spatialLoop p b phi_vals phi_grid b.k

/-- `Target.evaluate` at every point (target.cpp:68-76, 81-85). -/
def evaluateAll (t : Target F) (trans : V2 F) : List (V2 F) → Metered (List F)
  | [] => free (.ok [])
  | q :: qs => do
    let vs ← each p.density (fun g : Gaussian F => g.evalTrans q trans) t.gaussians
    let rest ← evaluateAll t trans qs
    free (.ok (vs.foldl (fun val w => val +. w) (lit 0 0) :: rest))

/-- `Target.fill` (target.cpp:78-89). -/
def fill (t : Target F) (trans : V2 F) (phi_grid : List (V2 F)) : Metered (List F) := do
  let phi_vals ← evaluateAll p t trans phi_grid
  let s := fsum phi_vals
  free (.ok (phi_vals.map fun v => v /. s))

/-- `ErgodicControl.configTarget` (ergodic_control.hpp:362-416). -/
def configTarget (e : ErgodicControl F) (g : GridMap F) : Metered (ErgodicControl F) :=
  let e := { e with map_pos := ⟨g.xmin, g.ymin⟩ }
  let mx := g.xmax -. g.xmin
  let my := g.ymax -. g.ymin
  if almostEqual mx e.basis.lx && almostEqual my e.basis.ly then free (.ok e)
  else do
    let e := { e with basis := { e.basis with lx := mx, ly := my } }
    let phi_grid ← free (ErgodicControl.phiGrid mx my e.resolution)
    let phi_vals ← fill p e.target e.map_pos phi_grid
    let phik ← spatialCoeff p e.basis phi_vals phi_grid
    free (.ok { e with phik })

/-- `ErgodicControl.gradErgodicMetric` (ergodic_control.hpp:418-436). -/
def gradLoop (e : ErgodicControl F) (diff : List F) : List (V3 F) → Metered (List (V3 F))
  | [] => free (.ok [])
  | x :: xs => do
    let dfk ← each p.wave (e.basis.dfk x.xy) e.basis.k
    let rest ← gradLoop e diff xs
    let d : V2 F := ⟨fsum (List.zipWith (fun d w => d.c0 *. w) dfk diff),
      fsum (List.zipWith (fun d w => d.c1 *. w) dfk diff)⟩
    free (.ok ((⟨d.c0 *. e.expl_weight, d.c1 *. e.expl_weight, lit 0 0⟩ : V3 F) :: rest))

/-- `ErgodicControl.gradErgodicMetric` (ergodic_control.hpp:418-436). -/
def gradErgodicMetric (e : ErgodicControl F) (ck : List F) (xt : List (V3 F)) : Metered (List (V3 F)) :=
  gradLoop p e (List.zipWith (fun l d => l *. d) e.basis.lamdak (List.zipWith (fun c p => c -. p) ck e.phik)) xt

/-- `ErgodicControl.control` (ergodic_control.hpp:224-311). -/
def control (e : ErgodicControl F) (g : GridMap F) (x : V3 F) (draws : List Nat) :
    Metered (ErgodicControl F × V3 F) := do
  let e ← configTarget p { e with pose := x } g
  let ut ← free (ErgodicControl.shift e.ut)
  let e := { e with ut }
  let traj ← solve p e.dt e.model.f e.pose e.ut e.horizon
  let total ← free (e.buffer.sampleMemory draws traj)
  let xt_total := total.map (ErgodicControl.toFourier e.map_pos)
  if xt_total.length < e.steps.toNat then free (.throw .logicError)
  else do
    let xt := xt_total.drop (xt_total.length - e.steps.toNat)
    let ck ← coefficients p e.basis xt_total e.basis.k
    let edx ← gradErgodicMetric p e ck xt
    let bdx := e.gradBarrier xt
    let rhot ← solveBack p e.dt rhodot e.model.fdx e.rhoT xt e.ut edx bdx e.horizon
    let ut' ← free (e.updateLoop xt rhot)
    let e := { e with ut := ut' }
    let u ← free (col e.ut 0)
    free (.ok (e, u))

/-- `ErgodicControl.path` (ergodic_control.hpp:319-342). -/
def path (e : ErgodicControl F) (map_frame_id : String) : Metered (PathMsg F) := do
  let opt_traj ← solve p e.dt e.model.f e.pose e.ut e.horizon
  free (.ok (PathMsg.mk map_frame_id (opt_traj.map fun x => poseMsg x.c0 x.c1 (normalizeAnglePI x.c2))))

/-- `Expl.replan` (exploration.hpp:230-236). -/
def replan (s : Expl F) (draws : List Nat) : Metered (Expl F × List (Out F)) :=
  if s.follow_dwa then free (.ok (s, []))
  else do
    let a ← control p s.ec s.grid s.pose draws
    let q ← path p a.1 s.map_frame_id
    free (.ok ({ s with ec := a.1, u := a.2 }, [.trajectory q]))

/-- `Expl.avoid` (exploration.hpp:238-279). -/
def avoid (s : Expl F) : Metered (Expl F × List (Out F)) := do
  let valid ← validateControl p s.collision s.grid s.pose s.u s.val_dt s.val_horizon
  if valid then free (.ok (s, []))
  else if s.follow_dwa then do
    let r ← controlTwist p s.dwa s.grid s.pose s.vb s.u
    free (.ok ({ s with u := r.2, follow_dwa := false }, []))
  else do
    let opt_traj ← solve p s.ec.dt s.ec.model.f s.ec.pose s.ec.ut s.ec.horizon
    let r ← controlTraj p s.dwa s.grid s.pose s.vb opt_traj s.ec.timeStep
    let s := { s with u := r.2, follow_dwa := r.1 }
    if r.1 then do
      let q ← free (constTwistPath s.map_frame_id s.pose s.u s.dwa.dt s.dwa.horizon)
      free (.ok ({ s with i := 0 }, [.dwaPath q]))
    else free (.ok (s, []))

/-- `Expl.iteration` (exploration.hpp:197-292). -/
def iteration (s : Expl F) (tf : Option (TransformMsg F)) (draws : List Nat) : Metered (Expl F × List (Out F)) := do
  let s := s.localize tf
  if s.map_received && s.pose_known then do
    let s := s.advanceDwa
    let a ← replan p s draws
    let b ← avoid p a.1
    free (.ok (b.1, a.2 ++ b.2 ++ [.twist b.1.u]))
  else free (.ok (s, []))

/-- `Expl.step`: the callbacks perform none of the operations counted. -/
def react (s : Expl F) : Event F → Metered (Expl F × List (Out F))
  | .map msg => free (.ok (s.mapCallback msg, []))
  | .odom vb => free (.ok (s.odomCallback vb, []))
  | .tick tf draws => iteration p s tf draws

/-- `Expl.run`. -/
def run (s : Expl F) : List (Event F) → Metered (Expl F × List (Out F))
  | [] => free (.ok (s, []))
  | e :: es => do
    let a ← react p s e
    let b ← run a.1 es
    free (.ok (b.1, a.2 ++ b.2))

/-! ## A scan -/

/-- `OccupancyMapper.vertLoop` (mapping.cpp:143-155). -/
def vertLoop (m : OccupancyMapper F) (x0 s : Int) : Nat → Int → GridMap F → Metered (GridMap F)
  | 0, _, g => free (.ok g)
  | n + 1, y, g => do
    let g ← charge p.update (m.updateCell g x0 y m.log_odds_free)
    vertLoop m x0 s n (y + s) g

/-- `OccupancyMapper.horzLoop` (mapping.cpp:168-180). -/
def horzLoop (m : OccupancyMapper F) (y0 s : Int) : Nat → Int → GridMap F → Metered (GridMap F)
  | 0, _, g => free (.ok g)
  | n + 1, x, g => do
    let g ← charge p.update (m.updateCell g x y0 m.log_odds_free)
    horzLoop m y0 s n (x + s) g

/-- `OccupancyMapper.lineLowLoop` (mapping.cpp:263-280). -/
def lineLowLoop (m : OccupancyMapper F) (dx dy yi : Int) :
    Nat → Int → Int → Int → Int → GridMap F → Metered (GridMap F)
  | 0, _, _, _, _, g => free (.ok g)
  | n + 1, x, y, D, ctr, g => do
    let g ← if ctr ≠ 0 then charge p.update (m.updateCell g x y m.log_odds_free) else free (.ok g)
    let y' := if D > 0 then y + yi else y
    let D' := if D > 0 then D - 2 * dx else D
    lineLowLoop m dx dy yi n (x + 1) y' (D' + 2 * dy) (ctr + 1) g

/-- `OccupancyMapper.lineLow` (mapping.cpp:245-281). -/
def lineLow (m : OccupancyMapper F) (g : GridMap F) (x0 y0 x1 y1 : Int) : Metered (GridMap F) :=
  let dx := x1 - x0
  let dy0 := y1 - y0
  let yi : Int := if dy0 < 0 then -1 else 1
  let dy := if dy0 < 0 then -dy0 else dy0
  lineLowLoop p m dx dy yi (x1 - x0).toNat x0 y0 (2 * dy - dx) 0 g

/-- `OccupancyMapper.lineHighLoop` (mapping.cpp:301-318). -/
def lineHighLoop (m : OccupancyMapper F) (dx dy xi : Int) :
    Nat → Int → Int → Int → Int → GridMap F → Metered (GridMap F)
  | 0, _, _, _, _, g => free (.ok g)
  | n + 1, x, y, D, ctr, g => do
    let g ← if ctr ≠ 0 then charge p.update (m.updateCell g x y m.log_odds_free) else free (.ok g)
    let x' := if D > 0 then x + xi else x
    let D' := if D > 0 then D - 2 * dy else D
    lineHighLoop m dx dy xi n x' (y + 1) (D' + 2 * dx) (ctr + 1) g

/-- `OccupancyMapper.lineHigh` (mapping.cpp:283-319). -/
def lineHigh (m : OccupancyMapper F) (g : GridMap F) (x0 y0 x1 y1 : Int) : Metered (GridMap F) :=
  let dx0 := x1 - x0
  let dy := y1 - y0
  let xi : Int := if dx0 < 0 then -1 else 1
  let dx := if dx0 < 0 then -dx0 else dx0
  lineHighLoop p m dx dy xi (y1 - y0).toNat x0 y0 (2 * dx - dy) 0 g

/-- `OccupancyMapper.lineDiagLoop` (mapping.cpp:332-338). -/
def lineDiagLoop (m : OccupancyMapper F) (xi yi x1 y1 : Int) : Nat → Int → Int → GridMap F → Metered (GridMap F)
  | 0, _, _, _ => free .timeout
  | fuel + 1, x, y, g =>
    if x ≠ x1 ∧ y ≠ y1 then do
      let g ← charge p.update (m.updateCell g x y m.log_odds_free)
      lineDiagLoop m xi yi x1 y1 fuel (x + xi) (y + yi) g
    else free (.ok g)

/-- `OccupancyMapper.lineDiag` (mapping.cpp:321-339). -/
def lineDiag (m : OccupancyMapper F) (g : GridMap F) (x0 y0 x1 y1 : Int) : Metered (GridMap F) :=
  let dx := x1 - x0
  let dy := y1 - y0
  let xi : Int := if dx < 0 then -1 else 1
  let yi : Int := if dy < 0 then -1 else 1
  lineDiagLoop p m xi yi x1 y1 (dx.natAbs + 1) x0 y0 g

/-- `OccupancyMapper.rayTrace` (mapping.cpp:130-243). -/
def rayTrace (m : OccupancyMapper F) (g : GridMap F) (x0 y0 x1 y1 : Int) : Metered (GridMap F) :=
  let dx := x1 - x0
  let dy := y1 - y0
  if dx = 0 then
    if dy < 0 then vertLoop p m x0 (-1) (y0 - y1).toNat y0 g
    else vertLoop p m x0 1 (y1 - y0).toNat y0 g
  else if dy = 0 then
    if dx < 0 then horzLoop p m y0 (-1) (x0 - x1).toNat x0 g
    else horzLoop p m y0 1 (x1 - x0).toNat x0 g
  else if dy.natAbs < dx.natAbs then
    if x0 > x1 then do
      let g ← charge p.update (m.updateCell g x0 y0 m.log_odds_free)
      lineLow p m g x1 y1 x0 y0
    else do
      let g ← charge p.update (m.updateCell g x0 y0 m.log_odds_free)
      lineLow p m g x0 y0 x1 y1
  else if dy.natAbs > dx.natAbs then
    if y0 > y1 then do
      let g ← charge p.update (m.updateCell g x0 y0 m.log_odds_free)
      lineHigh p m g x1 y1 x0 y0
    else do
      let g ← charge p.update (m.updateCell g x0 y0 m.log_odds_free)
      lineHigh p m g x0 y0 x1 y1
  else if dy.natAbs = dx.natAbs then lineDiag p m g x0 y0 x1 y1
  else free (.throw .invalidArgument)

/-- `OccupancyMapper.beam` (mapping.cpp:99-124). -/
def beam (m : OccupancyMapper F) (scan : LaserScan F) (Tms : M3 F) (psg : UInt32 × UInt32)
    (beam_angle range : F) (g : GridMap F) : Metered (GridMap F) :=
  if Flt.lt scan.range_max range || Flt.lt range scan.range_min then free (.ok g)
  else do
    let pt := Tms.mulVec (polar2CartesianHomo beam_angle range)
    let ptg ← free (g.world2Grid pt.c0 pt.c1)
    if g.gridBounds ptg.1 ptg.2 then do
      let g ← rayTrace p m g (u2i psg.2) (u2i psg.1) (u2i ptg.2) (u2i ptg.1)
      charge p.update (m.updateCell g (u2i ptg.2) (u2i ptg.1) m.log_odds_occ)
    else free (.ok g)

/-- `OccupancyMapper.beamLoop` (mapping.cpp:97-125). -/
def beamLoop (m : OccupancyMapper F) (scan : LaserScan F) (Tms : M3 F)
    (psg : UInt32 × UInt32) : List F → F → GridMap F → Metered (GridMap F)
  | [], _, g => free (.ok g)
  | r :: rs, a, g => do
    let g ← beam p m scan Tms psg a r g
    beamLoop m scan Tms psg rs (a +. scan.angle_increment) g

/-- `OccupancyMapper.updateMap` (mapping.cpp:77-128). -/
def updateMap (m : OccupancyMapper F) (g : GridMap F) (scan : LaserScan F) (pose : V3 F) :
    Metered (Bool × GridMap F) := do
  let psg ← free (g.world2Grid pose.c0 pose.c1)
  if ¬ g.gridBounds psg.1 psg.2 then free (.ok (false, g))
  else do
    let Tms := (transform2d pose.c0 pose.c1 pose.c2).mul m.Tbs
    let g ← beamLoop p m scan Tms psg scan.ranges scan.angle_min g
    free (.ok (true, g))

end Meter
end Ergodic
