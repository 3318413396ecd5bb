import Verif.Model.DynamicWindow
import Verif.Model.Target
import Verif.Model.Buffer

/-!
# Model of `ergodic_control.hpp`

The model of `ErgodicControl<ModelT>` for any `ModelT` whose control is a body twist
(`TwistModel`).  Random draws of the replay buffer are an argument of `control`.
Simplifications: `phik_` starts as zeros (the code leaves it uninitialised until the first
`configTarget`); the unused member `collision_` is kept for reference only.
-/

namespace Ergodic
variable {F : Type} [Flt F]

/-- `rhodot` (ergodic_control.hpp:65-69). -/
def rhodot (rho gdx dbar : V3 F) (fdx : M3 F) : V3 F :=
  (gdx.neg.sub dbar).sub (fdx.t.mulVec rho)

/-- `class ErgodicControl` data members (ergodic_control.hpp:165-184). -/
structure ErgodicControl (F : Type) where
  model : TwistModel F
  collision : Collision F
  dt : F
  horizon : F
  resolution : F
  expl_weight : F
  steps : UInt32
  Rinv : M3 F
  ut : List (V3 F)
  phik : List F
  rhoT : V3 F
  map_pos : V2 F
  umin : V3 F
  umax : V3 F
  pose : V3 F
  basis : Basis F
  buffer : ReplayBuffer (V3 F)
  target : Target F

/-- the value of a C++ `bool` used as a number -/
def b2f (b : Bool) : F := if b then lit 1 0 else lit 0 0

namespace ErgodicControl

/-- `ErgodicControl::ErgodicControl` (ergodic_control.hpp:187-222). -/
def new (model : TwistModel F) (collision : Collision F)
    (dt horizon resolution exploration_weight : F) (num_basis buffer_size batch_size : Nat)
    (Rinv : M3 F) (umin umax : V3 F) : Res (ErgodicControl F) := do
  let steps ← numSteps horizon dt
  if steps = 1 then .throw .invalidArgument
  else
    .ok {
      model, collision, dt, horizon, resolution, expl_weight := exploration_weight, steps,
      Rinv,
      ut := List.replicate steps.toNat V3.zero,
      phik := List.replicate (num_basis * num_basis) (lit 0 0),
      rhoT := V3.zero,
      map_pos := ⟨lit 0 0, lit 0 0⟩,
      umin, umax,
      pose := V3.zero,
      basis := Basis.new (lit 0 0) (lit 0 0) num_basis,
      buffer := { buffer_size, batch_size },
      target := {} }

/-- `start, start + step, …`: the values of a loop variable advanced by `+=`
(ergodic_control.hpp:394-408). -/
def accumList (start step : F) : Nat → List F
  | 0 => []
  | n + 1 => start :: accumList (start +. step) step n

/-- The target grid of `configTarget` (ergodic_control.hpp:387-408): `ny` rows of `nx`
points.  When the `unsigned` product `nx * ny` wraps, the matrix has too few columns and
the writes throw. -/
def phiGrid (lx ly resolution : F) : Res (List (V2 F)) := do
  let nx0 ← axisLength (lit 0 0) lx resolution
  let ny0 ← axisLength (lit 0 0) ly resolution
  let nx := nx0 + 1
  let ny := ny0 + 1
  if (nx * ny).toNat < nx.toNat * ny.toNat then .throw .logicError
  else
    .ok ((accumList (lit 0 0) resolution ny.toNat).flatMap fun y =>
      (accumList (lit 0 0) resolution nx.toNat).map fun x => ⟨x, y⟩)

/-- `ErgodicControl::configTarget` (ergodic_control.hpp:362-416). -/
def configTarget (e : ErgodicControl F) (g : GridMap F) : Res (ErgodicControl F) :=
  let e := { e with map_pos := ⟨g.xmin, g.ymin⟩ }
  let mx := g.xmax -. g.xmin
  let my := g.ymax -. g.ymin
  if almostEqual mx e.basis.lx && almostEqual my e.basis.ly then .ok e
  else do
    let e := { e with basis := { e.basis with lx := mx, ly := my } }
    let phi_grid ← phiGrid mx my e.resolution
    let phi_vals := e.target.fill e.map_pos phi_grid
    let phik ← e.basis.spatialCoeff phi_vals phi_grid
    .ok { e with phik }

/-- The product `gradFourierBasis(x) * fourier_diff` (ergodic_control.hpp:427). -/
def gradTimes (b : Basis F) (x : V2 F) (fourier_diff : List F) : V2 F :=
  let dfk := b.gradFourierBasis x
  ⟨fsum (List.zipWith (fun d w => d.c0 *. w) dfk fourier_diff),
   fsum (List.zipWith (fun d w => d.c1 *. w) dfk fourier_diff)⟩

/-- `ErgodicControl::gradErgodicMetric` (ergodic_control.hpp:418-436); `xt` has `steps_`
columns. -/
def gradErgodicMetric (e : ErgodicControl F) (ck : List F) (xt : List (V3 F)) :
    List (V3 F) :=
  let diff := List.zipWith (fun l d => l *. d) e.basis.lamdak
    (List.zipWith (fun c p => c -. p) ck e.phik)
  xt.map fun x =>
    let d := gradTimes e.basis x.xy diff
    ⟨d.c0 *. e.expl_weight, d.c1 *. e.expl_weight, lit 0 0⟩

/-- one axis of `gradBarrier` (ergodic_control.hpp:457-471) -/
def barrierAxis (x l : F) : F :=
  let eps : F := lit 5 2
  let b := lit 0 0 +. lit 2 0 *. b2f (Flt.lt (l -. eps) x) *. (x -. (l -. eps))
  let b := b +. lit 2 0 *. b2f (Flt.lt x eps) *. (x -. eps)
  b *. lit 25 0

/-- `ErgodicControl::gradBarrier` (ergodic_control.hpp:453-474). -/
def gradBarrier (e : ErgodicControl F) (xt : List (V3 F)) : List (V3 F) :=
  xt.map fun x => ⟨barrierAxis x.c0 e.basis.lx, barrierAxis x.c1 e.basis.ly, lit 0 0⟩

/-- `std::clamp` with its precondition: undefined when `hi < lo`. -/
def clampR (v lo hi : F) : Res F := if Flt.lt hi lo then .ub else .ok (fclamp v lo hi)

/-- One iteration of `updateControl` (ergodic_control.hpp:444-449). -/
def newControl (e : ErgodicControl F) (x rho : V3 F) : Res (V3 F) := do
  let u := (e.Rinv.neg.mul (e.model.fdu x).t).mulVec rho
  let u0 ← clampR u.c0 e.umin.c0 e.umax.c0
  let u1 ← clampR u.c1 e.umin.c1 e.umax.c1
  let u2 ← clampR u.c2 e.umin.c2 e.umax.c2
  .ok ⟨u0, u1, u2⟩

/-- `ErgodicControl::updateControl` (ergodic_control.hpp:438-451): columns `i` of `xt` and
`rhot` in step; column `i` of `ut_` is replaced. -/
def updateLoop (e : ErgodicControl F) : List (V3 F) → List (V3 F) → Res (List (V3 F))
  | x :: xs, r :: rs => do
    let u ← e.newControl x r
    let rest ← updateLoop e xs rs
    .ok (u :: rest)
  | [], _ => .ok []
  | _ :: _, [] => .throw .logicError

/-- Shift of the control signal (ergodic_control.hpp:233-234): with fewer than two columns
`n_cols - 2` wraps and Armadillo throws. -/
def shift (ut : List (V3 F)) : Res (List (V3 F)) :=
  if ut.length < 2 then .throw .logicError else .ok (ut.drop 1 ++ [V3.zero])

/-- translation into the Fourier frame (ergodic_control.hpp:243-244) -/
def toFourier (p : V2 F) (x : V3 F) : V3 F := ⟨x.c0 -. p.c0, x.c1 -. p.c1, x.c2⟩

/-- `ErgodicControl::control` (ergodic_control.hpp:224-311); `draws` are the random
integers of this call. -/
def control (e : ErgodicControl F) (g : GridMap F) (x : V3 F) (draws : List Nat) :
    Res (ErgodicControl F × V3 F) := do
  let e ← configTarget { e with pose := x } g
  let ut ← shift e.ut
  let e := { e with ut }
  let traj ← RungeKutta.solve e.dt e.model.f e.pose e.ut e.horizon
  let total ← e.buffer.sampleMemory draws traj
  let xt_total := total.map (toFourier e.map_pos)
  if xt_total.length < e.steps.toNat then .throw .logicError
  else do
    let xt := xt_total.drop (xt_total.length - e.steps.toNat)
    let ck := e.basis.trajCoeff xt_total
    let edx := e.gradErgodicMetric ck xt
    let bdx := e.gradBarrier xt
    let rhot ← RungeKutta.solveBack e.dt rhodot e.model.fdx e.rhoT xt e.ut edx bdx e.horizon
    let ut' ← e.updateLoop xt rhot
    let e := { e with ut := ut' }
    let u ← col e.ut 0
    .ok (e, u)

/-- `ErgodicControl::optTraj` (ergodic_control.hpp:313-317). -/
def optTraj (e : ErgodicControl F) : Res (List (V3 F)) :=
  RungeKutta.solve e.dt e.model.f e.pose e.ut e.horizon

/-- `ErgodicControl::path` (ergodic_control.hpp:319-342).  `path.poses` has `steps_` slots;
the trajectory has as many columns, so every slot is written. -/
def path (e : ErgodicControl F) (map_frame_id : String) : Res (PathMsg F) := do
  let opt_traj ← RungeKutta.solve e.dt e.model.f e.pose e.ut e.horizon
  .ok { frame_id := map_frame_id
        poses := opt_traj.map fun x => poseMsg x.c0 x.c1 (normalizeAnglePI x.c2) }

/-- `ErgodicControl::addStateMemory` (ergodic_control.hpp:344-348). -/
def addStateMemory (e : ErgodicControl F) (x : V3 F) : ErgodicControl F :=
  { e with buffer := e.buffer.append x }

/-- `ErgodicControl::timeStep` (ergodic_control.hpp:350-354). -/
def timeStep (e : ErgodicControl F) : F := e.dt

/-- `ErgodicControl::setTarget` (ergodic_control.hpp:356-360). -/
def setTarget (e : ErgodicControl F) (t : Target F) : ErgodicControl F := { e with target := t }

end ErgodicControl
end Ergodic
