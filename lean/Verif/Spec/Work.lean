import Verif.Model.Metered
import Verif.Spec.Mapping

/-!
# Specification vocabulary: what an iteration may cost

Bounds on the work of the control loop, from the node's parameters, the range `R` of a search for obstacles in cells and
the number of samples of the target taken on the map.
-/

namespace Ergodic
variable {F : Type} [Flt F]

/-- The columns of a horizon `T` divided into steps `dt` (none when the number cannot be converted). -/
def rounds (dt T : F) : Nat :=
  match castU32 (fabs (T /. dt)) with
  | .ok n => n.toNat
  | _ => 0

/-- How far, in cells of the map `g`, the detector `c` looks. -/
def lookout (c : Collision F) (g : GridMap F) : Nat :=
  match castI32 (Flt.floor (c.search_radius /. g.resolution)) with
  | .ok r => r.toNat
  | _ => 0

/-- The points at which the target is sampled on the map `g`. -/
def targetPoints (resolution : F) (g : GridMap F) : Nat :=
  match ErgodicControl.phiGrid (g.xmax -. g.xmin) (g.ymax -. g.ymin) resolution with
  | .ok l => l.length
  | _ => 0

/-- A collision query looking `R` cells far: at most `8 r` cells on each of the circles `1, …, R`. -/
def queryPrice (p : Prices) (R : Nat) : Nat := p.cell * (4 * R * (R + 1))

/-- Sampling the target at `P` points: every Gaussian and every basis function at each. -/
def targetPrice (p : Prices) (e : ErgodicControl F) (P : Nat) : Nat :=
  P * (p.density * e.target.gaussians.length + p.wave * e.basis.k.length)

/-- Planning on a map of known size: four evaluations of the model per column, four of the co-state's derivative, and
every basis function at every remembered or planned state. -/
def planPrice (p : Prices) (e : ErgodicControl F) : Nat :=
  p.flow * (4 * rounds e.dt e.horizon) + p.adjoint * (4 * rounds e.dt e.horizon) +
    p.wave * (e.basis.k.length * (e.buffer.batch_size + rounds e.dt e.horizon + e.steps.toNat))

/-- Choosing a twist in the window: as many queries as samples times steps. -/
def windowPrice (p : Prices) (d : DynamicWindow F) (R : Nat) : Nat :=
  d.vx_samples.toNat * (d.vy_samples.toNat * (d.vth_samples.toNat * (d.steps.toNat * queryPrice p R)))

/-- An iteration: the target, the plan, its publication, the check of the twist, and a trajectory and a search for
another twist. -/
def iterationPrice (p : Prices) (s : Expl F) (P R R' : Nat) : Nat :=
  targetPrice p s.ec P + planPrice p s.ec + p.flow * (8 * rounds s.ec.dt s.ec.horizon) +
    rounds s.val_dt s.val_horizon * queryPrice p R + windowPrice p s.dwa R'

/-- The map has the size the controller is set up for. -/
def SameSize (e : ErgodicControl F) (g : GridMap F) : Prop :=
  almostEqual (g.xmax -. g.xmin) e.basis.lx = true ∧ almostEqual (g.ymax -. g.ymin) e.basis.ly = true

/-- How many of the events are iterations of the control loop. -/
def iterations : List (Event F) → Nat
  | [] => 0
  | .tick _ _ :: es => iterations es + 1
  | _ :: es => iterations es

/-- Every map of a history, the one held at first included, allows at most `P` samples of the target and `R` and `R'`
cells of search. -/
def MapsWithin (s : Expl F) (es : List (Event F)) (P R R' : Nat) : Prop :=
  ∀ g, (g = s.grid ∨ ∃ m, Event.map m ∈ es ∧ g = GridMap.assign m) →
    targetPoints s.ec.resolution g ≤ P ∧ lookout s.collision g ≤ R ∧ lookout s.dwa.collision g ≤ R'

/-- Every map of a history measures `w` by `h`, numbers the code finds equal to themselves. -/
structure OneSize (s : Expl F) (es : List (Event F)) (w h : F) : Prop where
  held : s.map_received = true → s.grid.xmax -. s.grid.xmin = w ∧ s.grid.ymax -. s.grid.ymin = h
  received : ∀ m, Event.map m ∈ es → (GridMap.assign m).xmax -. (GridMap.assign m).xmin = w ∧
    (GridMap.assign m).ymax -. (GridMap.assign m).ymin = h
  width : almostEqual w w = true
  height : almostEqual h h = true

/-- A scan taken into a map of `w` by `h` cells: for every valid return as many updates as the longer side has cells. -/
def scanPrice (p : Prices) (w h : Nat) (scan : LaserScan F) : Nat :=
  p.update * (scan.ranges.countP (fun r => decide (RangeValid scan r)) * max w h)

/-- The cells between two cells, along the longer side and with both of them. -/
def span (a b : UInt32 × UInt32) : Nat :=
  max ((b.1.toNat : Int) - a.1.toNat).natAbs ((b.2.toNat : Int) - a.2.toNat).natAbs + 1

/-- The cells of a beam, none if it does not end on the map. -/
def strokeCells (src : UInt32 × UInt32) : Option (UInt32 × UInt32) → Nat
  | some hit => span src hit
  | none => 0

/-- The cells of all beams of a scan that end on the map, the cell of the sensor's base being `src`. -/
def scanCells (g : GridMap F) (Tms : M3 F) (scan : LaserScan F) (src : UInt32 × UInt32) : List F → Nat → Nat
  | [], _ => 0
  | r :: rs, k =>
    strokeCells src (beamHit g Tms scan k r) + scanCells g Tms scan src rs (k + 1)

end Ergodic
