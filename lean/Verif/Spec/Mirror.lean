import Verif.Model.Exploration
import Verif.Spec.Grid
import Verif.Spec.Validate
import Verif.Spec.Collision
import Verif.Spec.Exploration
import Verif.Lemmas.Real

/-!
# Mirror images of the plane

Vocabulary of C132.  Flipping the first axis, the second, or both (half a turn); the axes may also be
displaced.
-/

namespace Ergodic

/-- A reflection of the plane: which axes are flipped, and where zero goes. -/
structure Mirror where
  fx : Bool
  fy : Bool
  ax : ℝ
  ay : ℝ

namespace Mirror

/-- direction of the first axis in the mirror -/
noncomputable def sx (m : Mirror) : ℝ := if m.fx then -1 else 1
/-- direction of the second axis in the mirror -/
noncomputable def sy (m : Mirror) : ℝ := if m.fy then -1 else 1
/-- sense of rotation in the mirror: reversed when one axis is flipped -/
noncomputable def turn (m : Mirror) : ℝ := m.sx * m.sy

/-- image of a point -/
noncomputable def point (m : Mirror) (p : V2 ℝ) : V2 ℝ := ⟨m.ax + m.sx * p.c0, m.ay + m.sy * p.c1⟩
/-- image of a velocity or a gradient in map coordinates -/
noncomputable def vec (m : Mirror) (v : V3 ℝ) : V3 ℝ := ⟨m.sx * v.c0, m.sy * v.c1, m.turn * v.c2⟩
/-- image of a body twist: forward stays forward, left becomes right when one axis is flipped -/
noncomputable def twist (m : Mirror) (u : V3 ℝ) : V3 ℝ := ⟨u.c0, m.turn * u.c1, m.turn * u.c2⟩

/-- The second pose is the image of the first; headings count by their direction. -/
def Poses (m : Mirror) (p p' : V3 ℝ) : Prop :=
  p'.c0 = m.ax + m.sx * p.c0 ∧ p'.c1 = m.ay + m.sy * p.c1 ∧
  Real.cos p'.c2 = m.sx * Real.cos p.c2 ∧ Real.sin p'.c2 = m.sy * Real.sin p.c2

/-- image of a Gaussian -/
noncomputable def gaussian (m : Mirror) (g : Gaussian ℝ) : Gaussian ℝ :=
  { mu := m.point g.mu
    cov := ⟨⟨g.cov.r0.c0, m.turn * g.cov.r0.c1⟩, ⟨m.turn * g.cov.r1.c0, g.cov.r1.c1⟩⟩
    cov_inv := ⟨⟨g.cov_inv.r0.c0, m.turn * g.cov_inv.r0.c1⟩,
      ⟨m.turn * g.cov_inv.r1.c0, g.cov_inv.r1.c1⟩⟩ }

/-- image of a target -/
noncomputable def target (m : Mirror) (t : Target ℝ) : Target ℝ := ⟨t.gaussians.map m.gaussian⟩

/-- The second map covers the image of what the first covers. -/
structure Extent (m : Mirror) (g g' : GridMap ℝ) : Prop where
  xmin : g'.xmin = if m.fx then m.ax - g.xmax else m.ax + g.xmin
  xmax : g'.xmax = if m.fx then m.ax - g.xmin else m.ax + g.xmax
  ymin : g'.ymin = if m.fy then m.ay - g.ymax else m.ay + g.ymin
  ymax : g'.ymax = if m.fy then m.ay - g.ymin else m.ay + g.ymax

/-- A cosine of frequency `k` keeps or changes its sign when the interval is flipped. -/
noncomputable def sign (m : Mirror) (k : Int × Int) : ℝ :=
  (if m.fx then (-1) ^ k.1 else 1) * (if m.fy then (-1) ^ k.2 else 1)

/-- The second controller has the same settings as the first and is in the mirrored state.  Where they
last planned from does not matter. -/
structure Controllers (m : Mirror) (e e' : ErgodicControl ℝ) : Prop where
  model : e'.model = e.model
  dt : e'.dt = e.dt
  horizon : e'.horizon = e.horizon
  resolution : e'.resolution = e.resolution
  weight : e'.expl_weight = e.expl_weight
  steps : e'.steps = e.steps
  Rinv : e'.Rinv = e.Rinv
  umin : e'.umin = e.umin
  umax : e'.umax = e.umax
  basis : e'.basis = e.basis
  ut : e'.ut = e.ut.map m.twist
  rhoT : e'.rhoT = m.vec e.rhoT
  phik : e'.phik = List.zipWith (fun k p => m.sign k * p) e.basis.k e.phik
  buffer_size : e'.buffer.buffer_size = e.buffer.buffer_size
  batch_size : e'.buffer.batch_size = e.buffer.batch_size
  memory : List.Forall₂ (fun a b => b.1 = a.1 ∧ m.Poses a.2 b.2) e.buffer.memory e'.buffer.memory
  target : e'.target = m.target e.target

/-- The settings have no side: unless both or neither axis is flipped, the limits of lateral and
rotational velocity are symmetric, and the control weights do not couple them with the forward
velocity. -/
def Fair (m : Mirror) (e : ErgodicControl ℝ) : Prop :=
  m.fx = m.fy ∨
    (e.umin.c1 = -e.umax.c1 ∧ e.umin.c2 = -e.umax.c2 ∧
      e.Rinv.r0.c1 = 0 ∧ e.Rinv.r0.c2 = 0 ∧ e.Rinv.r1.c0 = 0 ∧ e.Rinv.r2.c0 = 0)

/-- The map suits the controller: it has an extent, which along flipped axes is a multiple of the
resolution of the target grid, and is not confused with a previous, slightly different one. -/
structure Suits (m : Mirror) (e : ErgodicControl ℝ) (g : GridMap ℝ) : Prop where
  x : g.xmax - g.xmin ≠ 0
  y : g.ymax - g.ymin ≠ 0
  gridx : m.fx = true → ∃ n : ℕ, g.xmax - g.xmin = n * e.resolution
  gridy : m.fy = true → ∃ n : ℕ, g.ymax - g.ymin = n * e.resolution
  size : almostEqual (g.xmax - g.xmin) e.basis.lx = true → almostEqual (g.ymax - g.ymin) e.basis.ly = true →
    g.xmax - g.xmin = e.basis.lx ∧ g.ymax - g.ymin = e.basis.ly

/-- The second map shows the image of what the first shows. -/
structure Maps (m : Mirror) (g g' : GridMap ℝ) : Prop extends m.Extent g g' where
  xsize : g'.xsize = g.xsize
  ysize : g'.ysize = g.ysize
  resolution : g'.resolution = g.resolution
  right : g.xmax = g.xmin + g.xsize.toNat * g.resolution
  top : g.ymax = g.ymin + g.ysize.toNat * g.resolution
  size : g'.data.length = g.data.length
  cells : ∀ i j, i < g.ysize.toNat → j < g.xsize.toNat →
    cellAt g' (if m.fy then g.ysize.toNat - 1 - i else i) (if m.fx then g.xsize.toNat - 1 - j else j) = cellAt g i j

/-- The pose is in the map and, along flipped axes, not on an edge between two cells. -/
def Clear (m : Mirror) (g : GridMap ℝ) (p : V3 ℝ) : Prop :=
  InRect g p.c0 p.c1 ∧
  (m.fx = true → ∀ n : ℕ, 0 < n → n < g.xsize.toNat → p.c0 ≠ g.xmin + n * g.resolution) ∧
  (m.fy = true → ∀ n : ℕ, 0 < n → n < g.ysize.toNat → p.c1 ≠ g.ymin + n * g.resolution)

/-- The second node is in the mirrored state of the first. -/
structure Nodes (m : Mirror) (s s' : Expl ℝ) : Prop where
  ec : m.Controllers s.ec s'.ec
  collision : s'.collision = s.collision
  dwa : s'.dwa = s.dwa
  map_received : s'.map_received = s.map_received
  grid : s.map_received = true → m.Maps s.grid s'.grid
  val_dt : s'.val_dt = s.val_dt
  val_horizon : s'.val_horizon = s.val_horizon
  u : s'.u = m.twist s.u
  pose : s.pose_known = true → m.Poses s.pose s'.pose
  pose_known : s'.pose_known = s.pose_known
  follow_dwa : s'.follow_dwa = s.follow_dwa
  i : s'.i = s.i

/-- The pose a transform lookup yields. -/
noncomputable def poseOf (t : TransformMsg ℝ) : V3 ℝ := ⟨t.x, t.y, getYaw t.qx t.qy t.qz t.qw⟩

/-- The second node experiences the mirrored event: a mirrored map, any odometry, a mirrored transform and
the same draws. -/
inductive Events (m : Mirror) : Event ℝ → Event ℝ → Prop where
  | map {a b : OccupancyGrid ℝ} : m.Maps (mapOf a) (mapOf b) → Events m (.map a) (.map b)
  | odom (v w : V3 ℝ) : Events m (.odom v) (.odom w)
  | lost (draws : List Nat) : Events m (.tick none draws) (.tick none draws)
  | tick {a b : TransformMsg ℝ} (draws : List Nat) : m.Poses (poseOf a) (poseOf b) →
      Events m (.tick (some a) draws) (.tick (some b) draws)

/-- The twist of the node passes validation, and the simulated poses are clear of edges between cells. -/
def Passes (m : Mirror) (s : Expl ℝ) : Prop :=
  validateControl s.collision s.grid s.pose s.u s.val_dt s.val_horizon = .ok true ∧
  ∀ k n, numSteps s.val_horizon s.val_dt = .ok n → k < n.toNat →
    m.Clear s.grid (poseAfter s.u s.val_dt s.pose (k + 1))

/-- Nothing that depends on sides happens in the history of events: whenever the node iterates, its map
suits the controller and the detector, and the twist it plans, or follows, passes validation. -/
def Undisturbed (m : Mirror) : Expl ℝ → List (Event ℝ) → Prop
  | _, [] => True
  | s, ev :: es =>
    (∀ tf draws, ev = .tick tf draws → s.map_received = true → (s.localize tf).pose_known = true →
      m.Suits s.ec s.grid ∧ Sensible s.collision s.grid ∧
      ∀ t o, (s.localize tf).advanceDwa.replan draws = .ok (t, o) → m.Passes t) ∧
    ∀ t o, s.step ev = .ok (t, o) → Undisturbed m t es

end Mirror

/-- Two computations end alike, with related results. -/
def Alike {α β : Type} (R : α → β → Prop) : Res α → Res β → Prop
  | .ok a, .ok b => R a b
  | .throw e, .throw e' => e = e'
  | .ub, .ub => True
  | .timeout, .timeout => True
  | _, _ => False

/-- The line from the first cell to the second passes exactly half-way between two cells that are
neighbours across its longer axis; `(x, y)` is one of them. -/
def Halfway (x0 y0 x1 y1 : Int) : Prop :=
  ∃ x y : Int, (if |y1 - y0| ≤ |x1 - x0| then min x0 x1 ≤ x ∧ x ≤ max x0 x1 else min y0 y1 ≤ y ∧ y ≤ max y0 y1) ∧
    2 * |(x - x0) * (y1 - y0) - (y - y0) * (x1 - x0)| = max |x1 - x0| |y1 - y0|

end Ergodic
