import Verif.Spec.MirrorWindow
import Verif.Model.Mapping

/-!
# The plane with its axes exchanged

Vocabulary of C133.  What was the first coordinate becomes the second and the other way round: the plane
is reflected in its diagonal.
-/

namespace Ergodic
namespace Exchange

/-- image of a point -/
def point (p : V2 ℝ) : V2 ℝ := ⟨p.c1, p.c0⟩
/-- image of a velocity or a gradient in map coordinates -/
noncomputable def vec (v : V3 ℝ) : V3 ℝ := ⟨v.c1, v.c0, -v.c2⟩
/-- image of a body twist: forward stays forward, left becomes right -/
noncomputable def twist (u : V3 ℝ) : V3 ℝ := ⟨u.c0, -u.c1, -u.c2⟩

/-- The second pose is the image of the first; headings count by their direction. -/
def Poses (p p' : V3 ℝ) : Prop :=
  p'.c0 = p.c1 ∧ p'.c1 = p.c0 ∧ Real.cos p'.c2 = Real.sin p.c2 ∧ Real.sin p'.c2 = Real.cos p.c2

/-- image of a covariance -/
def square (a : M2 ℝ) : M2 ℝ := ⟨⟨a.r1.c1, a.r1.c0⟩, ⟨a.r0.c1, a.r0.c0⟩⟩

/-- image of a Gaussian -/
def gaussian (g : Gaussian ℝ) : Gaussian ℝ := { mu := point g.mu, cov := square g.cov, cov_inv := square g.cov_inv }

/-- image of a target -/
def target (t : Target ℝ) : Target ℝ := ⟨t.gaussians.map gaussian⟩

/-- The second map covers the image of what the first covers. -/
structure Extent (g g' : GridMap ℝ) : Prop where
  xmin : g'.xmin = g.ymin
  xmax : g'.xmax = g.ymax
  ymin : g'.ymin = g.xmin
  ymax : g'.ymax = g.xmax

/-- The second controller has the same settings as the first and is in the image of its state: the
coefficient of a pair of frequencies is that of the exchanged pair.  The frequencies and their weights are
those the constructor lists. -/
structure Controllers (e e' : ErgodicControl ℝ) : Prop where
  model : e'.model = e.model
  dt : e'.dt = e.dt
  horizon : e'.horizon = e.horizon
  resolution : e'.resolution = e.resolution
  weight : e'.expl_weight = e.expl_weight
  steps : e'.steps = e.steps
  Rinv : e'.Rinv = e.Rinv
  umin : e'.umin = e.umin
  umax : e'.umax = e.umax
  listed : ∃ n, e.basis.k = Basis.numbers n ∧ e.basis.lamdak = (Basis.numbers n).map Basis.weight
  k : e'.basis.k = e.basis.k
  lamdak : e'.basis.lamdak = e.basis.lamdak
  lx : e'.basis.lx = e.basis.ly
  ly : e'.basis.ly = e.basis.lx
  ut : e'.ut = e.ut.map twist
  rhoT : e'.rhoT = vec e.rhoT
  phik : (e'.basis.k.zip e'.phik).Perm ((e.basis.k.zip e.phik).map fun kp => (kp.1.swap, kp.2))
  buffer_size : e'.buffer.buffer_size = e.buffer.buffer_size
  batch_size : e'.buffer.batch_size = e.buffer.batch_size
  memory : List.Forall₂ (fun a b => b.1 = a.1 ∧ Poses a.2 b.2) e.buffer.memory e'.buffer.memory
  target : e'.target = Exchange.target e.target

/-- The settings have no side: the limits of lateral and rotational velocity are symmetric, and the
control weights do not couple them with the forward velocity. -/
def Fair (e : ErgodicControl ℝ) : Prop :=
  e.umin.c1 = -e.umax.c1 ∧ e.umin.c2 = -e.umax.c2 ∧
    e.Rinv.r0.c1 = 0 ∧ e.Rinv.r0.c2 = 0 ∧ e.Rinv.r1.c0 = 0 ∧ e.Rinv.r2.c0 = 0

/-- The second map shows the image of what the first shows: its columns are the other's rows. -/
structure Maps (g g' : GridMap ℝ) : Prop extends Extent g g' where
  xsize : g'.xsize = g.ysize
  ysize : g'.ysize = g.xsize
  resolution : g'.resolution = g.resolution
  size : g'.data.length = g.data.length
  cells : ∀ i j, i < g.ysize.toNat → j < g.xsize.toNat → cellAt g' j i = cellAt g i j

/-- The second node is in the image of the state of the first. -/
structure Nodes (s s' : Expl ℝ) : Prop where
  ec : Controllers s.ec s'.ec
  collision : s'.collision = s.collision
  dwa : s'.dwa = s.dwa
  map_received : s'.map_received = s.map_received
  grid : s.map_received = true → Maps s.grid s'.grid
  val_dt : s'.val_dt = s.val_dt
  val_horizon : s'.val_horizon = s.val_horizon
  vb : s'.vb = twist s.vb
  u : s'.u = twist s.u
  pose : s.pose_known = true → Poses s.pose s'.pose
  pose_known : s'.pose_known = s.pose_known
  follow_dwa : s'.follow_dwa = s.follow_dwa
  i : s'.i = s.i

/-- The second node experiences the image of the event: the map, the odometry and the transform with the
axes exchanged, and the same draws. -/
inductive Events : Event ℝ → Event ℝ → Prop where
  | map {a b : OccupancyGrid ℝ} : Maps (mapOf a) (mapOf b) → Events (.map a) (.map b)
  | odom (v : V3 ℝ) : Events (.odom v) (.odom (twist v))
  | lost (draws : List Nat) : Events (.tick none draws) (.tick none draws)
  | tick {a b : TransformMsg ℝ} (draws : List Nat) : Poses (Mirror.poseOf a) (Mirror.poseOf b) →
      Events (.tick (some a) draws) (.tick (some b) draws)

/-- The window has no side: the limits of lateral and rotational velocity are symmetric, and both ends of
these two ranges are sampled. -/
def FairWindow (d : DynamicWindow ℝ) (vb : V3 ℝ) : Prop :=
  d.min_vel_y = -d.max_vel_y ∧ d.min_rot_vel = -d.max_rot_vel ∧
    (2 ≤ d.vy_samples.toNat ∨
      max (vb.c1 - d.acc_lim_y * d.acc_dt) d.min_vel_y = min (vb.c1 + d.acc_lim_y * d.acc_dt) d.max_vel_y) ∧
    (2 ≤ d.vth_samples.toNat ∨
      max (vb.c2 - d.acc_lim_th * d.acc_dt) d.min_rot_vel = min (vb.c2 + d.acc_lim_th * d.acc_dt) d.max_rot_vel)

/-- Following the twist, every pose up to the first collision is in the map. -/
def Seen (c : Collision ℝ) (g : GridMap ℝ) (u : V3 ℝ) (dt : ℝ) (n : Nat) (x : V3 ℝ) : Prop :=
  ∀ k < n, (∀ l < k, c.collisionCheck g (poseAfter u dt x (l + 1)) = .ok false) →
    InRect g (poseAfter u dt x (k + 1)).c0 (poseAfter u dt x (k + 1)).c1

/-- When the node validates its twist and, if it fails, searches the window, simulated poses stay in the
map, the window has no side, and there is one cheapest sample. -/
structure Steered (s : Expl ℝ) : Prop where
  sensible : Sensible s.collision s.grid
  seen : ∀ n, numSteps s.val_horizon s.val_dt = .ok n → Seen s.collision s.grid s.u s.val_dt n.toNat s.pose
  window : validateControl s.collision s.grid s.pose s.u s.val_dt s.val_horizon = .ok false →
    Sensible s.dwa.collision s.grid ∧ FairWindow s.dwa s.vb ∧
    ∀ v, IsSample s.dwa s.vb v → Seen s.dwa.collision s.grid v s.dwa.dt s.dwa.steps.toNat s.pose
  follow : validateControl s.collision s.grid s.pose s.u s.val_dt s.val_horizon = .ok false → s.follow_dwa = true →
    Sole s.dwa s.vb fun v => s.dwa.objectiveTwist s.grid s.pose s.u v
  track : validateControl s.collision s.grid s.pose s.u s.val_dt s.val_horizon = .ok false → s.follow_dwa = false →
    ∀ ref, s.ec.optTraj = .ok ref →
      Sole s.dwa s.vb fun v => s.dwa.objectiveTraj s.grid s.pose v ref (ref.length * s.ec.dt)

/-- The history of events is of this kind throughout. -/
def Governed : Expl ℝ → List (Event ℝ) → Prop
  | _, [] => True
  | s, ev :: es =>
    (∀ tf draws, ev = .tick tf draws → s.map_received = true → (s.localize tf).pose_known = true →
      ∀ t o, (s.localize tf).advanceDwa.replan draws = .ok (t, o) → Steered t) ∧
    ∀ t o, s.step ev = .ok (t, o) → Governed t es

/-- image of the pose of the sensor on the robot -/
noncomputable def mount (a : M3 ℝ) : M3 ℝ :=
  ⟨⟨a.r0.c0, -a.r0.c1, a.r0.c2⟩, ⟨-a.r1.c0, a.r1.c1, -a.r1.c2⟩, ⟨a.r2.c0, -a.r2.c1, a.r2.c2⟩⟩

/-- image of a mapper -/
noncomputable def mapper (m : OccupancyMapper ℝ) : OccupancyMapper ℝ := { m with Tbs := mount m.Tbs }

/-- image of a scan: taken the other way round -/
noncomputable def scan (s : LaserScan ℝ) : LaserScan ℝ :=
  { s with angle_min := -s.angle_min, angle_increment := -s.angle_increment }

end Exchange
end Ergodic
