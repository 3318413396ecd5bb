import Verif.Spec.Mirror
import Verif.Spec.DynamicWindow

/-!
# Window searches in the mirror

Vocabulary of C132 for iterations in which the dynamic window takes over.
-/

namespace Ergodic
namespace Mirror

/-- The window has no side: unless both or neither axis is flipped, the limits of lateral and rotational
velocity are symmetric, and both ends of these two ranges are sampled. -/
def FairWindow (m : Mirror) (d : DynamicWindow ℝ) (vb : V3 ℝ) : Prop :=
  m.fx = m.fy ∨
    (d.min_vel_y = -d.max_vel_y ∧ d.min_rot_vel = -d.max_rot_vel ∧
      (2 ≤ d.vy_samples.toNat ∨
        max (vb.c1 - d.acc_lim_y * d.acc_dt) d.min_vel_y = min (vb.c1 + d.acc_lim_y * d.acc_dt) d.max_vel_y) ∧
      (2 ≤ d.vth_samples.toNat ∨
        max (vb.c2 - d.acc_lim_th * d.acc_dt) d.min_rot_vel = min (vb.c2 + d.acc_lim_th * d.acc_dt) d.max_rot_vel))

/-- Following the twist, every pose up to the first collision is clear of edges between cells. -/
def Seen (m : Mirror) (c : Collision ℝ) (g : GridMap ℝ) (u : V3 ℝ) (dt : ℝ) (n : Nat) (x : V3 ℝ) : Prop :=
  ∀ k < n, (∀ l < k, c.collisionCheck g (poseAfter u dt x (l + 1)) = .ok false) →
    m.Clear g (poseAfter u dt x (k + 1))

end Mirror

/-- At most one sample of the window is the cheapest. -/
def Sole (d : DynamicWindow ℝ) (vb : V3 ℝ) (cost : V3 ℝ → Res ℝ) : Prop :=
  ∀ u v c, IsSample d vb u → IsSample d vb v → cost u = .ok c → cost v = .ok c → c < Flt.maxFin →
    (∀ w b, IsSample d vb w → cost w = .ok b → c ≤ b) → u = v

namespace Mirror

/-- Nothing that depends on sides happens when the node validates its twist and, if it fails, searches the
window: no simulated pose is on an edge between cells, and there is one cheapest sample. -/
structure Steered (m : Mirror) (s : Expl ℝ) : Prop where
  sensible : Sensible s.collision s.grid
  seen : ∀ n, numSteps s.val_horizon s.val_dt = .ok n →
    m.Seen s.collision s.grid s.u s.val_dt n.toNat s.pose
  window : validateControl s.collision s.grid s.pose s.u s.val_dt s.val_horizon = .ok false →
    Sensible s.dwa.collision s.grid ∧ m.FairWindow s.dwa s.vb ∧
    ∀ v, IsSample s.dwa s.vb v → m.Seen s.dwa.collision s.grid v s.dwa.dt s.dwa.steps.toNat s.pose
  follow : validateControl s.collision s.grid s.pose s.u s.val_dt s.val_horizon = .ok false → s.follow_dwa = true →
    Sole s.dwa s.vb fun v => s.dwa.objectiveTwist s.grid s.pose s.u v
  track : validateControl s.collision s.grid s.pose s.u s.val_dt s.val_horizon = .ok false → s.follow_dwa = false →
    ∀ ref, s.ec.optTraj = .ok ref →
      Sole s.dwa s.vb fun v => s.dwa.objectiveTraj s.grid s.pose v ref (ref.length * s.ec.dt)

/-- The history of events is of this kind throughout. -/
def Governed (m : Mirror) : Expl ℝ → List (Event ℝ) → Prop
  | _, [] => True
  | s, ev :: es =>
    (∀ tf draws, ev = .tick tf draws → s.map_received = true → (s.localize tf).pose_known = true →
      m.Suits s.ec s.grid ∧
      ∀ t o, (s.localize tf).advanceDwa.replan draws = .ok (t, o) → m.Steered t) ∧
    ∀ t o, s.step ev = .ok (t, o) → Governed m t es

/-- The second node experiences the mirrored event, and its odometry is mirrored too. -/
def Feeds (m : Mirror) (e e' : Event ℝ) : Prop :=
  m.Events e e' ∧ ∀ v w, e = .odom v → e' = .odom w → w = m.twist v

end Mirror
end Ergodic
