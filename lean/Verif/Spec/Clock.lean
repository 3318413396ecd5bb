import Verif.Spec.Mirror
import Verif.Spec.DynamicWindow

/-!
# Another unit of time

Vocabulary of C135.  What lasted `t` lasts `s * t` in the new unit; lengths and angles are as before.
-/

namespace Ergodic
namespace Clock

/-- a velocity, given in the new unit -/
noncomputable def twist (s : ℝ) (u : V3 ℝ) : V3 ℝ := ⟨u.c0 / s, u.c1 / s, u.c2 / s⟩

/-- The inverse of the weights of squared velocities, in the new unit. -/
noncomputable def weights (s : ℝ) (a : M3 ℝ) : M3 ℝ :=
  ⟨⟨a.r0.c0 / s ^ 2, a.r0.c1 / s ^ 2, a.r0.c2 / s ^ 2⟩, ⟨a.r1.c0 / s ^ 2, a.r1.c1 / s ^ 2, a.r1.c2 / s ^ 2⟩,
    ⟨a.r2.c0 / s ^ 2, a.r2.c1 / s ^ 2, a.r2.c2 / s ^ 2⟩⟩

/-- a co-state, given in the new unit -/
noncomputable def costate (s : ℝ) (r : V3 ℝ) : V3 ℝ := ⟨s * r.c0, s * r.c1, s * r.c2⟩

/-- a controller, its settings and its plan given in the new unit -/
noncomputable def controller (s : ℝ) (e : ErgodicControl ℝ) : ErgodicControl ℝ :=
  { e with
    dt := s * e.dt, horizon := s * e.horizon, Rinv := weights s e.Rinv, umin := twist s e.umin,
    umax := twist s e.umax, ut := e.ut.map (twist s), rhoT := costate s e.rhoT }

/-- a dynamic window, its settings given in the new unit -/
noncomputable def window (s : ℝ) (d : DynamicWindow ℝ) : DynamicWindow ℝ :=
  { d with
    dt := s * d.dt, horizon := s * d.horizon, acc_dt := s * d.acc_dt,
    acc_lim_x := d.acc_lim_x / s ^ 2, acc_lim_y := d.acc_lim_y / s ^ 2, acc_lim_th := d.acc_lim_th / s ^ 2,
    max_vel_x := d.max_vel_x / s, min_vel_x := d.min_vel_x / s, max_vel_y := d.max_vel_y / s,
    min_vel_y := d.min_vel_y / s, max_rot_vel := d.max_rot_vel / s, min_rot_vel := d.min_rot_vel / s }

/-- a node, its settings and its state given in the new unit -/
noncomputable def node (s : ℝ) (n : Expl ℝ) : Expl ℝ :=
  { n with
    ec := controller s n.ec, dwa := window s n.dwa, vb := twist s n.vb, val_dt := s * n.val_dt,
    val_horizon := s * n.val_horizon, u := twist s n.u }

/-- an event, its velocities given in the new unit -/
noncomputable def event (s : ℝ) : Event ℝ → Event ℝ
  | .odom v => .odom (twist s v)
  | e => e

/-- a message, its velocities given in the new unit -/
noncomputable def out (s : ℝ) : Out ℝ → Out ℝ
  | .twist v => .twist (twist s v)
  | o => o

/-- The rate of turn counts as zero in both units or in neither. -/
def Brisk (s : ℝ) (u : V3 ℝ) : Prop := |u.c2| < 1 / 10 ^ 12 ↔ |u.c2| < s / 10 ^ 12

/-- The squared distance of two twists is far from the largest number, in both units. -/
def Modest (s : ℝ) (v u : V3 ℝ) : Prop :=
  (v.c0 - u.c0) ^ 2 + (v.c1 - u.c1) ^ 2 + (v.c2 - u.c2) ^ 2 < 2 ^ 1000 ∧
    (v.c0 - u.c0) ^ 2 + (v.c1 - u.c1) ^ 2 + (v.c2 - u.c2) ^ 2 < s ^ 2 * 2 ^ 1000

/-- The model is that of one of the nodes; a cart has no lateral velocity. -/
def Drives (e : ErgodicControl ℝ) : Prop :=
  e.model = omniModel ∨
    e.model = cartModel ∧ e.umin.c1 = 0 ∧ e.umax.c1 = 0 ∧ ∀ u ∈ e.ut, u.c1 = 0

/-- No twist the node simulates turns so slowly that the unit decides whether it turns at all. -/
structure Paced (s : ℝ) (n : Expl ℝ) : Prop where
  own : Brisk s n.u
  window : validateControl n.collision n.grid n.pose n.u n.val_dt n.val_horizon = .ok false →
    ∀ v, IsSample n.dwa n.vb v → Brisk s v ∧ (n.follow_dwa = true → Modest s n.u v)

/-- This is so throughout a history. -/
def Steady (s : ℝ) : Expl ℝ → List (Event ℝ) → Prop
  | _, [] => True
  | n, ev :: es =>
    (∀ tf draws, ev = .tick tf draws → n.map_received = true → (n.localize tf).pose_known = true →
      ∀ t o, (n.localize tf).advanceDwa.replan draws = .ok (t, o) → Paced s t) ∧
    ∀ t o, n.step ev = .ok (t, o) → Steady s t es

end Clock
end Ergodic
