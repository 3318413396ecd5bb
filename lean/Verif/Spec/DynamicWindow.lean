import Mathlib.Analysis.SpecialFunctions.Trigonometric.Angle
import Verif.Spec.Validate
import Verif.Model.DynamicWindow

/-!
# Specification vocabulary for the dynamic window search
-/

namespace Ergodic
variable {F : Type} [Flt F]

/-- What the search needs of the comparison `<` and of the sentinel `maxFin`.  IEEE-754
doubles meet it (NaN compares false with everything), and so do both number models. -/
class StrictLt (F : Type) [Flt F] : Prop where
  irrefl : ∀ a : F, Flt.lt a a = false
  trans : ∀ a b c : F, Flt.lt a b = true → Flt.lt b c = true → Flt.lt a c = true
  max_close : almostEqual (Flt.maxFin : F) Flt.maxFin = true

/-- The value of a loop variable that starts at `x` and is increased by `dx`, after `k`
passes. -/
def stride (x dx : F) (k : Nat) : F := (fun y => y +. dx)^[k] x

/-- The sampled twists in the order the loops visit them. -/
def sampleList (lo dl : V3 F) (nx ny nw : Nat) : List (V3 F) :=
  (List.range nx).flatMap fun i : Nat => (List.range ny).flatMap fun j : Nat =>
    (List.range nw).map fun k : Nat =>
      ⟨stride lo.c0 dl.c0 i, stride lo.c1 dl.c1 j, stride lo.c2 dl.c2 k⟩

/-- The visited twists of a search. -/
def visited (d : DynamicWindow F) (vb : V3 F) : List (V3 F) :=
  sampleList (d.window vb).1 (d.window vb).2 d.vx_samples.toNat d.vy_samples.toNat
    d.vth_samples.toNat

/-- `u` is one of the twists at the grid points of the velocity window. -/
def IsSample (d : DynamicWindow F) (vb u : V3 F) : Prop :=
  ∃ i < d.vx_samples.toNat, ∃ j < d.vy_samples.toNat, ∃ k < d.vth_samples.toNat,
    u = ⟨stride (d.window vb).1.c0 (d.window vb).2.c0 i,
         stride (d.window vb).1.c1 (d.window vb).2.c1 j,
         stride (d.window vb).1.c2 (d.window vb).2.c2 k⟩

/-- Following the twist `u` from `x0` for the whole horizon, no pose collides. -/
def FreeRollout (d : DynamicWindow F) (g : GridMap F) (x0 u : V3 F) : Prop :=
  ∀ k < d.steps.toNat, d.collision.collisionCheck g (poseAfter u d.dt x0 (k + 1)) = .ok false

/-- Following the twist `u` from `x0`, some pose collides (and those before it do not). -/
def HitRollout (d : DynamicWindow F) (g : GridMap F) (x0 u : V3 F) : Prop :=
  ∃ k < d.steps.toNat, d.collision.collisionCheck g (poseAfter u d.dt x0 (k + 1)) = .ok true ∧
    ∀ l < k, d.collision.collisionCheck g (poseAfter u d.dt x0 (l + 1)) = .ok false

/-- Within the velocity limits of the robot. -/
def WithinLimits (d : DynamicWindow ℝ) (u : V3 ℝ) : Prop :=
  (d.min_vel_x ≤ u.c0 ∧ u.c0 ≤ d.max_vel_x) ∧ (d.min_vel_y ≤ u.c1 ∧ u.c1 ≤ d.max_vel_y) ∧
  (d.min_rot_vel ≤ u.c2 ∧ u.c2 ≤ d.max_rot_vel)

/-- Reachable from the velocity `vb` within `acc_dt` at the acceleration limits. -/
def Reachable (d : DynamicWindow ℝ) (vb u : V3 ℝ) : Prop :=
  |u.c0 - vb.c0| ≤ d.acc_lim_x * d.acc_dt ∧ |u.c1 - vb.c1| ≤ d.acc_lim_y * d.acc_dt ∧
  |u.c2 - vb.c2| ≤ d.acc_lim_th * d.acc_dt

/-- Squared distance of two twists. -/
def twistErrSq (a b : V3 ℝ) : ℝ := (a.c0 - b.c0) ^ 2 + (a.c1 - b.c1) ^ 2 + (a.c2 - b.c2) ^ 2

/-- Column of an `n`-column reference over `[0, tf]` that is nearest to time `t` when the
columns are spread evenly over the whole interval, halves rounded up. -/
noncomputable def refIndex (n : Nat) (t tf : ℝ) : Nat := ⌊((n : ℝ) - 1) * t / tf + 1 / 2⌋₊

/-- Distance of two poses: Euclidean in the position plus the absolute angle between the
headings. -/
noncomputable def poseGap (a b : V3 ℝ) : ℝ :=
  Real.sqrt ((a.c0 - b.c0) ^ 2 + (a.c1 - b.c1) ^ 2) + |((a.c2 - b.c2 : ℝ) : Real.Angle).toReal|

/-- Summed distance between a rollout and the reference columns it is matched with. -/
noncomputable def trackCost (n : Nat) (dt tf : ℝ) (ref : List (V3 ℝ)) (x0 u : V3 ℝ) : ℝ :=
  ∑ k ∈ Finset.range n,
    poseGap (ref.getD (refIndex ref.length (k * dt) tf) V3.zero) (poseAfter u dt x0 (k + 1))

end Ergodic
