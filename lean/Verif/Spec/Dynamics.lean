import Verif.Spec.Motion

/-!
# Specification vocabulary: derivatives along curves
-/

namespace Ergodic

/-- The curve `γ` of 2-vectors has velocity `v` at time `t`. -/
def HasVel2 (γ : ℝ → V2 ℝ) (v : V2 ℝ) (t : ℝ) : Prop :=
  HasDerivAt (fun s => (γ s).c0) v.c0 t ∧ HasDerivAt (fun s => (γ s).c1) v.c1 t

/-- The curve `γ` of 3-vectors has velocity `v` at time `t`. -/
def HasVel3 (γ : ℝ → V3 ℝ) (v : V3 ℝ) (t : ℝ) : Prop :=
  HasDerivAt (fun s => (γ s).c0) v.c0 t ∧ HasDerivAt (fun s => (γ s).c1) v.c1 t ∧
    HasDerivAt (fun s => (γ s).c2) v.c2 t

/-- The curve `γ` of 4-vectors has velocity `v` at time `t`. -/
def HasVel4 (γ : ℝ → V4 ℝ) (v : V4 ℝ) (t : ℝ) : Prop :=
  HasDerivAt (fun s => (γ s).c0) v.c0 t ∧ HasDerivAt (fun s => (γ s).c1) v.c1 t ∧
    HasDerivAt (fun s => (γ s).c2) v.c2 t ∧ HasDerivAt (fun s => (γ s).c3) v.c3 t

/-- The state derivative `d` of a planar body with heading `θ` that moves with body twist
`(vx, vy, w)`: the linear velocity turned by the heading. -/
def Moves (θ vx vy w : ℝ) (d : V3 ℝ) : Prop :=
  d.c0 = vx * Real.cos θ - vy * Real.sin θ ∧ d.c1 = vx * Real.sin θ + vy * Real.cos θ ∧ d.c2 = w

end Ergodic
