import Verif.Spec.ErgodicControl
import Mathlib.MeasureTheory.Integral.IntervalIntegral.Basic

/-!
# Specification vocabulary: the objective of the planner, in continuous time

A plan is a body twist for every time.  `motion` is the planar motion with that twist,
`planCost` the quantity the planner is meant to reduce: the distance between the time spent in
the places of the map and the target distribution, plus the barrier at the border of the map,
plus the control effort.
-/

namespace Ergodic
open Finset

/-- all three twist components are continuous in time -/
def Steady (u : ℝ → V3 ℝ) : Prop :=
  Continuous (fun t => (u t).c0) ∧ Continuous (fun t => (u t).c1) ∧ Continuous (fun t => (u t).c2)

/-- heading at time `t` of a body that starts at the pose `x` and moves with the twist `u` -/
noncomputable def headingAt (x : V3 ℝ) (u : ℝ → V3 ℝ) (t : ℝ) : ℝ := x.c2 + ∫ s in (0:ℝ)..t, (u s).c2

/-- pose at time `t` of a body that starts at the pose `x` and moves with the twist `u` -/
noncomputable def motion (x : V3 ℝ) (u : ℝ → V3 ℝ) (t : ℝ) : V3 ℝ :=
  ⟨x.c0 + ∫ s in (0:ℝ)..t,
      ((u s).c0 * Real.cos (headingAt x u s) - (u s).c1 * Real.sin (headingAt x u s)),
   x.c1 + ∫ s in (0:ℝ)..t,
      ((u s).c0 * Real.sin (headingAt x u s) + (u s).c1 * Real.cos (headingAt x u s)),
   headingAt x u t⟩

/-- the plan `u` changed by `ε` times `v` -/
def nudge (u v : ℝ → V3 ℝ) (ε t : ℝ) : V3 ℝ :=
  ⟨(u t).c0 + ε * (v t).c0, (u t).c1 + ε * (v t).c1, (u t).c2 + ε * (v t).c2⟩

/-- The data of the planning problem: rectangle, frequencies per axis, coefficients of the target,
what earlier motion has contributed to the time integrals of the basis functions, length of the
horizon, total time (horizon and earlier motion), exploration weight, and control weights. -/
structure Task where
  lx : ℝ
  ly : ℝ
  n : ℕ
  phi : ℕ → ℝ
  past : ℕ → ℝ
  T : ℝ
  D : ℝ
  q : ℝ
  R : V3 ℝ

/-- the weight of basis function `c` -/
noncomputable def freqWeight (n c : ℕ) : ℝ :=
  (1 + Real.sqrt (((c % n : ℕ) : ℝ) ^ 2 + ((c / n : ℕ) : ℝ) ^ 2)) ^ (-(3 / 2) : ℝ)

/-- the time average of basis function `c` over the motion `p` and what came before it -/
noncomputable def Task.visits (k : Task) (p : ℝ → V3 ℝ) (c : ℕ) : ℝ :=
  (k.past c + ∫ t in (0:ℝ)..k.T, cosBasis k.lx k.ly (c % k.n) (c / k.n) (p t).c0 (p t).c1) / k.D

/-- the distance from ergodicity of a motion, weighted, plus its barrier cost -/
noncomputable def Task.motionCost (k : Task) (p : ℝ → V3 ℝ) : ℝ :=
  k.q * (k.D / 2) * (∑ c ∈ range (k.n * k.n), freqWeight k.n c * (k.visits p c - k.phi c) ^ 2) +
    ∫ t in (0:ℝ)..k.T, (barrier k.lx (p t).c0 + barrier k.ly (p t).c1)

/-- the control effort of a plan -/
noncomputable def Task.effort (k : Task) (u : ℝ → V3 ℝ) : ℝ :=
  ∫ t in (0:ℝ)..k.T,
    (k.R.c0 * (u t).c0 ^ 2 + k.R.c1 * (u t).c1 ^ 2 + k.R.c2 * (u t).c2 ^ 2) / 2

/-- the cost of a plan carried out from the pose `x` -/
noncomputable def Task.planCost (k : Task) (x : V3 ℝ) (u : ℝ → V3 ℝ) : ℝ :=
  k.motionCost (motion x u) + k.effort u

end Ergodic
