import Verif.Model.ErgodicControl
import Verif.Spec.Basis
import Mathlib.Algebra.BigOperators.Intervals
import Mathlib.Analysis.SpecialFunctions.Pow.Real

/-!
# Specification vocabulary for the ergodic controller
-/

namespace Ergodic
variable {F : Type} [Flt F]

/-- The states an `ErgodicControl` object can reach from `e0` by calls of its public methods
that return normally (the other public methods do not modify it). -/
inductive EcReach (e0 : ErgodicControl F) : ErgodicControl F → Prop
  | start : EcReach e0 e0
  | control {e e' : ErgodicControl F} {u : V3 F} (g : GridMap F) (x : V3 F) (draws : List Nat) :
      EcReach e0 e → e.control g x draws = .ok (e', u) → EcReach e0 e'
  | addStateMemory {e : ErgodicControl F} (x : V3 F) : EcReach e0 e → EcReach e0 (e.addStateMemory x)
  | setTarget {e : ErgodicControl F} (t : Target F) : EcReach e0 e → EcReach e0 (e.setTarget t)

/-- `e` is reached by a history of calls on an object constructed with these parameters. -/
def EcBuilt (model : TwistModel F) (collision : Collision F) (dt horizon resolution weight : F)
    (num_basis buffer_size batch_size : Nat) (Rinv : M3 F) (umin umax : V3 F)
    (e : ErgodicControl F) : Prop :=
  ∃ e0, ErgodicControl.new model collision dt horizon resolution weight num_basis buffer_size
    batch_size Rinv umin umax = .ok e0 ∧ EcReach e0 e

/-- `a` is smaller than or equal to `b` -/
def AtMost (a b : F) : Prop := Flt.lt a b = true ∨ a = b

/-- `u` is in the box with corners `lo` and `hi` -/
def InBox (lo u hi : V3 F) : Prop :=
  (AtMost lo.c0 u.c0 ∧ AtMost u.c0 hi.c0) ∧ (AtMost lo.c1 u.c1 ∧ AtMost u.c1 hi.c1) ∧
    (AtMost lo.c2 u.c2 ∧ AtMost u.c2 hi.c2)

/-- `u` is not outside the box with corners `lo` and `hi` (not a number is not outside) -/
def NotOutside (lo u hi : V3 F) : Prop :=
  (Flt.lt u.c0 lo.c0 = false ∧ Flt.lt hi.c0 u.c0 = false) ∧
  (Flt.lt u.c1 lo.c1 = false ∧ Flt.lt hi.c1 u.c1 = false) ∧
    (Flt.lt u.c2 lo.c2 = false ∧ Flt.lt hi.c2 u.c2 = false)

/-- `xs` are the states after each control of `us`, one integrator step each, starting at `x`;
headings are wrapped. -/
inductive Rollout (dt : F) (f : V3 F → V3 F → Res (V3 F)) : V3 F → List (V3 F) → List (V3 F) → Prop
  | nil (x : V3 F) : Rollout dt f x [] []
  | cons {x u y : V3 F} {us xs : List (V3 F)} : RungeKutta.step dt f x u = .ok y →
      Rollout dt f ⟨y.c0, y.c1, normalizeAnglePI y.c2⟩ us xs →
      Rollout dt f x (u :: us) (⟨y.c0, y.c1, normalizeAnglePI y.c2⟩ :: xs)

/-- a pose relative to the lower left corner of a map -/
def relTo (g : GridMap F) (p : V3 F) : V3 F := ⟨p.c0 -. g.xmin, p.c1 -. g.ymin, p.c2⟩

/-- the quadratic barrier on one axis of length `l` with margin `0.05` and weight `25` -/
noncomputable def barrier (l x : ℝ) : ℝ :=
  25 * ((max 0 (x - (l - 0.05))) ^ 2 + (max 0 (0.05 - x)) ^ 2)

/-- the control Hamiltonian `½ uᵀ R u + ρᵀ B u` with a diagonal `R` -/
noncomputable def hamiltonian (R rho : V3 ℝ) (B : M3 ℝ) (u : V3 ℝ) : ℝ :=
  (R.c0 * u.c0 ^ 2 + R.c1 * u.c1 ^ 2 + R.c2 * u.c2 ^ 2) / 2 +
    (rho.c0 * (B.r0.c0 * u.c0 + B.r0.c1 * u.c1 + B.r0.c2 * u.c2) +
     rho.c1 * (B.r1.c0 * u.c0 + B.r1.c1 * u.c1 + B.r1.c2 * u.c2) +
     rho.c2 * (B.r2.c0 * u.c0 + B.r2.c1 * u.c1 + B.r2.c2 * u.c2))

end Ergodic

namespace Ergodic
open Finset in
/-- The coefficients `phik` (`n` frequencies per axis) are those of the target `t`, sampled on the
`resolution` grid laid over the map `g` and normalised, in the coordinates of that map. -/
def RightCoeffs (n : ℕ) (t : Target ℝ) (g : GridMap ℝ) (resolution : ℝ) (phik : List ℝ) : Prop :=
  let mx := g.xmax - g.xmin
  let my := g.ymax - g.ymin
  let nx := ⌊mx / resolution + 1 / 2⌋₊ + 1
  let ny := ⌊my / resolution + 1 / 2⌋₊ + 1
  let density : ℝ → ℝ → ℝ := fun x y => (t.gaussians.map fun G => G.eval ⟨x, y⟩).sum
  phik.length = n * n ∧ ∀ i j, i < n → j < n → phik[i * n + j]? = some
    ((∑ r ∈ range ny, ∑ c ∈ range nx, cosBasis mx my j i (c * resolution) (r * resolution) *
        density (g.xmin + c * resolution) (g.ymin + r * resolution)) /
      (∑ r ∈ range ny, ∑ c ∈ range nx,
        density (g.xmin + c * resolution) (g.ymin + r * resolution)))

end Ergodic

namespace Ergodic
open Finset in
/-- The weighted squared distance between the time-averaged basis functions of the points `pts`
and the coefficients `phi`; basis function `c` has frequencies `(c % n, c / n)`. -/
noncomputable def ergodicMetric (lx ly : ℝ) (n : ℕ) (phi : ℕ → ℝ) (pts : List (V3 ℝ)) : ℝ :=
  ∑ c ∈ range (n * n),
    (1 + Real.sqrt (((c % n : ℕ) : ℝ) ^ 2 + ((c / n : ℕ) : ℝ) ^ 2)) ^ (-(3 / 2) : ℝ) *
      ((pts.map fun p => cosBasis lx ly (c % n) (c / n) p.c0 p.c1).sum / pts.length - phi c) ^ 2

end Ergodic
