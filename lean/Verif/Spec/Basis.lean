import Verif.Model.Target
import Mathlib.Analysis.SpecialFunctions.Trigonometric.Basic

/-!
# Specification vocabulary for basis functions and target distributions
-/

namespace Ergodic

/-- The cosine basis function with frequency `(k1, k2)` on an `lx × ly` rectangle. -/
noncomputable def cosBasis (lx ly : ℝ) (k1 k2 : ℕ) (x y : ℝ) : ℝ :=
  Real.cos (k1 * Real.pi * x / lx) * Real.cos (k2 * Real.pi * y / ly)

/-- A two-dimensional Gaussian with independent axes, scaled to 1 at its centre. -/
noncomputable def gauss (mx my sx sy x y : ℝ) : ℝ :=
  Real.exp (-(((x - mx) / sx) ^ 2 + ((y - my) / sy) ^ 2) / 2)

end Ergodic
