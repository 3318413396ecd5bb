import Verif.Spec.ErgodicControl
import Verif.Base.Rounded
import Mathlib.Data.Matrix.Mul
import Mathlib.LinearAlgebra.Matrix.Notation

/-!
# Specification of the control update with rounding

Matrices and vectors as in Mathlib, and what a rounded result may differ from the exact one.
-/

namespace Ergodic
open Matrix

/-- A 3×3 matrix as in Mathlib. -/
def toMat (m : M3 ℝ) : Matrix (Fin 3) (Fin 3) ℝ :=
  !![m.r0.c0, m.r0.c1, m.r0.c2; m.r1.c0, m.r1.c1, m.r1.c2; m.r2.c0, m.r2.c1, m.r2.c2]

/-- A vector as in Mathlib. -/
def toVec (v : V3 ℝ) : Fin 3 → ℝ := ![v.c0, v.c1, v.c2]

/-- A vector of finite doubles. -/
def finV {M : Machine} (v : V3 ℝ) : V3 (RDbl M) := ⟨.fin v.c0, .fin v.c1, .fin v.c2⟩

/-- A matrix of finite doubles. -/
def finM {M : Machine} (m : M3 ℝ) : M3 (RDbl M) := ⟨finV m.r0, finV m.r1, finV m.r2⟩

/-- The exact direction `-R Bᵀ rho`. -/
def direction (R B : M3 ℝ) (rho : V3 ℝ) : Fin 3 → ℝ := (-(toMat R) * (toMat B)ᵀ) *ᵥ toVec rho

/-- What rounding may change in it: nine units of `2^-51` of the sum of the absolute values of all the
products, and a multiple of the smallest numbers. -/
noncomputable def directionError (R B : M3 ℝ) (rho : V3 ℝ) (i : Fin 3) : ℝ :=
  9 / 2 ^ 51 * ∑ j, ∑ k, |toMat R i j| * |toMat B k j| * |toVec rho k| +
    13 * tiny * (1 + ∑ j, |toMat R i j| + ∑ k, |toVec rho k|)

/-- The sum of the absolute values of the entries. -/
def absTotal (v : V3 ℝ) : ℝ := |v.c0| + |v.c1| + |v.c2|

/-- What rounding may change in a control with weight `w`: twenty-one units of `2^-51` of the co-state
over the weight, and a multiple of the smallest numbers. -/
noncomputable def updateError (w : ℝ) (rho : V3 ℝ) : ℝ :=
  21 / 2 ^ 51 * (absTotal rho / w) + 16 * tiny * (1 + 2 / w + absTotal rho)

/-- `u` is the only control in the box with the least Hamiltonian; others are worse by at least half
their weighted squared distance. -/
def Minimises (R rho : V3 ℝ) (B : M3 ℝ) (lo hi u : V3 ℝ) : Prop :=
  InBox lo u hi ∧ ∀ v, InBox lo v hi → hamiltonian R rho B u +
    (R.c0 * (v.c0 - u.c0) ^ 2 + R.c1 * (v.c1 - u.c1) ^ 2 + R.c2 * (v.c2 - u.c2) ^ 2) / 2 ≤
      hamiltonian R rho B v

end Ergodic
