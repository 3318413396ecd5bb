import Verif.Spec.DynamicWindow

/-!
# Vocabulary of C138: finer sampling of the velocity window
-/

namespace Ergodic

/-- `n'` samples per axis are a refinement of `n` samples: each interval between neighbours is divided into `m` parts.
A single sample is the lower end, which is always among several. -/
def FinerAxis (n n' : Nat) : Prop := (n ≤ 1 ∧ 1 ≤ n') ∨ (2 ≤ n ∧ ∃ m, 1 ≤ m ∧ n' = m * (n - 1) + 1)

/-- The second window differs from the first in a finer sampling. -/
structure FinerWindow (d d' : DynamicWindow ℝ) : Prop where
  x : FinerAxis d.vx_samples.toNat d'.vx_samples.toNat
  y : FinerAxis d.vy_samples.toNat d'.vy_samples.toNat
  th : FinerAxis d.vth_samples.toNat d'.vth_samples.toNat
  rest : d' = { d with
    vx_samples := d'.vx_samples, vy_samples := d'.vy_samples, vth_samples := d'.vth_samples }

end Ergodic
