import Verif.Spec.Torn
import Verif.Spec.RoundedRunning

/-!
# Specification vocabulary: a robot that does roughly what it is told

The node computes with rounding and is told roughly where the robot is; the robot is at points of the
plane and carries out twists roughly.
-/

namespace Ergodic
variable {M : Machine}

/-- A point of the plane and a finite pose at most `δ` apart along each axis. -/
def Within (δ : ℝ) (r : ℝ × ℝ) (p : V3 (RDbl M)) : Prop :=
  ∃ x y θ : ℝ, p = ⟨.fin x, .fin y, .fin θ⟩ ∧ |x - r.1| ≤ δ ∧ |y - r.2| ≤ δ

/-- A finite pose with coordinates up to `X` and a heading that is an angle. -/
def Located (X : ℝ) (p : V3 (RDbl M)) : Prop :=
  ∃ x y θ : ℝ, p = ⟨.fin x, .fin y, .fin θ⟩ ∧ |x| ≤ X ∧ |y| ≤ X ∧ |θ| ≤ 4

/-- What the robot does in a time `T` after it was at `r`, the node believed it at `p` and published
`us`: it rests when nothing or the zero twist is published; otherwise it ends up within `η` of where the
twist takes the pose the node believes in. -/
def Followed (η T : ℝ) (r : ℝ × ℝ) (p : V3 (RDbl M)) (us : List (V3 (RDbl M))) (r' : ℝ × ℝ) : Prop :=
  (us = [] → r' = r) ∧ ∀ u ∈ us, (u = ⟨.fin 0, .fin 0, .fin 0⟩ → r' = r) ∧
    ∀ x y θ a b c : ℝ, p = ⟨.fin x, .fin y, .fin θ⟩ → u = ⟨.fin a, .fin b, .fin c⟩ →
      u ≠ ⟨.fin 0, .fin 0, .fin 0⟩ →
      |r'.1 - (flow ⟨x, y, θ⟩ ⟨a, b, c⟩ T).c0| ≤ η ∧ |r'.2 - (flow ⟨x, y, θ⟩ ⟨a, b, c⟩ T).c1| ≤ η

/-- A history in which every iteration finds the transform, a time `T` after the previous one, which is
right up to `δ`, and the robot has moved roughly as told in between; callbacks run at any moment.  The
last arguments are where the robot was at the last iteration, where the node believed it was and what it
published, and all the places where the robot was at an iteration. -/
inductive DrivenR (T δ η : ℝ) (s : Expl (RDbl M)) : List (Event (RDbl M)) → List (List (Out (RDbl M))) →
    Expl (RDbl M) → Option ((ℝ × ℝ) × V3 (RDbl M) × List (V3 (RDbl M))) → List (ℝ × ℝ) → Prop
  | nil : DrivenR T δ η s [] [] s none []
  | first {es os t t' tf draws c msgs g o rs r p} : DrivenR T δ η s es os t none rs →
      (Event.tick tf draws).pose? = some p → Within δ r p → t.iterationT tf draws c msgs g = .ok (t', o) →
      DrivenR T δ η s (es ++ asEvents (c.all ++ odomCallbacks msgs) ++ [.tick tf draws]) (os ++ [o]) t'
        (some (r, p, twists o)) (rs ++ [r])
  | next {es os t t' tf draws c msgs g o rs r p us r' q} : DrivenR T δ η s es os t (some (r, p, us)) rs →
      (Event.tick tf draws).pose? = some q → Within δ r' q → Followed η T r p us r' →
      t.iterationT tf draws c msgs g = .ok (t', o) →
      DrivenR T δ η s (es ++ asEvents (c.all ++ odomCallbacks msgs) ++ [.tick tf draws]) (os ++ [o]) t'
        (some (r', q, twists o)) (rs ++ [r'])

/-- `T` is, up to `τ`, one of the first `K` instants at which a simulation of `horizon` in steps of `dt`
checks. -/
def NearInstant (T τ : ℝ) (K : ℕ) (dt : ℝ) (horizon : RDbl M) : Prop :=
  ∃ (n : UInt32) (k : ℕ), numSteps horizon (.fin dt) = .ok n ∧ k < n.toNat ∧ k < K ∧ |T - (k + 1) * dt| ≤ τ

/-- The error of a simulation of at most `K` steps of `dt` at speed `v` from coordinates up to `X`. -/
noncomputable def simError (v dt X : ℝ) (K : ℕ) : ℝ :=
  K * (v * dt / 2 ^ 21 + 2 * (X + (3 * K + 19) * (v * dt)) / 2 ^ 52) + K ^ 2 * (v * dt) / 2 ^ 32

end Ergodic
