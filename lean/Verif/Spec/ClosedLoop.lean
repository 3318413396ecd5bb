import Verif.Spec.Exploration
import Verif.Lemmas.Validate

/-!
# Specification vocabulary: a robot that does what it is told

The node's events and publications on one side, the motion of the robot on the other.
-/

namespace Ergodic

/-- `q` is where the robot is a time `T` after it was at `p`: it carries out the twist last
published, exactly, and rests while nothing is published. -/
def Moved (T : ℝ) (p : V3 ℝ) (us : List (V3 ℝ)) (q : V3 ℝ) : Prop :=
  (us = [] → q.c0 = p.c0 ∧ q.c1 = p.c1 ∧ SameHeading q.c2 p.c2) ∧
  ∀ u ∈ us, q.c0 = (flow p u T).c0 ∧ q.c1 = (flow p u T).c1 ∧ SameHeading q.c2 (flow p u T).c2

/-- A history in which every loop iteration finds the transform, a time `T` after the previous
iteration, and the robot has moved as told in between.  The last argument is the pose of the last
iteration and what was published then. -/
inductive Driven (T : ℝ) : List (Event ℝ) → List (List (Out ℝ)) → Option (V3 ℝ × List (V3 ℝ)) → Prop
  | nil : Driven T [] [] none
  | callback {es os l e o} : Driven T es os l → e.isTick = false → Driven T (es ++ [e]) (os ++ [o]) l
  | first {es os p e o} : Driven T es os none → e.pose? = some p →
      Driven T (es ++ [e]) (os ++ [o]) (some (p, twists o))
  | next {es os p us q e o} : Driven T es os (some (p, us)) → e.pose? = some q → Moved T p us q →
      Driven T (es ++ [e]) (os ++ [o]) (some (q, twists o))

/-- As `Driven`, but a lookup may fail.  The last argument lists where the robot really was at the
iterations. -/
inductive Roamed (T : ℝ) : List (Event ℝ) → List (List (Out ℝ)) → Option (V3 ℝ × List (V3 ℝ)) →
    List (V3 ℝ) → Prop
  | nil : Roamed T [] [] none []
  | callback {es os l ps e o} : Roamed T es os l ps → e.isTick = false →
      Roamed T (es ++ [e]) (os ++ [o]) l ps
  | first {es os ps p e o} : Roamed T es os none ps → e.isTick = true → (∀ q, e.pose? = some q → q = p) →
      Roamed T (es ++ [e]) (os ++ [o]) (some (p, twists o)) (ps ++ [p])
  | next {es os ps p us q e o} : Roamed T es os (some (p, us)) ps → e.isTick = true →
      (∀ r, e.pose? = some r → r = q) → Moved T p us q →
      Roamed T (es ++ [e]) (os ++ [o]) (some (q, twists o)) (ps ++ [q])

/-- The twist rotates at least `10^-12` rad/s or not at all. -/
def Measurable (u : V3 ℝ) : Prop := u.c2 = 0 ∨ 1 / 10 ^ 12 ≤ |u.c2|

/-- `T` is one of the instants `dt, 2 dt, …` that `horizon` contains. -/
def Instant (T dt horizon : ℝ) : Prop := ∃ k : ℕ, T = (k + 1) * dt ∧ T ≤ horizon

end Ergodic
