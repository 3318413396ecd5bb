import Verif.Spec.ClosedLoop
import Verif.Spec.Torn

/-!
# Specification vocabulary: a robot that does what it is told, with callbacks at any moment
-/

namespace Ergodic

/-- As `Driven`, with the callbacks of `TornTrace`: every iteration finds the transform, a time `T`
after the previous one, and the robot has moved as told in between.  The last argument is the pose of
the last iteration and what was published then. -/
inductive DrivenT (T : ℝ) (s : Expl ℝ) :
    List (Event ℝ) → List (List (Out ℝ)) → Expl ℝ → Option (V3 ℝ × List (V3 ℝ)) → Prop
  | nil : DrivenT T s [] [] s none
  | first {es os t t' tf draws c msgs g o p} : DrivenT T s es os t none →
      (Event.tick tf draws).pose? = some p → t.iterationT tf draws c msgs g = .ok (t', o) →
      DrivenT T s (es ++ asEvents (c.all ++ odomCallbacks msgs) ++ [.tick tf draws]) (os ++ [o]) t'
        (some (p, twists o))
  | next {es os t t' tf draws c msgs g o p us q} : DrivenT T s es os t (some (p, us)) →
      (Event.tick tf draws).pose? = some q → Moved T p us q →
      t.iterationT tf draws c msgs g = .ok (t', o) →
      DrivenT T s (es ++ asEvents (c.all ++ odomCallbacks msgs) ++ [.tick tf draws]) (os ++ [o]) t'
        (some (q, twists o))

end Ergodic
