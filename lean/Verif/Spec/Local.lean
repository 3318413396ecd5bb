import Verif.Spec.Exploration
import Verif.Spec.Collision

/-!
# Specification vocabulary: maps that agree near the robot
-/

namespace Ergodic

/-- Two maps of the same geometry and size whose cells with centres within `R` of the position, along
either axis, are occupied in both or in neither. -/
structure SameNear (thr : ℝ) (m m' : OccupancyGrid ℝ) (x : V3 ℝ) (R : ℝ) : Prop where
  geometry : m' = { m with data := m'.data }
  size : m'.data.length = m.data.length
  cells : ∀ i j : Nat, |m.originX + (j + 1 / 2) * m.resolution - x.c0| ≤ R →
    |m.originY + (i + 1 / 2) * m.resolution - x.c1| ≤ R →
    (Occupied thr (mapOf m') i j ↔ Occupied thr (mapOf m) i j)

/-- The same events, except that maps may differ. -/
inductive SameButMaps {F : Type} : Event F → Event F → Prop
  | map (m m' : OccupancyGrid F) : SameButMaps (.map m) (.map m')
  | odom (v : V3 F) : SameButMaps (.odom v) (.odom v)
  | tick (tf : Option (TransformMsg F)) (draws : List Nat) : SameButMaps (.tick tf draws) (.tick tf draws)

/-- Two histories of the same events in which, at every iteration, the current maps agree within `R` and
one and a half cells of the robot. -/
structure SameNearby (thr R : ℝ) (es es' : List (Event ℝ)) : Prop where
  events : List.Forall₂ SameButMaps es es'
  near : ∀ pre pre' tf draws post post' m m' x, es = pre ++ .tick tf draws :: post →
    es' = pre' ++ .tick tf draws :: post' → pre.length = pre'.length → (maps pre).getLast? = some m →
    (maps pre').getLast? = some m' → (poses (pre ++ [.tick tf draws])).getLast? = some x →
    SameNear thr m m' x (R + 3 / 2 * m.resolution)

end Ergodic
