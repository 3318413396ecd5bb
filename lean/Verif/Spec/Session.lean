import Verif.Spec.Exploration
import Verif.Model.Node

/-!
# Specification vocabulary for whole sessions, and for maps with the same obstacles
-/

namespace Ergodic
variable {F : Type} [Flt F]

/-- Everything an executable publishes, from its start through a history of events. -/
def session (start : Res (Node F × List (Out F))) (es : List (Event F)) : Res (List (Out F)) := do
  let r ← start
  let r' ← r.1.run es
  .ok (r.2 ++ r'.2)

/-- The same outcome: the same failure, or results in the relation `R`. -/
inductive SameOutcome {α β : Type} (R : α → β → Prop) : Res α → Res β → Prop
  | ok {a : α} {b : β} : R a b → SameOutcome R (.ok a) (.ok b)
  | throw (e : Err) : SameOutcome R (.throw e) (.throw e)
  | ub : SameOutcome R .ub .ub
  | timeout : SameOutcome R .timeout .timeout

/-- The occupancy of a cell, on the scale from 0 to 1, is below the threshold. -/
def cellFree (thr : F) (v : Int8) : Bool := Flt.lt (Flt.ofInt v.toInt /. lit 100 0) thr

/-- Two map messages with the same geometry and the same obstacles: cell by cell, both are below the
threshold or neither is. -/
structure SameObstacles (thr : F) (m m' : OccupancyGrid F) : Prop where
  geometry : m' = { m with data := m'.data }
  cells : m'.data.map (cellFree thr) = m.data.map (cellFree thr)

/-- Two events that differ at most in map messages with the same obstacles. -/
inductive SameEvent (thr : F) : Event F → Event F → Prop
  | map {m m' : OccupancyGrid F} : SameObstacles thr m m' → SameEvent thr (.map m) (.map m')
  | odom (v : V3 F) : SameEvent thr (.odom v) (.odom v)
  | tick (tf : Option (TransformMsg F)) (draws : List Nat) : SameEvent thr (.tick tf draws) (.tick tf draws)

/-- the map with cells free (0) and occupied (100) only -/
def OccupancyGrid.binary (thr : F) (m : OccupancyGrid F) : OccupancyGrid F :=
  { m with data := m.data.map fun v => if cellFree thr v then 0 else 100 }

/-- the event with its map, if any, reduced to free and occupied cells -/
def Event.binary (thr : F) : Event F → Event F
  | .map m => .map (m.binary thr)
  | .odom v => .odom v
  | .tick tf draws => .tick tf draws

end Ergodic
