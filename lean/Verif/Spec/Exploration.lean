import Verif.Model.Node
import Verif.Spec.DynamicWindow
import Verif.Spec.ErgodicControl

/-!
# Specification vocabulary for the exploration loop

The notions below speak about the history of events and about what was published, not about
the state the node keeps.
-/

namespace Ergodic
variable {F : Type} [Flt F]

/-- `Trace s es os t`: from `s` the events `es` were handled normally, one after the other; `os`
lists what each of them published, and `t` is the final state. -/
inductive Trace (s : Expl F) : List (Event F) → List (List (Out F)) → Expl F → Prop
  | nil : Trace s [] [] s
  | snoc {t t' : Expl F} {es : List (Event F)} {os : List (List (Out F))} {e : Event F}
      {o : List (Out F)} : Trace s es os t → t.step e = .ok (t', o) →
      Trace s (es ++ [e]) (os ++ [o]) t'

/-- the map message of an event -/
def Event.map? : Event F → Option (OccupancyGrid F)
  | .map m => some m
  | _ => none

/-- the body twist of an odometry event -/
def Event.odom? : Event F → Option (V3 F)
  | .odom v => some v
  | _ => none

/-- the pose of an event: of a loop iteration with a successful transform lookup -/
def Event.pose? : Event F → Option (V3 F)
  | .tick (some t) _ => some ⟨t.x, t.y, getYaw t.qx t.qy t.qz t.qw⟩
  | _ => none

/-- the event is an iteration of the control loop -/
def Event.isTick : Event F → Bool
  | .tick _ _ => true
  | _ => false

/-- The map messages of a history. -/
def maps (es : List (Event F)) : List (OccupancyGrid F) := es.filterMap Event.map?

/-- The measured body twists of a history. -/
def odoms (es : List (Event F)) : List (V3 F) := es.filterMap Event.odom?

/-- The poses of the successful transform lookups of a history. -/
def poses (es : List (Event F)) : List (V3 F) := es.filterMap Event.pose?

/-- The last measured body twist; zero before the first measurement. -/
def lastOdom (es : List (Event F)) : V3 F := (odoms es).getLast?.getD ⟨lit 0 0, lit 0 0, lit 0 0⟩

/-- the twist of a published message -/
def Out.twist? : Out F → Option (V3 F)
  | .twist u => some u
  | _ => none

/-- The twists among what was published. -/
def twists (o : List (Out F)) : List (V3 F) := o.filterMap Out.twist?

/-- The ergodic controller has replanned (the planned trajectory is published). -/
def Replanned (o : List (Out F)) : Prop := ∃ p, Out.trajectory p ∈ o

/-- The map a message describes. -/
def mapOf (m : OccupancyGrid F) : GridMap F :=
  { xsize := m.width, ysize := m.height, resolution := m.resolution,
    xmin := m.originX, ymin := m.originY,
    xmax := m.resolution *. Flt.ofInt m.width.toNat +. m.originX,
    ymax := m.resolution *. Flt.ofInt m.height.toNat +. m.originY, data := m.data }

/-- Number of loop iterations in a history that come after a map message and not before the first
successful transform lookup. -/
def activeTicks : List (Event F) → Nat
  | es => ((List.range es.length).filter fun k =>
      ((es[k]?).map Event.isTick).getD false && !(maps (es.take k)).isEmpty &&
        !(poses (es.take (k + 1))).isEmpty).length

end Ergodic
