import Verif.Model.Exploration

/-!
# Model of the subscriber queues

`init` subscribes to the map and the odometry with queues of one message each (exploration.hpp:148-158).
roscpp keeps the messages of all subscribers in the order of their arrival; when a subscriber already holds as many
messages as its queue is long, its oldest message is dropped for the new one.  The spinner
(exploration_cart_node.cpp:107, exploration_omni_node.cpp:109) hands the waiting messages to the callbacks.
Simplification: when it does, it hands over all of them; messages that arrive meanwhile wait for the next time.
-/

namespace Ergodic
variable {F : Type} [Flt F]

/-- What happens around the node. -/
inductive Incoming (F : Type) where
  /-- a message arrives at the subscriber of the map -/
  | map (msg : OccupancyGrid F)
  /-- a message arrives at the subscriber of the odometry -/
  | odom (vb : V3 F)
  /-- the spinner hands over what is waiting -/
  | spin
  /-- an iteration of the control loop -/
  | tick (tf : Option (TransformMsg F)) (draws : List Nat)

/-- Remove the first element with the property. -/
def dropOldest {α : Type} (p : α → Bool) : List α → List α
  | [] => []
  | x :: xs => if p x then xs else x :: dropOldest p xs

def Event.isMap : Event F → Bool
  | .map _ => true
  | _ => false

def Event.isOdom : Event F → Bool
  | .odom _ => true
  | _ => false

/-- A message joins the waiting ones of a subscriber (told by `p`) with a queue of length `q`. -/
def enqueue (q : Nat) (p : Event F → Bool) (e : Event F) (waiting : List (Event F)) : List (Event F) :=
  (if q ≤ (waiting.filter p).length then dropOldest p waiting else waiting) ++ [e]

/-- What reaches the callbacks and the loop, in order, with queues of `qm` and `qo` messages. -/
def delivered (qm qo : Nat) (waiting : List (Event F)) : List (Incoming F) → List (Event F)
  | [] => []
  | .map m :: is => delivered qm qo (enqueue qm Event.isMap (.map m) waiting) is
  | .odom v :: is => delivered qm qo (enqueue qo Event.isOdom (.odom v) waiting) is
  | .spin :: is => waiting ++ delivered qm qo [] is
  | .tick tf draws :: is => .tick tf draws :: delivered qm qo waiting is

end Ergodic
