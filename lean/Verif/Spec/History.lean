import Verif.Spec.Exploration

/-!
# Specification vocabulary: what of a history matters

A history is a list of map messages, odometry messages and loop iterations.  `views` lists, iteration by
iteration, what the node can know at that moment if it forgets every message but the last of its kind.
-/

namespace Ergodic
variable {F : Type} [Flt F]

/-- What an iteration of the loop is given: the result of the transform lookup, the random integers, the
last map message and the last measured twist. -/
structure View (F : Type) where
  tf : Option (TransformMsg F)
  draws : List Nat
  map : Option (OccupancyGrid F)
  odom : Option (V3 F)

/-- What each iteration in the history is given, when `m` and `v` are the last messages before it. -/
def views (m : Option (OccupancyGrid F)) (v : Option (V3 F)) : List (Event F) → List (View F)
  | [] => []
  | .map x :: es => views (some x) v es
  | .odom x :: es => views m (some x) es
  | .tick tf draws :: es => ⟨tf, draws, m, v⟩ :: views m v es

/-- The same event, except that an odometry message may carry another twist. -/
inductive SameButOdom : Event F → Event F → Prop
  | same (e) : SameButOdom e e
  | odom (v v') : SameButOdom (.odom v) (.odom v')

/-- The same event, except that other random integers may have been drawn. -/
inductive SameButDraws : Event F → Event F → Prop
  | same (e) : SameButDraws e e
  | tick (tf d d') : SameButDraws (.tick tf d) (.tick tf d')

/-- What a run published, without the final state. -/
def published {σ : Type} (r : Res (σ × List (Out F))) : Res (List (Out F)) := r >>= fun x => .ok x.2

end Ergodic
