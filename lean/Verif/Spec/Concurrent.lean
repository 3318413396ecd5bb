import Verif.Spec.Exploration
import Verif.Model.Concurrent

/-!
# Specification vocabulary for callbacks during an iteration
-/

namespace Ergodic
variable {F : Type} [Flt F]

/-- the event of a callback that runs between two iterations -/
def Callback.event : Callback F → Event F
  | .map msg => .map msg
  | .odom vb => .odom vb

/-- the callbacks of a list as events between two iterations -/
def asEvents (cs : List (Callback F)) : List (Event F) := cs.map Callback.event

/-- no map message among the callbacks -/
def NoMap (cs : List (Callback F)) : Prop := ∀ c ∈ cs, ∃ v, c = .odom v

/-- The callbacks of one iteration in the order in which they run. -/
def Slots.all (c : Slots F) : List (Callback F) := c.flag ++ c.plan ++ c.check ++ c.search

/-- A concurrent execution: `ConcTrace s es os t` where `es` lists what the node has received and done
so far, the callbacks of an iteration before the iteration itself, and `os` what each iteration
published. -/
inductive ConcTrace (s : Expl F) : List (Event F) → List (List (Out F)) → Expl F → Prop
  | nil : ConcTrace s [] [] s
  | snoc {t t' : Expl F} {es : List (Event F)} {os : List (List (Out F))} {tf : Option (TransformMsg F)}
      {draws : List Nat} {c : Slots F} {o : List (Out F)} : ConcTrace s es os t →
      t.iterationC tf draws c = .ok (t', o) →
      ConcTrace s (es ++ asEvents c.all ++ [.tick tf draws]) (os ++ [o]) t'

end Ergodic
