import Verif.Spec.Concurrent
import Verif.Spec.DynamicWindow
import Verif.Model.Torn

/-!
# Specification vocabulary for odometry that arrives while the window is computed
-/

namespace Ergodic
variable {F : Type} [Flt F]

/-- Every component of `a` is that component of one of the velocities of `l`, not necessarily of the
same one. -/
def Mixed (l : List (V3 F)) (a : V3 F) : Prop :=
  (∃ v ∈ l, a.c0 = v.c0) ∧ (∃ v ∈ l, a.c1 = v.c1) ∧ (∃ v ∈ l, a.c2 = v.c2)

/-- `u` is one of the twists at the grid points of the window whose lower ends come from `a` and
whose upper ends come from `b`. -/
def IsSampleT (d : DynamicWindow F) (a b u : V3 F) : Prop :=
  ∃ i < d.vx_samples.toNat, ∃ j < d.vy_samples.toNat, ∃ k < d.vth_samples.toNat,
    u = ⟨stride (d.windowT a b).1.c0 (d.windowT a b).2.c0 i,
         stride (d.windowT a b).1.c1 (d.windowT a b).2.c1 j,
         stride (d.windowT a b).1.c2 (d.windowT a b).2.c2 k⟩

/-- no further than `r` from the interval between `p` and `q` -/
def NearSegment (r p q x : ℝ) : Prop := min p q - r ≤ x ∧ x ≤ max p q + r

/-- messages as callbacks -/
def odomCallbacks (msgs : List (V3 F)) : List (Callback F) := msgs.map .odom

/-- An execution in which odometry may arrive while the window is computed, see `ConcTrace`. -/
inductive TornTrace (s : Expl F) : List (Event F) → List (List (Out F)) → Expl F → Prop
  | nil : TornTrace s [] [] s
  | snoc {t t' : Expl F} {es : List (Event F)} {os : List (List (Out F))} {tf : Option (TransformMsg F)}
      {draws : List Nat} {c : Slots F} {msgs : List (V3 F)} {g : Gaps} {o : List (Out F)} :
      TornTrace s es os t → t.iterationT tf draws c msgs g = .ok (t', o) →
      TornTrace s (es ++ asEvents (c.all ++ odomCallbacks msgs) ++ [.tick tf draws]) (os ++ [o]) t'

end Ergodic
