import Verif.Spec.Seen

/-!
# What rounded beams make of a cell
-/

namespace Ergodic

/-- From the percentage `c` a sensor with evidence `s : 1 - s` learns the percentage `c'`: it is the Bayes posterior or
less, by at most one; certainty stays. -/
def Learns (s : ℝ) (c c' : Int) : Prop :=
  100 * posterior ((c : ℝ) / 100) s - 1 ≤ c' ∧ (c' : ℝ) ≤ 100 * posterior ((c : ℝ) / 100) s ∧ 0 ≤ c' ∧
    (c = 0 ∨ c = 100 → c' = c)

/-- The beams from `src` to the given cells, in this order, may turn the percentage `c` of the cell in column `x`, row
`y` into `c'`. -/
inductive Evidence (src : UInt32 × UInt32) (x y : Int) : List (UInt32 × UInt32) → Int → Int → Prop
  | nil (c : Int) : Evidence src x y [] c c
  | hit {h : UInt32 × UInt32} {hs : List (UInt32 × UInt32)} {c c1 c' : Int} : EndsIn x y h → Learns 0.9 c c1 →
      Evidence src x y hs c1 c' → Evidence src x y (h :: hs) c c'
  | pass {h : UInt32 × UInt32} {hs : List (UInt32 × UInt32)} {c c1 c' : Int} : PassesBy src x y h →
      Learns 0.35 c c1 → Evidence src x y hs c1 c' → Evidence src x y (h :: hs) c c'
  | other {h : UInt32 × UInt32} {hs : List (UInt32 × UInt32)} {c c' : Int} : ¬ EndsIn x y h →
      ¬ PassesBy src x y h → Evidence src x y hs c c' → Evidence src x y (h :: hs) c c'

end Ergodic
