import Verif.Spec.ClosedLoop
import Verif.Spec.Collision
import Verif.Props.Speed

/-!
# Specification vocabulary: maps that change while the robot drives
-/

namespace Ergodic

/-- Every position within `D` of `x` that is free on the first map is free on the second: obstacles may
disappear, but appear only farther from the robot. -/
def NoNewNear (c : Collision ℝ) (D : ℝ) (x : V3 ℝ) (m m' : OccupancyGrid ℝ) : Prop :=
  ∀ q : V3 ℝ, planar q x ≤ D → c.collisionCheck (mapOf m) q = .ok false →
    c.collisionCheck (mapOf m') q = .ok false

/-- The robot is free on the map when both are first known, and no later map shows a new obstacle within
reach `D` of where the last iteration found the robot. -/
structure Foreseen (c : Collision ℝ) (D : ℝ) (es : List (Event ℝ)) : Prop where
  first_pose : ∀ pre e post m x, es = pre ++ e :: post → poses pre = [] → e.pose? = some x →
    (maps pre).getLast? = some m → c.collisionCheck (mapOf m) x = .ok false
  first_map : ∀ pre m post x, es = pre ++ .map m :: post → maps pre = [] → (poses pre).getLast? = some x →
    c.collisionCheck (mapOf m) x = .ok false
  later : ∀ pre m' post m x, es = pre ++ .map m' :: post → (maps pre).getLast? = some m →
    (poses pre).getLast? = some x → NoNewNear c D x m m'

/-- The second map is the first, grown by whole cells (`a` to the left, `b` below, any number to the right
and above); the robot is inside the first by more than `D`; and cells of the second within `R` of the robot,
along both axes, are occupied only if the first has the same cell and shows it occupied. -/
structure Grown (thr : ℝ) (D R : ℝ) (x : V3 ℝ) (m m' : OccupancyGrid ℝ) : Prop where
  resolution : m'.resolution = m.resolution
  lattice : ∃ a b : ℕ, m.originX = m'.originX + a * m.resolution ∧ m.originY = m'.originY + b * m.resolution ∧
    m.width.toNat + a ≤ m'.width.toNat ∧ m.height.toNat + b ≤ m'.height.toNat ∧
    ∀ i j : Int, Occupied thr (mapOf m') i j →
      |m'.originX + (j + 1 / 2) * m.resolution - x.c0| ≤ R → |m'.originY + (i + 1 / 2) * m.resolution - x.c1| ≤ R →
      Occupied thr (mapOf m) (i - b) (j - a)
  left : m.originX + D ≤ x.c0
  right : x.c0 + D < m.originX + m.width.toNat * m.resolution
  below : m.originY + D ≤ x.c1
  above : x.c1 + D < m.originY + m.height.toNat * m.resolution

end Ergodic
