import Verif.Spec.RoundedRunning

/-!
# Specification vocabulary: surroundings for the shipped configurations

In plain numbers, metres, seconds and radians.
-/

namespace Ergodic
variable {M : Machine}

/-- A map message of finite numbers with the lower corner `(ax, ay)`, within a thousand kilometres of
the origin, cells of `r`, at least 1/64 m, at least one cell and at most a kilometre along each
axis, and as many data as cells. -/
structure MapSized (m : OccupancyGrid (RDbl M)) (ax ay r : ℝ) : Prop where
  x : m.originX = .fin ax
  y : m.originY = .fin ay
  res : m.resolution = .fin r
  res_lo : 1 / 64 ≤ r
  wide : 0 < m.width.toNat
  high : 0 < m.height.toNat
  width : m.width.toNat * r ≤ 1000
  height : m.height.toNat * r ≤ 1000
  ax_le : |ax| ≤ 10 ^ 6
  ay_le : |ay| ≤ 10 ^ 6
  data : m.data.length = m.width.toNat * m.height.toNat

/-- Such a map at most 25 m from a shipped target along each axis. -/
def MapNearTarget (m : OccupancyGrid (RDbl M)) : Prop :=
  ∃ ax ay r t : ℝ, MapSized m ax ay r ∧ (t = 5 / 2 ∨ t = 17 / 2) ∧ ax - 25 ≤ t ∧
    t ≤ ax + m.width.toNat * r + 25 ∧ ay - 25 ≤ 5 / 2 ∧ 5 / 2 ≤ ay + m.height.toNat * r + 25

/-- Such a map that begins to the right of the coordinate 81 or above the coordinate 75, at least 72 m
from both targets. -/
def MapFarFromTarget (m : OccupancyGrid (RDbl M)) : Prop :=
  ∃ ax ay r : ℝ, MapSized m ax ay r ∧ (81 ≤ ax ∨ 75 ≤ ay)

/-- A measured twist of finite numbers, up to `x` along the robot, `y` across and `r` turning. -/
def MeasuredTwist (x y r : ℝ) (vb : V3 (RDbl M)) : Prop :=
  ∃ a b c : ℝ, vb = ⟨.fin a, .fin b, .fin c⟩ ∧ |a| ≤ x ∧ |b| ≤ y ∧ |c| ≤ r

/-- Each iteration is supplied with a hundred random integers, each the index of one of the last
million remembered poses; the map, once there is one, is near one of the two targets; and a robot
that is localised is within a thousand kilometres of the origin and `D` metres within the map's
lower edges. -/
def Fed (D : ℝ) (es : List (Event (RDbl M))) : Prop :=
  ∀ pre tf draws post, es = pre ++ .tick tf draws :: post →
    draws.length = 100 ∧ (∀ r ∈ draws, r < min (poses (pre ++ [.tick tf draws])).length 1000000) ∧
    (∀ m, (maps pre).getLast? = some m → MapNearTarget m) ∧
    ∀ m x, (maps pre).getLast? = some m → (poses (pre ++ [.tick tf draws])).getLast? = some x →
      RoomRd (mapOf m) x (10 ^ 6) D

end Ergodic
