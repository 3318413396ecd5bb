import Verif.Spec.RoundedRunning
import Verif.Spec.Collision

/-!
# Specification vocabulary: a robot that is too close to an obstacle
-/

namespace Ergodic
variable {F : Type} [Flt F] {M : Machine}

/-- At every localised iteration of the history, once there is a map, the detectors `c` and `c'` report a
collision one step, of `dt` and `dt'`, of every twist with `P` away from the pose. -/
def AlwaysTooClose (c c' : Collision F) (dt dt' : F) (P : V3 F → Prop) (es : List (Event F)) : Prop :=
  ∀ pre tf draws post, es = pre ++ .tick tf draws :: post → ∀ m x, (maps pre).getLast? = some m →
    (poses (pre ++ [.tick tf draws])).getLast? = some x → ∀ u, P u →
      c.collisionCheck (mapOf m) (poseAfter u dt x 1) = .ok true ∧
      c'.collisionCheck (mapOf m) (poseAfter u dt' x 1) = .ok true

/-- At every localised iteration of the history, once there is a map, the detector reports a collision
wherever the robot might be within `ρ` of its position along both axes. -/
def CloseAround (c : Collision (RDbl M)) (ρ : ℝ) (es : List (Event (RDbl M))) : Prop :=
  ∀ pre tf draws post, es = pre ++ .tick tf draws :: post → ∀ m (x y : ℝ) th, (maps pre).getLast? = some m →
    (poses (pre ++ [.tick tf draws])).getLast? = some ⟨.fin x, .fin y, th⟩ →
      ∀ (x' y' : ℝ) th', |x' - x| ≤ ρ → |y' - y| ≤ ρ →
        c.collisionCheck (mapOf m) ⟨.fin x', .fin y', th'⟩ = .ok true

/-- There is a straight way back from `(x, y)`, looking along the x axis, to a place that is free, and on
that way no obstacle comes closer. -/
def WayBack (c : Collision (RDbl M)) (g : GridMap (RDbl M)) (ax ay r x y : ℝ) : Prop :=
  ∃ d : ℝ, 0 < d ∧ c.collisionCheck g ⟨.fin (x - d), .fin y, .fin 0⟩ = .ok false ∧
    ∀ i j : Int, Occupied c.occupied_threshold g i j → ∀ s t : ℝ, 0 ≤ s → s ≤ t → t ≤ d →
      (ax + (j + 1 / 2) * r - (x - s)) ^ 2 + (ay + (i + 1 / 2) * r - y) ^ 2 ≤
        (ax + (j + 1 / 2) * r - (x - t)) ^ 2 + (ay + (i + 1 / 2) * r - y) ^ 2

/-- No point of an occupied cell is within `ρ` of `(x, y)`. -/
def ClearOf (c : Collision (RDbl M)) (g : GridMap (RDbl M)) (ax ay r x y ρ : ℝ) : Prop :=
  ∀ i j : Int, Occupied c.occupied_threshold g i j → ∀ px py : ℝ, ax + j * r ≤ px → px ≤ ax + (j + 1) * r →
    ay + i * r ≤ py → py ≤ ay + (i + 1) * r → ρ ^ 2 < (px - x) ^ 2 + (py - y) ^ 2

end Ergodic
