import Verif.Spec.DynamicWindow
import Verif.Spec.Collision

/-!
# More and less cautious settings

Vocabulary of C136.
-/

namespace Ergodic

/-- The second detector is at least as cautious as the first: it begins its search no farther from the robot,
reports collisions and searches at least as far, and takes at least the same cells for occupied. -/
structure Warier (c c' : Collision ℝ) : Prop where
  inner : c'.boundary_radius ≤ c.boundary_radius
  outer : c.boundary_radius + c.obstacle_threshold ≤ c'.boundary_radius + c'.obstacle_threshold
  search : c.search_radius ≤ c'.search_radius
  level : c'.occupied_threshold ≤ c.occupied_threshold

/-- The second window differs from the first in its detector, at least as cautious, and in its horizon, at
least as many steps. -/
structure WarierWindow (d d' : DynamicWindow ℝ) : Prop where
  collision : Warier d.collision d'.collision
  steps : d.steps.toNat ≤ d'.steps.toNat
  rest : d' = { d with collision := d'.collision, steps := d'.steps, horizon := d'.horizon }

end Ergodic
