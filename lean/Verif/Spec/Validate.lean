import Verif.Model.Numerics

/-!
# Specification vocabulary: the poses visited by a constant twist
-/

namespace Ergodic
variable {F : Type} [Flt F]

/-- One simulated step: integrate the twist, then wrap the heading. -/
def stepPose (u : V3 F) (dt : F) (x : V3 F) : V3 F :=
  let y := integrateTwist x u dt
  ⟨y.c0, y.c1, normalizeAnglePI y.c2⟩

/-- The pose after `k` simulated steps. -/
def poseAfter (u : V3 F) (dt : F) (x : V3 F) (k : Nat) : V3 F := (stepPose u dt)^[k] x

end Ergodic
