import Verif.Spec.Session

/-!
# Specification vocabulary: what the robot does, apart from the drawing of the target
-/

namespace Ergodic
variable {F : Type}

/-- What is published about the motion: planned trajectories, avoiding paths and twists, but not the
markers that show the target. -/
def motionOf : List (Out F) → List (Out F)
  | [] => []
  | .target _ :: os => motionOf os
  | o :: os => o :: motionOf os

/-- Everything published about the motion is the same, and so is how the run ends. -/
def SameMotion (a b : Res (List (Out F))) : Prop := SameOutcome (fun x y => motionOf y = motionOf x) a b

/-- Both targets describe the same distribution: their densities are proportional. -/
def Proportional (t t' : Target ℝ) : Prop :=
  ∃ k : ℝ, k ≠ 0 ∧ ∀ p trans : V2 ℝ, t'.evaluate p trans = k * t.evaluate p trans

end Ergodic
