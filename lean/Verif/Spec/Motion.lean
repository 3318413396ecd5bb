import Mathlib.Analysis.SpecialFunctions.Trigonometric.Deriv
import Verif.Base.Vec

/-!
# Specification vocabulary: planar motion with a constant body twist

`flow x u t` is the textbook closed form of the motion of a planar body that starts at the
pose `x` and moves with the constant body twist `u = (vx, vy, w)`.  `flow_zero` and the
three `flow_deriv` theorems say that it is the solution of the kinematic equations, so the
closed form need not be trusted.
-/

namespace Ergodic
open Real

/-- Two headings are the same direction. -/
def SameHeading (a b : ℝ) : Prop := ∃ k : ℤ, a = b + k * (2 * π)

/-- Motion of a planar body under a constant body twist. -/
noncomputable def flow (x u : V3 ℝ) (t : ℝ) : V3 ℝ :=
  if u.c2 = 0 then
    ⟨x.c0 + (u.c0 * cos x.c2 - u.c1 * sin x.c2) * t,
     x.c1 + (u.c0 * sin x.c2 + u.c1 * cos x.c2) * t, x.c2⟩
  else
    ⟨x.c0 + (u.c0 * (sin (x.c2 + u.c2 * t) - sin x.c2)
        + u.c1 * (cos (x.c2 + u.c2 * t) - cos x.c2)) / u.c2,
     x.c1 + (u.c0 * (cos x.c2 - cos (x.c2 + u.c2 * t))
        + u.c1 * (sin (x.c2 + u.c2 * t) - sin x.c2)) / u.c2,
     x.c2 + u.c2 * t⟩

/-- The motion starts at the initial pose. -/
theorem flow_zero (x u : V3 ℝ) : flow x u 0 = x := by
  unfold flow; split <;> simp

/-- The heading turns at the commanded rate. -/
theorem flow_heading (x u : V3 ℝ) (t : ℝ) : (flow x u t).c2 = x.c2 + u.c2 * t := by
  unfold flow; split
  · rename_i h; simp [h]
  · rfl

/-- Kinematic equation for `x`. -/
theorem flow_deriv_x (x u : V3 ℝ) (t : ℝ) :
    HasDerivAt (fun t => (flow x u t).c0)
      (u.c0 * cos (flow x u t).c2 - u.c1 * sin (flow x u t).c2) t := by
  by_cases h : u.c2 = 0
  · simp only [flow, h, if_true]
    simpa using ((hasDerivAt_id t).const_mul (u.c0 * cos x.c2 - u.c1 * sin x.c2)).const_add x.c0
  · simp only [flow, h, if_false]
    have hl : HasDerivAt (fun t : ℝ => x.c2 + u.c2 * t) u.c2 t := by
      simpa using ((hasDerivAt_id t).const_mul u.c2).const_add x.c2
    have := (((hl.sin.sub_const (sin x.c2)).const_mul u.c0).add
      ((hl.cos.sub_const (cos x.c2)).const_mul u.c1)).div_const u.c2 |>.const_add x.c0
    refine this.congr_deriv ?_
    rw [div_eq_iff h]; ring

/-- Kinematic equation for `y`. -/
theorem flow_deriv_y (x u : V3 ℝ) (t : ℝ) :
    HasDerivAt (fun t => (flow x u t).c1)
      (u.c0 * sin (flow x u t).c2 + u.c1 * cos (flow x u t).c2) t := by
  by_cases h : u.c2 = 0
  · simp only [flow, h, if_true]
    simpa using ((hasDerivAt_id t).const_mul (u.c0 * sin x.c2 + u.c1 * cos x.c2)).const_add x.c1
  · simp only [flow, h, if_false]
    have hl : HasDerivAt (fun t : ℝ => x.c2 + u.c2 * t) u.c2 t := by
      simpa using ((hasDerivAt_id t).const_mul u.c2).const_add x.c2
    have := (((hl.cos.const_sub (cos x.c2)).const_mul u.c0).add
      ((hl.sin.sub_const (sin x.c2)).const_mul u.c1)).div_const u.c2 |>.const_add x.c1
    refine this.congr_deriv ?_
    rw [div_eq_iff h]; ring

/-- Kinematic equation for the heading. -/
theorem flow_deriv_heading (x u : V3 ℝ) (t : ℝ) :
    HasDerivAt (fun t => (flow x u t).c2) u.c2 t := by
  simp only [flow_heading]
  simpa using ((hasDerivAt_id t).const_mul u.c2).const_add x.c2

end Ergodic
