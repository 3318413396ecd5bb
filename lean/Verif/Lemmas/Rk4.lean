import Verif.Model.Integrator
import Verif.Spec.Dynamics
import Verif.Lemmas.Numerics
import Mathlib.Analysis.Calculus.Deriv.MeanValue

/-! # The RK4 step over the reals -/

namespace Ergodic
open Real

/-! ## Simpson's rule for the circular functions -/

theorem nonneg_of_deriv {f f' : ℝ → ℝ} (h0 : f 0 = 0) (hd : ∀ x, HasDerivAt f (f' x) x)
    (hn : ∀ x, 0 ≤ x → 0 ≤ f' x) (x : ℝ) (hx : 0 ≤ x) : 0 ≤ f x := by
  have hm : MonotoneOn f (Set.Ici 0) := by
    apply monotoneOn_of_deriv_nonneg (convex_Ici 0)
    · exact fun y _ => (hd y).continuousAt.continuousWithinAt
    · exact fun y _ => (hd y).differentiableAt.differentiableWithinAt
    · intro y hy
      rw [interior_Ici, Set.mem_Ioi] at hy
      rw [(hd y).deriv]
      exact hn y hy.le
  have := hm (Set.mem_Ici.mpr le_rfl) (Set.mem_Ici.mpr hx) hx
  rwa [h0] at this

theorem simpson_aux (s : ℝ) (hs : |s| ≤ 1) (d : ℝ) (hd : 0 ≤ d) :
    0 ≤ d ^ 5 / 60 + s * (d * (2 + cos d) - 3 * sin d) := by
  have h1 : ∀ x : ℝ, 0 ≤ x → 0 ≤ x ^ 2 + s * (x * sin x) := by
    intro x hx
    have a1 : |s * (x * sin x)| ≤ x ^ 2 := by
      rw [abs_mul, abs_mul, abs_of_nonneg hx]
      have := abs_sin_le_one x
      have h2 : |sin x| ≤ x := by
        have := abs_sin_le_abs (x := x)
        rwa [abs_of_nonneg hx] at this
      calc |s| * (x * |sin x|) ≤ 1 * (x * x) := by
            apply mul_le_mul hs (mul_le_mul_of_nonneg_left h2 hx) (by positivity) (by norm_num)
        _ = x ^ 2 := by ring
    linarith [neg_le_of_abs_le a1]
  have h2 : ∀ x : ℝ, 0 ≤ x → 0 ≤ x ^ 3 / 3 + s * (sin x - x * cos x) := by
    apply nonneg_of_deriv (f' := fun x => x ^ 2 + s * (x * sin x)) (by simp) _ h1
    intro x
    have := ((hasDerivAt_pow 3 x).div_const 3).add
      (((hasDerivAt_sin x).sub ((hasDerivAt_id x).mul (hasDerivAt_cos x))).const_mul s)
    refine this.congr_deriv ?_
    simp
  have h3 : ∀ x : ℝ, 0 ≤ x → 0 ≤ x ^ 4 / 12 + s * (2 - 2 * cos x - x * sin x) := by
    apply nonneg_of_deriv (f' := fun x => x ^ 3 / 3 + s * (sin x - x * cos x)) (by simp) _ h2
    intro x
    have := ((hasDerivAt_pow 4 x).div_const 12).add
      (((((hasDerivAt_cos x).const_mul 2).const_sub 2).sub
        ((hasDerivAt_id x).mul (hasDerivAt_sin x))).const_mul s)
    refine this.congr_deriv ?_
    simp; ring
  refine nonneg_of_deriv (f := fun d => d ^ 5 / 60 + s * (d * (2 + cos d) - 3 * sin d))
    (f' := fun x => x ^ 4 / 12 + s * (2 - 2 * cos x - x * sin x)) (by simp) ?_ h3 d hd
  intro x
  have := ((hasDerivAt_pow 5 x).div_const 60).add
    (((((hasDerivAt_id x).mul ((hasDerivAt_cos x).const_add 2))).sub
      ((hasDerivAt_sin x).const_mul 3)).const_mul s)
  refine this.congr_deriv ?_
  simp; ring

/-- Error of Simpson's rule on `cos` around the midpoint. -/
theorem simpson_bound (d : ℝ) (hd : d ≠ 0) : |(2 + cos d) / 3 - sin d / d| ≤ d ^ 4 / 180 := by
  have key : ∀ y : ℝ, 0 < y → |(2 + cos y) / 3 - sin y / y| ≤ y ^ 4 / 180 := by
    intro y hy
    have h1 := simpson_aux 1 (by norm_num) y hy.le
    have h2 := simpson_aux (-1) (by norm_num) y hy.le
    have e : (2 + cos y) / 3 - sin y / y = (y * (2 + cos y) - 3 * sin y) / (3 * y) := by
      field_simp
    have e2 : y ^ 4 / 180 = (y ^ 5 / 60) / (3 * y) := by field_simp; norm_num
    rw [e, e2, abs_div, abs_of_pos (by positivity : 0 < 3 * y)]
    apply div_le_div_of_nonneg_right _ (by positivity)
    rw [abs_le]
    constructor <;> linarith
  rcases lt_or_gt_of_ne hd with h | h
  · have := key (-d) (by linarith)
    rw [cos_neg, sin_neg, neg_div_neg_eq] at this
    rw [show (-d) ^ 4 = d ^ 4 by ring] at this
    exact this
  · exact key d h

/-! ## Vector algebra -/

theorem mulVec_add (A : M3 ℝ) (v w : V3 ℝ) : A.mulVec (v.add w) = (A.mulVec v).add (A.mulVec w) := by
  ext <;> simp only [M3.mulVec, V3.dot, V3.add, real_add, real_mul] <;> ring

theorem mulVec_smul (A : M3 ℝ) (c : ℝ) (v : V3 ℝ) : A.mulVec (V3.smul c v) = V3.smul c (A.mulVec v) := by
  ext <;> simp only [M3.mulVec, V3.dot, V3.smul, real_add, real_mul] <;> ring

theorem mulVec_sub (A : M3 ℝ) (v w : V3 ℝ) : A.mulVec (v.sub w) = (A.mulVec v).sub (A.mulVec w) := by
  ext <;> simp only [M3.mulVec, V3.dot, V3.sub, real_add, real_sub, real_mul] <;> ring

/-- RK4 with the omni dynamics and a constant twist is Simpson's rule. -/
theorem omni_step (dt : ℝ) (x u : V3 ℝ) :
    RungeKutta.step dt (fun y v => .ok (Omni.f y v)) x u = .ok
      ⟨x.c0 + dt / 6 * ((u.c0 * cos x.c2 - u.c1 * sin x.c2)
          + 4 * (u.c0 * cos (x.c2 + dt * u.c2 / 2) - u.c1 * sin (x.c2 + dt * u.c2 / 2))
          + (u.c0 * cos (x.c2 + dt * u.c2) - u.c1 * sin (x.c2 + dt * u.c2))),
       x.c1 + dt / 6 * ((u.c0 * sin x.c2 + u.c1 * cos x.c2)
          + 4 * (u.c0 * sin (x.c2 + dt * u.c2 / 2) + u.c1 * cos (x.c2 + dt * u.c2 / 2))
          + (u.c0 * sin (x.c2 + dt * u.c2) + u.c1 * cos (x.c2 + dt * u.c2))),
       x.c2 + dt * u.c2⟩ := by
  simp only [RungeKutta.step, Omni.f, V3.add, V3.smul, Res.ok_bind, real_add, real_mul, real_sub,
    real_div, real_lit, real_sin, real_cos, Res.ok.injEq]
  have e : x.c2 + dt * ((5 : Int) / 10 ^ 1 * u.c2) = x.c2 + dt * u.c2 / 2 := by push_cast; ring
  rw [e]
  ext <;> push_cast <;> ring

theorem trig_half (a b : ℝ) :
    cos a = cos (a + b / 2) * cos (b / 2) + sin (a + b / 2) * sin (b / 2) ∧
    sin a = sin (a + b / 2) * cos (b / 2) - cos (a + b / 2) * sin (b / 2) ∧
    cos (a + b) = cos (a + b / 2) * cos (b / 2) - sin (a + b / 2) * sin (b / 2) ∧
    sin (a + b) = sin (a + b / 2) * cos (b / 2) + cos (a + b / 2) * sin (b / 2) := by
  refine ⟨?_, ?_, ?_, ?_⟩
  · rw [← cos_sub]; ring_nf
  · rw [← sin_sub]; ring_nf
  · rw [← cos_add]; ring_nf
  · rw [← sin_add]; ring_nf

/-- The exact motion in terms of the heading half way. -/
theorem flow_mid (x u : V3 ℝ) (t : ℝ) (hw : u.c2 ≠ 0) (ht : t ≠ 0) :
    (flow x u t).c0 = x.c0 + t * (u.c0 * cos (x.c2 + t * u.c2 / 2) - u.c1 * sin (x.c2 + t * u.c2 / 2))
      * (sin (t * u.c2 / 2) / (t * u.c2 / 2)) ∧
    (flow x u t).c1 = x.c1 + t * (u.c0 * sin (x.c2 + t * u.c2 / 2) + u.c1 * cos (x.c2 + t * u.c2 / 2))
      * (sin (t * u.c2 / 2) / (t * u.c2 / 2)) := by
  obtain ⟨h1, h2, h3, h4⟩ := trig_half x.c2 (t * u.c2)
  simp only [flow, hw, if_false]
  rw [mul_comm u.c2 t, h3, h4]
  generalize cos (x.c2 + t * u.c2 / 2) = cm at *
  generalize sin (x.c2 + t * u.c2 / 2) = sm at *
  rw [h1, h2]
  constructor <;> field_simp <;> ring

theorem omni_step_mid (dt : ℝ) (x u y : V3 ℝ)
    (h : RungeKutta.step dt (fun y v => .ok (Omni.f y v)) x u = .ok y) :
    y.c0 = x.c0 + dt * (u.c0 * cos (x.c2 + dt * u.c2 / 2) - u.c1 * sin (x.c2 + dt * u.c2 / 2))
      * ((2 + cos (dt * u.c2 / 2)) / 3) ∧
    y.c1 = x.c1 + dt * (u.c0 * sin (x.c2 + dt * u.c2 / 2) + u.c1 * cos (x.c2 + dt * u.c2 / 2))
      * ((2 + cos (dt * u.c2 / 2)) / 3) ∧
    y.c2 = x.c2 + u.c2 * dt := by
  rw [omni_step, Res.ok.injEq] at h
  subst h
  obtain ⟨h1, h2, h3, h4⟩ := trig_half x.c2 (dt * u.c2)
  refine ⟨?_, ?_, by simp only; ring⟩
  · simp only [h3, h4]
    generalize cos (x.c2 + dt * u.c2 / 2) = cm at *
    generalize sin (x.c2 + dt * u.c2 / 2) = sm at *
    rw [h1, h2]; ring
  · simp only [h3, h4]
    generalize cos (x.c2 + dt * u.c2 / 2) = cm at *
    generalize sin (x.c2 + dt * u.c2 / 2) = sm at *
    rw [h1, h2]; ring

end Ergodic
