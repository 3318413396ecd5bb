import Mathlib.Algebra.Order.ToIntervalMod
import Mathlib.Analysis.SpecialFunctions.Trigonometric.Bounds
import Verif.Lemmas.Real
import Verif.Spec.Motion
import Verif.Model.Numerics

/-! # Helper lemmas about `numerics.hpp` over the reals -/

namespace Ergodic
open Real

theorem real_fabs (x : ℝ) : fabs x = |x| := by
  unfold fabs
  by_cases h : x < 0
  · rw [if_pos (by simpa using h)]; simp [abs_of_neg h]
  · rw [if_neg (by simpa using h)]; simp [abs_of_nonneg (not_lt.mp h)]

theorem real_almostEqual (a b e : ℝ) : almostEqual a b e = true ↔ |a - b| < e := by
  simp [almostEqual, real_fabs]

theorem normalizeAnglePI_eq (r : ℝ) :
    normalizeAnglePI r = r - ⌊(r + π) / (2 * π)⌋ * (2 * π) := by
  have h2 : (0:ℝ) < 2 * π := by positivity
  have h := Int.floor_le ((r + π) / (2 * π))
  rw [le_div_iff₀ h2] at h
  have hn : ¬ (r + π - (⌊(r + π) / (2 * π)⌋ : ℝ) * 2 * π < 0) := by
    rw [not_lt]; linarith
  have e : (lit 2 0 : ℝ) = 2 := by simp
  have e0 : (lit 0 0 : ℝ) = 0 := by simp
  simp only [normalizeAnglePI, e, e0, real_add, real_sub, real_mul, real_div, real_floor, real_pi]
  rw [if_neg (by simpa using hn)]; ring

theorem normalizeAngle2PI_eq (r : ℝ) :
    normalizeAngle2PI r = r - ⌊r / (2 * π)⌋ * (2 * π) := by
  have h2 : (0:ℝ) < 2 * π := by positivity
  have h := Int.floor_le (r / (2 * π))
  rw [le_div_iff₀ h2] at h
  have hn : ¬ (r - (⌊r / (2 * π)⌋ : ℝ) * 2 * π < 0) := by
    rw [not_lt]; linarith
  have e : (lit 2 0 : ℝ) = 2 := by simp
  have e0 : (lit 0 0 : ℝ) = 0 := by simp
  simp only [normalizeAngle2PI, e, e0, real_sub, real_mul, real_div, real_floor, real_pi]
  rw [if_neg (by simpa using hn)]; ring

theorem integrateTwist_rot {x u : V3 ℝ} {t : ℝ} (hw : 1 / 10 ^ 12 ≤ |u.c2|) (ht : t ≠ 0) :
    integrateTwist x u t = flow x u t := by
  have hne : u.c2 ≠ 0 := by
    intro h; rw [h] at hw; norm_num at hw
  have hf : ¬ almostEqual u.c2 (lit 0 0 : ℝ) = true := by
    rw [real_almostEqual]; simp only [real_lit]; norm_num at hw ⊢; simpa using hw
  have hwt : u.c2 * t ≠ 0 := mul_ne_zero hne ht
  simp only [integrateTwist, hf, flow, hne, if_false]
  ext
  · simp [V3.add, transform2dAngle, M3.mulVec, V3.dot]
    rw [sin_add, cos_add]; field_simp; ring
  · simp [V3.add, transform2dAngle, M3.mulVec, V3.dot]
    rw [sin_add, cos_add]; field_simp; ring
  · simp [V3.add, transform2dAngle, M3.mulVec, V3.dot]

theorem integrateTwist_line {x u : V3 ℝ} {t : ℝ} (hw : |u.c2| < 1 / 10 ^ 12) :
    integrateTwist x u t = flow x ⟨u.c0, u.c1, 0⟩ t := by
  have hf : almostEqual u.c2 (lit 0 0 : ℝ) = true := by
    rw [real_almostEqual]; simp only [real_lit]; norm_num at hw ⊢; simpa using hw
  simp only [integrateTwist, hf, flow, if_true]
  ext
  · simp [V3.add, transform2dAngle, M3.mulVec, V3.dot]; ring
  · simp [V3.add, transform2dAngle, M3.mulVec, V3.dot]; ring
  · simp [V3.add, transform2dAngle, M3.mulVec, V3.dot]

/-- The motion does not depend on the representation of the initial heading. -/
theorem flow_same_heading {x y u : V3 ℝ} {t : ℝ} (h0 : x.c0 = y.c0) (h1 : x.c1 = y.c1)
    (h2 : SameHeading x.c2 y.c2) :
    (flow x u t).c0 = (flow y u t).c0 ∧ (flow x u t).c1 = (flow y u t).c1 ∧
      SameHeading (flow x u t).c2 (flow y u t).c2 := by
  obtain ⟨k, hk⟩ := h2
  have e : ∀ a : ℝ, y.c2 + k * (2 * π) + a = y.c2 + a + k * (2 * π) := fun a => by ring
  refine ⟨?_, ?_, k, by rw [flow_heading, flow_heading, hk]; ring⟩
  · simp only [flow, hk, h0]
    split <;> simp only [e, sin_add_int_mul_two_pi, cos_add_int_mul_two_pi]
  · simp only [flow, hk, h1]
    split <;> simp only [e, sin_add_int_mul_two_pi, cos_add_int_mul_two_pi]

theorem flow_add (x u : V3 ℝ) (s t : ℝ) : flow x u (s + t) = flow (flow x u s) u t := by
  by_cases h : u.c2 = 0
  · simp only [flow, h, if_true]; ext <;> simp <;> ring
  · have e : x.c2 + u.c2 * (s + t) = x.c2 + u.c2 * s + u.c2 * t := by ring
    simp only [flow, h, if_false, e]; ext <;> simp <;> field_simp <;> ring

theorem abs_sin_taylor (a h : ℝ) : |sin (a + h) - sin a - h * cos a| ≤ h ^ 2 := by
  have e : sin (a + h) - sin a - h * cos a = sin a * (cos h - 1) + cos a * (sin h - h) := by
    rw [sin_add]; ring
  have h1 : |cos h - 1| ≤ h ^ 2 / 2 := by
    rw [abs_sub_comm, abs_of_nonneg (by linarith [cos_le_one h])]
    linarith [one_sub_sq_div_two_le_cos (x := h)]
  have h2 : |sin h - h| ≤ h ^ 2 / 2 := by
    have key : ∀ y : ℝ, 0 ≤ y → |sin y - y| ≤ y ^ 2 / 2 := by
      intro y hy
      have hle := sin_le hy
      rw [abs_of_nonpos (by linarith)]
      -- `y - sin y ≤ y²/2` because its derivative `1 - cos` is at most `y`
      have hm : MonotoneOn (fun y : ℝ => y ^ 2 / 2 - y + sin y) (Set.Ici 0) := by
        apply monotoneOn_of_deriv_nonneg (convex_Ici 0)
        · fun_prop
        · fun_prop
        · intro z hz
          rw [interior_Ici, Set.mem_Ioi] at hz
          have hd : HasDerivAt (fun y : ℝ => y ^ 2 / 2 - y + sin y) (z - 1 + cos z) z := by
            have := (((hasDerivAt_pow 2 z).div_const 2).sub (hasDerivAt_id z)).add
              (hasDerivAt_sin z)
            refine this.congr_deriv ?_
            norm_num
          rw [hd.deriv]
          by_cases hz1 : 1 ≤ z
          · by_cases hz2 : 2 ≤ z
            · linarith [neg_one_le_cos z]
            · have : 0 ≤ cos z ∨ cos z < 0 := le_or_gt _ _
              have := one_sub_sq_div_two_le_cos (x := z)
              nlinarith
          · have := one_sub_sq_div_two_le_cos (x := z)
            nlinarith
      have := hm (Set.mem_Ici.mpr le_rfl) (Set.mem_Ici.mpr hy) hy
      simp at this
      linarith
    rcases le_total 0 h with hh | hh
    · exact key h hh
    · have := key (-h) (by linarith)
      rw [sin_neg] at this
      rw [← abs_neg, show -(sin h - h) = -sin h - -h by ring]
      simpa using this
  rw [e]
  calc |sin a * (cos h - 1) + cos a * (sin h - h)|
      ≤ |sin a * (cos h - 1)| + |cos a * (sin h - h)| := abs_add_le _ _
    _ = |sin a| * |cos h - 1| + |cos a| * |sin h - h| := by rw [abs_mul, abs_mul]
    _ ≤ 1 * (h ^ 2 / 2) + 1 * (h ^ 2 / 2) := by
        gcongr
        · exact abs_sin_le_one a
        · exact abs_cos_le_one a
    _ = h ^ 2 := by ring

theorem abs_cos_taylor (a h : ℝ) : |cos (a + h) - cos a + h * sin a| ≤ h ^ 2 := by
  have := abs_sin_taylor (a + π / 2) h
  rw [show a + π / 2 + h = (a + h) + π / 2 by ring, sin_add_pi_div_two, sin_add_pi_div_two,
    cos_add_pi_div_two] at this
  simpa using this

theorem realAtan2_smul {k : ℝ} (hk : 0 < k) (y x : ℝ) :
    realAtan2 (k * y) (k * x) = realAtan2 y x := by
  have : (⟨k * x, k * y⟩ : ℂ) = (k : ℂ) * ⟨x, y⟩ := by
    apply Complex.ext <;> simp
  rw [realAtan2, this, Complex.arg_real_mul _ hk]; rfl

theorem getYaw_regular (qx qy qz qw : ℝ)
    (h : |2 * (qx * qz - qw * qy) / (qx * qx + qy * qy + qz * qz + qw * qw)| ≤ 99999 / 100000 - 1 / 10 ^ 12) :
    getYaw qx qy qz qw =
      realAtan2 (2 * (qx * qy + qw * qz)) (qw * qw + qx * qx - qy * qy - qz * qz) := by
  set s := 2 * (qx * qz - qw * qy) / (qx * qx + qy * qy + qz * qz + qw * qw) with hs
  rw [abs_le] at h
  have e : -2 * (qx * qz - qw * qy) / (qx * qx + qy * qy + qz * qz + qw * qw) = -s := by
    rw [hs]; ring
  have a1 : ¬ (-s < -99999 / 10 ^ 5 ∨ |-s - (-99999 / 10 ^ 5 : ℝ)| < 1 / 10 ^ 12) := by
    norm_num at h
    rintro (h' | h')
    · norm_num at h'; linarith
    · rw [abs_lt] at h'; norm_num at h'; linarith
  have a2 : ¬ ((99999 / 10 ^ 5 : ℝ) < -s ∨ |-s - (99999 / 10 ^ 5 : ℝ)| < 1 / 10 ^ 12) := by
    norm_num at h
    rintro (h' | h')
    · norm_num at h'; linarith
    · rw [abs_lt] at h'; norm_num at h'; linarith
  have e2 : (lit (-2) 0 : ℝ) = -2 := by simp
  have e2' : (lit 2 0 : ℝ) = 2 := by simp
  simp only [getYaw, e2, e2', real_mul, real_add, real_sub, real_div, real_atan2, e,
    Bool.or_eq_true, real_lt, real_almostEqual, real_lit, Int.cast_neg, Int.cast_ofNat,
    Int.cast_one]
  rw [if_neg a1, if_neg a2]

end Ergodic
