import Verif.Props.Numerics

/-!
# C90: the heading of an arbitrary orientation

`getYaw` has separate formulas for orientations whose forward axis points nearly straight up or down.
-/

namespace Ergodic
open Real

/-- a quaternion from its four components -/
def quat (w x y z : ℝ) : Quaternion ℝ := ⟨w, x, y, z⟩

@[simp] theorem quat_re (w x y z : ℝ) : (quat w x y z).re = w := rfl
@[simp] theorem quat_I (w x y z : ℝ) : (quat w x y z).imI = x := rfl
@[simp] theorem quat_J (w x y z : ℝ) : (quat w x y z).imJ = y := rfl
@[simp] theorem quat_K (w x y z : ℝ) : (quat w x y z).imK = z := rfl

/-- the forward axis of the robot in the orientation `q` -/
noncomputable def forward (q : Quaternion ℝ) : Quaternion ℝ := q * forwardAxis * star q

theorem forward_I (q : Quaternion ℝ) : (forward q).imI = q.re ^ 2 + q.imI ^ 2 - q.imJ ^ 2 - q.imK ^ 2 := by
  have f0 : forwardAxis.re = 0 := rfl
  have f1 : forwardAxis.imI = 1 := rfl
  have f2 : forwardAxis.imJ = 0 := rfl
  have f3 : forwardAxis.imK = 0 := rfl
  simp [forward, f0, f1, f2, f3]; ring

theorem forward_J (q : Quaternion ℝ) : (forward q).imJ = 2 * (q.imI * q.imJ + q.re * q.imK) := by
  have f0 : forwardAxis.re = 0 := rfl
  have f1 : forwardAxis.imI = 1 := rfl
  have f2 : forwardAxis.imJ = 0 := rfl
  have f3 : forwardAxis.imK = 0 := rfl
  simp [forward, f0, f1, f2, f3]; ring

theorem forward_K (q : Quaternion ℝ) : (forward q).imK = 2 * (q.imI * q.imK - q.re * q.imJ) := by
  have f0 : forwardAxis.re = 0 := rfl
  have f1 : forwardAxis.imI = 1 := rfl
  have f2 : forwardAxis.imJ = 0 := rfl
  have f3 : forwardAxis.imK = 0 := rfl
  simp [forward, f0, f1, f2, f3]; ring

/-- Full statement of C90: whenever the forward axis is not vertical, the result is its heading. -/
def C90_statement : Prop :=
  ∀ q : Quaternion ℝ, ((forward q).imI ≠ 0 ∨ (forward q).imJ ≠ 0) →
    ((getYaw q.imI q.imJ q.imK q.re : ℝ) : Angle) = Complex.arg ⟨(forward q).imI, (forward q).imJ⟩

/-- C90 (missing: forward axes within 0.26 degrees of the vertical), with the value in (-π, π]. -/
theorem C90_partial (q : Quaternion ℝ) (hq : q ≠ 0)
    (h : |(forward q).imK| ≤ (99999 / 100000 - 1 / 10 ^ 12) * Quaternion.normSq q) :
    getYaw q.imI q.imJ q.imK q.re = Complex.arg ⟨(forward q).imI, (forward q).imJ⟩ := by
  apply C15_heading_of_forward_axis
  have hn : 0 < Quaternion.normSq q :=
    lt_of_le_of_ne Quaternion.normSq_nonneg (fun e => hq (Quaternion.normSq_eq_zero.mp e.symm))
  rw [forward_K] at h
  have e : q.imI * q.imI + q.imJ * q.imJ + q.imK * q.imK + q.re * q.re = Quaternion.normSq q := by
    rw [Quaternion.normSq_def']; ring
  rw [e, abs_div, abs_of_pos hn, div_le_iff₀ hn]
  exact h

/-- 84 degrees up -/
example : quat 9 0 8 0 ≠ 0 ∧
    |(forward (quat 9 0 8 0)).imK| ≤ (99999 / 100000 - 1 / 10 ^ 12) * Quaternion.normSq (quat 9 0 8 0) := by
  refine ⟨fun h => ?_, ?_⟩
  · have : (9:ℝ) = 0 := congrArg QuaternionAlgebra.re h
    norm_num at this
  · rw [forward_K, Quaternion.normSq_def']
    norm_num

theorem getYaw_up (qx qy qz qw : ℝ)
    (h : 99999 / 100000 * (qx * qx + qy * qy + qz * qz + qw * qw) ≤ 2 * (qw * qy - qx * qz))
    (hn : 0 < qx * qx + qy * qy + qz * qz + qw * qw) :
    getYaw qx qy qz qw = 2 * realAtan2 qy qx := by
  have e2 : (lit (-2) 0 : ℝ) = -2 := by simp
  have e2' : (lit 2 0 : ℝ) = 2 := by simp
  have hs : 99999 / 100000 ≤ -2 * (qx * qz - qw * qy) / (qx * qx + qy * qy + qz * qz + qw * qw) := by
    rw [le_div_iff₀ hn]; linarith
  simp only [getYaw, e2, e2', real_mul, real_add, real_sub, real_div, real_atan2,
    Bool.or_eq_true, real_lt, real_almostEqual, real_lit, Int.cast_neg, Int.cast_ofNat, Int.cast_one]
  generalize -2 * (qx * qz - qw * qy) / (qx * qx + qy * qy + qz * qz + qw * qw) = s at hs
  rw [if_neg, if_pos]
  · rcases hs.lt_or_eq with h' | h'
    · left; norm_num; linarith
    · right; rw [← h']; norm_num
  · rintro (h' | h')
    · norm_num at h'; linarith
    · rw [abs_lt] at h'; norm_num at h'; linarith

theorem getYaw_down (qx qy qz qw : ℝ)
    (h : 99999 / 100000 * (qx * qx + qy * qy + qz * qz + qw * qw) ≤ 2 * (qx * qz - qw * qy))
    (hn : 0 < qx * qx + qy * qy + qz * qz + qw * qw) :
    getYaw qx qy qz qw = -2 * realAtan2 qy qx := by
  have e2 : (lit (-2) 0 : ℝ) = -2 := by simp
  have e2' : (lit 2 0 : ℝ) = 2 := by simp
  have hs : -2 * (qx * qz - qw * qy) / (qx * qx + qy * qy + qz * qz + qw * qw) ≤ -99999 / 100000 := by
    rw [div_le_iff₀ hn]; linarith
  simp only [getYaw, e2, e2', real_mul, real_add, real_sub, real_div, real_atan2,
    Bool.or_eq_true, real_lt, real_almostEqual, real_lit, Int.cast_neg, Int.cast_ofNat, Int.cast_one]
  generalize -2 * (qx * qz - qw * qy) / (qx * qx + qy * qy + qz * qz + qw * qw) = s at hs
  rw [if_pos]
  rcases hs.lt_or_eq with h' | h'
  · left; norm_num; linarith
  · right; rw [h']; norm_num

theorem arg_polar (k a : ℝ) (hk : 0 < k) : ((realAtan2 (k * sin a) (k * cos a) : ℝ) : Angle) = a := by
  rw [realAtan2_smul hk, realAtan2]
  have := Complex.arg_cos_add_sin_mul_I_coe_angle (a : Angle)
  rw [← this]
  congr 2
  apply Complex.ext <;> simp [← Complex.ofReal_cos, ← Complex.ofReal_sin]

/-- The orientation reached by pitching down by `θ` about the lateral axis after turning by `ψ`, up to
a positive factor `k`. -/
noncomputable def pitched (k ψ θ : ℝ) : Quaternion ℝ :=
  k • (quat (cos (ψ / 2)) 0 0 (sin (ψ / 2)) * quat (cos (θ / 2)) 0 (sin (θ / 2)) 0)

theorem pitched_parts (k ψ θ : ℝ) :
    (pitched k ψ θ).imI = -(k * (sin (ψ / 2) * sin (θ / 2))) ∧
    (pitched k ψ θ).imJ = k * (cos (ψ / 2) * sin (θ / 2)) ∧
    (pitched k ψ θ).imK = k * (sin (ψ / 2) * cos (θ / 2)) ∧
    (pitched k ψ θ).re = k * (cos (ψ / 2) * cos (θ / 2)) := by
  refine ⟨?_, ?_, ?_, ?_⟩ <;> simp [pitched]

theorem pitched_norm (k ψ θ : ℝ) :
    (pitched k ψ θ).imI * (pitched k ψ θ).imI + (pitched k ψ θ).imJ * (pitched k ψ θ).imJ +
      (pitched k ψ θ).imK * (pitched k ψ θ).imK + (pitched k ψ θ).re * (pitched k ψ θ).re = k * k := by
  obtain ⟨a, b, c, d⟩ := pitched_parts k ψ θ
  rw [a, b, c, d]
  have h1 := sin_sq_add_cos_sq (ψ / 2)
  have h2 := sin_sq_add_cos_sq (θ / 2)
  linear_combination (k * k * (sin (θ / 2) ^ 2 + cos (θ / 2) ^ 2)) * h1 + k * k * h2

theorem pitched_height (k ψ θ : ℝ) :
    2 * ((pitched k ψ θ).re * (pitched k ψ θ).imJ - (pitched k ψ θ).imI * (pitched k ψ θ).imK) = k * k * sin θ := by
  obtain ⟨a, b, c, d⟩ := pitched_parts k ψ θ
  rw [a, b, c, d]
  have h1 := sin_sq_add_cos_sq (ψ / 2)
  have h3 := sin_two_mul (θ / 2)
  rw [show 2 * (θ / 2) = θ by ring] at h3
  rw [h3]
  linear_combination (2 * k * k * sin (θ / 2) * cos (θ / 2)) * h1

/-- away from the vertical the heading of such an orientation is `ψ` -/
theorem pitched_heading (k ψ θ : ℝ) (hk : 0 < k) (hc : 0 < cos θ) :
    ((Complex.arg ⟨(forward (pitched k ψ θ)).imI, (forward (pitched k ψ θ)).imJ⟩ : ℝ) : Angle) = ψ := by
  obtain ⟨a, b, c, d⟩ := pitched_parts k ψ θ
  have h := arg_polar (k * k * cos θ) ψ (by positivity)
  rw [← h, realAtan2, forward_I, forward_J, a, b, c, d]
  have e1 : cos ψ = cos (ψ / 2) ^ 2 - sin (ψ / 2) ^ 2 := by
    rw [← cos_two_mul', show 2 * (ψ / 2) = ψ by ring]
  have e2 : sin ψ = 2 * sin (ψ / 2) * cos (ψ / 2) := by
    rw [← sin_two_mul, show 2 * (ψ / 2) = ψ by ring]
  have e3 : cos θ = cos (θ / 2) ^ 2 - sin (θ / 2) ^ 2 := by
    rw [← cos_two_mul', show 2 * (θ / 2) = θ by ring]
  rw [e1, e2, e3]
  congr 3 <;> ring

/-- C90, forward axis nearly straight down: the result is the opposite heading. -/
theorem C90_reversed (k ψ θ : ℝ) (hk : 0 < k) (h0 : 0 < θ) (h1 : θ < 2 * π) (hs : 99999 / 100000 ≤ sin θ) :
    ((getYaw (pitched k ψ θ).imI (pitched k ψ θ).imJ (pitched k ψ θ).imK (pitched k ψ θ).re : ℝ) : Angle) =
      ((ψ + π : ℝ) : Angle) := by
  have hn := pitched_norm k ψ θ
  have hp : 0 < sin (θ / 2) := sin_pos_of_pos_of_lt_pi (by linarith) (by linarith)
  rw [getYaw_up _ _ _ _ (by rw [hn, pitched_height]; nlinarith [mul_pos hk hk]) (by rw [hn]; positivity)]
  obtain ⟨a, b, c, d⟩ := pitched_parts k ψ θ
  have h := arg_polar (k * sin (θ / 2)) (ψ / 2 + π / 2) (by positivity)
  rw [sin_add_pi_div_two, cos_add_pi_div_two] at h
  rw [a, b, show -(k * (sin (ψ / 2) * sin (θ / 2))) = k * sin (θ / 2) * -sin (ψ / 2) by ring,
    show k * (cos (ψ / 2) * sin (θ / 2)) = k * sin (θ / 2) * cos (ψ / 2) by ring, two_mul, Angle.coe_add, h,
    ← Angle.coe_add]
  congr 1; ring

/-- C90, forward axis nearly straight up: the result is the mirror image of the opposite heading. -/
theorem C90_mirrored (k ψ θ : ℝ) (hk : 0 < k) (h0 : θ < 0) (h1 : -(2 * π) < θ) (hs : sin θ ≤ -99999 / 100000) :
    ((getYaw (pitched k ψ θ).imI (pitched k ψ θ).imJ (pitched k ψ θ).imK (pitched k ψ θ).re : ℝ) : Angle) =
      ((π - ψ : ℝ) : Angle) := by
  have hn := pitched_norm k ψ θ
  have hp : sin (θ / 2) < 0 := sin_neg_of_neg_of_neg_pi_lt (by linarith) (by linarith)
  have hh := pitched_height k ψ θ
  rw [getYaw_down _ _ _ _ (by rw [hn]; nlinarith [mul_pos hk hk]) (by rw [hn]; positivity)]
  obtain ⟨a, b, c, d⟩ := pitched_parts k ψ θ
  have h := arg_polar (k * -sin (θ / 2)) (ψ / 2 - π / 2) (mul_pos hk (by linarith))
  rw [sin_sub_pi_div_two, cos_sub_pi_div_two] at h
  rw [a, b, show -(k * (sin (ψ / 2) * sin (θ / 2))) = k * -sin (θ / 2) * sin (ψ / 2) by ring,
    show k * (cos (ψ / 2) * sin (θ / 2)) = k * -sin (θ / 2) * -cos (ψ / 2) by ring]
  generalize realAtan2 _ _ = r at h ⊢
  rw [show -2 * r = -r + -r by ring, Angle.coe_add, Angle.coe_neg, h, ← Angle.coe_neg, ← Angle.coe_add]
  congr 1; ring

example : (99999 / 100000 : ℝ) ≤ sin (π / 2) ∧ sin (-(π / 2)) ≤ (-99999 / 100000 : ℝ) := by
  rw [sin_neg, sin_pi_div_two]; norm_num

/-- C90 is false: 89.9 degrees down, heading along the x axis, gives half a turn. -/
theorem C90_refuted : ¬ C90_statement := by
  intro h
  have h1 := h (quat 501 0 500 0) (.inl (by rw [forward_I]; norm_num))
  rw [getYaw_up _ _ _ _ (by norm_num) (by norm_num), forward_I, forward_J, realAtan2] at h1
  have e1 : Complex.arg ⟨(0:ℝ), 500⟩ = π / 2 := by
    have : (⟨0, 500⟩ : ℂ) = (500 : ℝ) * Complex.I := by apply Complex.ext <;> simp
    rw [this, Complex.arg_real_mul _ (by norm_num), Complex.arg_I]
  have e2 : Complex.arg ⟨((501:ℝ) ^ 2 + 0 ^ 2 - 500 ^ 2 - 0 ^ 2), 2 * (0 * 500 + 501 * 0)⟩ = 0 := by
    have : (⟨((501:ℝ) ^ 2 + 0 ^ 2 - 500 ^ 2 - 0 ^ 2), 2 * (0 * 500 + 501 * 0)⟩ : ℂ) = ((1001 : ℝ) : ℂ) := by
      apply Complex.ext <;> norm_num
    rw [this]
    exact Complex.arg_ofReal_of_nonneg (by norm_num)
  simp only [quat_re, quat_I, quat_J, quat_K] at h1
  rw [e1, e2, show 2 * (π / 2) = π by ring, Angle.coe_zero] at h1
  exact Angle.pi_ne_zero h1

/-- C90: near the vertical the result is not confined to (-π, π]. -/
theorem C90_range : ∃ q : Quaternion ℝ, π < getYaw q.imI q.imJ q.imK q.re := by
  refine ⟨quat 1 (-1) 1 1, ?_⟩
  rw [getYaw_up _ _ _ _ (by norm_num) (by norm_num), realAtan2]
  have : π / 2 < Complex.arg ⟨(-1 : ℝ), 1⟩ := by
    rw [← not_le, Complex.arg_le_pi_div_two_iff]
    norm_num
  simp only [quat_I, quat_J]
  linarith

end Ergodic
