import Mathlib.Analysis.SpecialFunctions.BinaryEntropy
import Mathlib.Analysis.Complex.ExponentialBounds
import Mathlib.Algebra.Quaternion
import Verif.Lemmas.Numerics
import Verif.Lemmas.Dbl

/-!
# Properties C13–C19: angles, entropy, transforms, constant-twist integration
-/

namespace Ergodic
open Real

/-! ## C13 `normalize_angle_PI` -/

/-- C13: the result lies in `[-π, π)`. -/
theorem C13_range (r : ℝ) : -π ≤ normalizeAnglePI r ∧ normalizeAnglePI r < π := by
  have h2 : (0:ℝ) < 2 * π := by positivity
  have h := Int.floor_le ((r + π) / (2 * π))
  have h' := Int.lt_floor_add_one ((r + π) / (2 * π))
  rw [le_div_iff₀ h2] at h
  rw [div_lt_iff₀ h2] at h'
  rw [normalizeAnglePI_eq]
  constructor <;> linarith

/-- C13: the result is the same direction as the input. -/
theorem C13_same_direction (r : ℝ) : SameHeading (normalizeAnglePI r) r :=
  ⟨-⌊(r + π) / (2 * π)⌋, by rw [normalizeAnglePI_eq]; push_cast; ring⟩

/-- C13: the result is the unique representative of the direction in `[-π, π)`: any angle
of that range in the same direction equals it.  In particular the function is idempotent
and periodic. -/
theorem C13_unique (r a : ℝ) (h0 : -π ≤ a) (h1 : a < π) (h : SameHeading a r) :
    normalizeAnglePI r = a := by
  obtain ⟨k, hk⟩ := h
  obtain ⟨m, hm⟩ := C13_same_direction r
  obtain ⟨g0, g1⟩ := C13_range r
  have hp := pi_pos
  have e : normalizeAnglePI r - a = ((m - k : ℤ) : ℝ) * (2 * π) := by
    rw [hm, hk]; push_cast; ring
  have l1 : ((m - k : ℤ) : ℝ) < 1 := by
    by_contra hc; rw [not_lt] at hc; nlinarith
  have l2 : (-1 : ℝ) < ((m - k : ℤ) : ℝ) := by
    by_contra hc; rw [not_lt] at hc; nlinarith
  have : m - k = 0 := by
    have a1 : m - k < 1 := by exact_mod_cast l1
    have a2 : -1 < m - k := by exact_mod_cast l2
    omega
  rw [this] at e; simp at e; linarith

/-- C13: angles already in range are fixed points. -/
theorem C13_fixed_point (r : ℝ) (h0 : -π ≤ r) (h1 : r < π) : normalizeAnglePI r = r :=
  C13_unique r r h0 h1 ⟨0, by simp⟩

/-- C13: applying the function twice is applying it once. -/
theorem C13_idempotent (r : ℝ) : normalizeAnglePI (normalizeAnglePI r) = normalizeAnglePI r :=
  C13_fixed_point _ (C13_range r).1 (C13_range r).2

/-- C13: equal directions normalise to equal angles. -/
theorem C13_periodic (r s : ℝ) (h : SameHeading r s) : normalizeAnglePI r = normalizeAnglePI s := by
  obtain ⟨k, hk⟩ := h
  obtain ⟨m, hm⟩ := C13_same_direction s
  exact C13_unique r _ (C13_range s).1 (C13_range s).2
    ⟨m - k, by rw [hm, hk]; push_cast; ring⟩

example : normalizeAnglePI (π : ℝ) = -π :=
  C13_unique _ _ le_rfl (by linarith [pi_pos]) ⟨-1, by push_cast; ring⟩

/-! ## C14 `normalize_angle_2PI` -/

/-- C14: the result lies in `[0, 2π)` (never below zero, whatever the code comment says). -/
theorem C14_range (r : ℝ) : 0 ≤ normalizeAngle2PI r ∧ normalizeAngle2PI r < 2 * π := by
  have h2 : (0:ℝ) < 2 * π := by positivity
  have h := Int.floor_le (r / (2 * π))
  have h' := Int.lt_floor_add_one (r / (2 * π))
  rw [le_div_iff₀ h2] at h
  rw [div_lt_iff₀ h2] at h'
  rw [normalizeAngle2PI_eq]
  constructor <;> linarith

/-- C14: the result is the same direction as the input. -/
theorem C14_same_direction (r : ℝ) : SameHeading (normalizeAngle2PI r) r :=
  ⟨-⌊r / (2 * π)⌋, by rw [normalizeAngle2PI_eq]; push_cast; ring⟩

/-- C14: the result is the only angle of `[0, 2π)` with that direction. -/
theorem C14_unique (r a : ℝ) (h0 : 0 ≤ a) (h1 : a < 2 * π) (h : SameHeading a r) :
    normalizeAngle2PI r = a := by
  obtain ⟨k, hk⟩ := h
  obtain ⟨m, hm⟩ := C14_same_direction r
  obtain ⟨g0, g1⟩ := C14_range r
  have hp := pi_pos
  have e : normalizeAngle2PI r - a = ((m - k : ℤ) : ℝ) * (2 * π) := by
    rw [hm, hk]; push_cast; ring
  have l1 : ((m - k : ℤ) : ℝ) < 1 := by
    by_contra hc; rw [not_lt] at hc; nlinarith
  have l2 : (-1 : ℝ) < ((m - k : ℤ) : ℝ) := by
    by_contra hc; rw [not_lt] at hc; nlinarith
  have : m - k = 0 := by
    have a1 : m - k < 1 := by exact_mod_cast l1
    have a2 : -1 < m - k := by exact_mod_cast l2
    omega
  rw [this] at e; simp at e; linarith

example : normalizeAngle2PI (-π : ℝ) = π :=
  C14_unique _ _ pi_pos.le (by linarith [pi_pos]) ⟨1, by push_cast; ring⟩

/-! ## C15 `getYaw` -/

/-- C15: for every non-zero multiple of the quaternion `(0, 0, sin(ψ/2), cos(ψ/2))` of a
rotation by `ψ` in `(-π, π]` about the vertical, the result is `ψ`. -/
theorem C15_pure_yaw (ψ k : ℝ) (hk : k ≠ 0) (h0 : -π < ψ) (h1 : ψ ≤ π) :
    getYaw (0:ℝ) 0 (k * sin (ψ / 2)) (k * cos (ψ / 2)) = ψ := by
  have e1 : 2 * (0 * 0 + k * cos (ψ / 2) * (k * sin (ψ / 2))) = k ^ 2 * sin ψ := by
    have := sin_two_mul (ψ / 2)
    rw [show 2 * (ψ / 2) = ψ by ring] at this; rw [this]; ring
  have e2 : k * cos (ψ / 2) * (k * cos (ψ / 2)) + 0 * 0 - 0 * 0
      - k * sin (ψ / 2) * (k * sin (ψ / 2)) = k ^ 2 * cos ψ := by
    have := cos_two_mul' (ψ / 2)
    rw [show 2 * (ψ / 2) = ψ by ring] at this; rw [this]; ring
  rw [getYaw_regular _ _ _ _ (by norm_num), e1, e2, realAtan2_smul (by positivity), realAtan2]
  have := Complex.arg_cos_add_sin_mul_I (θ := ψ) ⟨h0, h1⟩
  refine Eq.trans ?_ this
  congr 1
  apply Complex.ext <;> simp [← Complex.ofReal_cos, ← Complex.ofReal_sin]

example : (2:ℝ) ≠ 0 ∧ -π < π / 2 ∧ π / 2 ≤ π := ⟨by norm_num, by linarith [pi_pos], by linarith [pi_pos]⟩

/-- C15: the result does not depend on the (positive) scale of the quaternion. -/
theorem C15_scale_invariant (k qx qy qz qw : ℝ) (hk : 0 < k) :
    getYaw (k * qx) (k * qy) (k * qz) (k * qw) = getYaw qx qy qz qw := by
  have hs : ∀ a b c d : ℝ, -2 * (k * a * (k * c) - k * d * (k * b)) /
      (k * a * (k * a) + k * b * (k * b) + k * c * (k * c) + k * d * (k * d)) =
      -2 * (a * c - d * b) / (a * a + b * b + c * c + d * d) := by
    intro a b c d
    have hk2 : (k * k) ≠ 0 := by positivity
    rw [show -2 * (k * a * (k * c) - k * d * (k * b)) = (k * k) * (-2 * (a * c - d * b)) by ring,
      show k * a * (k * a) + k * b * (k * b) + k * c * (k * c) + k * d * (k * d) =
        (k * k) * (a * a + b * b + c * c + d * d) by ring]
    rw [mul_div_mul_left _ _ hk2]
  have e2 : (lit (-2) 0 : ℝ) = -2 := by simp
  have e2' : (lit 2 0 : ℝ) = 2 := by simp
  simp only [getYaw, e2, e2', real_mul, real_add, real_sub, real_div, real_atan2, hs,
    realAtan2_smul hk]
  rw [show 2 * (k * qx * (k * qy) + k * qw * (k * qz)) = (k * k) * (2 * (qx * qy + qw * qz)) by ring,
    show k * qw * (k * qw) + k * qx * (k * qx) - k * qy * (k * qy) - k * qz * (k * qz) =
      (k * k) * (qw * qw + qx * qx - qy * qy - qz * qz) by ring,
    realAtan2_smul (by positivity)]

/-- the forward (x) axis as a quaternion -/
def forwardAxis : Quaternion ℝ := ⟨0, 1, 0, 0⟩

/-- C15: for a general orientation `q` whose rotated forward axis is not nearly vertical, the
result is the heading of the rotated forward axis `q · i · q*`. -/
theorem C15_heading_of_forward_axis (q : Quaternion ℝ)
    (h : |2 * (q.imI * q.imK - q.re * q.imJ) / (q.imI * q.imI + q.imJ * q.imJ + q.imK * q.imK
      + q.re * q.re)| ≤ 99999 / 100000 - 1 / 10 ^ 12) :
    getYaw q.imI q.imJ q.imK q.re =
      Complex.arg ⟨(q * forwardAxis * star q).imI, (q * forwardAxis * star q).imJ⟩ := by
  rw [getYaw_regular _ _ _ _ h, realAtan2]
  congr 1
  have f0 : forwardAxis.re = 0 := rfl
  have f1 : forwardAxis.imI = 1 := rfl
  have f2 : forwardAxis.imJ = 0 := rfl
  have f3 : forwardAxis.imK = 0 := rfl
  apply Complex.ext <;> simp [f0, f1, f2, f3] <;> ring

example : |2 * ((0:ℝ) * 0 - 1 * 0) / (0 * 0 + 0 * 0 + 0 * 0 + 1 * 1)| ≤ 99999 / 100000 - 1 / 10 ^ 12 := by
  norm_num

/-! ## C16 `entropy` -/

/-- C16: symmetric in occupied/free, for every probability. -/
theorem C16_symmetric (p : ℝ) (h0 : 0 ≤ p) (h1 : p ≤ 1) : entropy p = entropy (1 - p) := by
  have e1 : (lit 1 0 : ℝ) = 1 := by simp
  have e0 : (lit 0 0 : ℝ) = 0 := by simp
  have c : (almostEqual (lit 0 0) (1 - p) || almostEqual (lit 1 0) (1 - p)) =
      (almostEqual (lit 0 0) p || almostEqual (lit 1 0) p) := by
    rw [Bool.eq_iff_iff]
    simp only [Bool.or_eq_true, real_almostEqual, e0, e1]
    rw [show (0:ℝ) - (1 - p) = -(1 - p) by ring, abs_neg, show (1:ℝ) - (1 - p) = p by ring,
      show (0:ℝ) - p = -p by ring, abs_neg]
    exact or_comm
  unfold entropy
  rw [c]
  split
  · rfl
  · rw [if_neg (by simpa using h0), if_neg (by simpa using h1)]
    simp only [e1, real_sub, real_mul, real_neg, real_log]
    rw [show (1:ℝ) - (1 - p) = p by ring]; ring

/-- C16: for a cell that is neither certain nor unknown the value is the binary entropy. -/
theorem C16_is_binary_entropy (p : ℝ) (h0 : 1 / 10 ^ 12 ≤ p) (h1 : p ≤ 1 - 1 / 10 ^ 12) :
    entropy p = binEntropy p := by
  have e1 : (lit 1 0 : ℝ) = 1 := by simp
  have e0 : (lit 0 0 : ℝ) = 0 := by simp
  have hpos : (0:ℝ) < 1 / 10 ^ 12 := by norm_num
  have c : ¬ (almostEqual (lit 0 0) p || almostEqual (lit 1 0) p) = true := by
    simp only [Bool.or_eq_true, real_almostEqual, e0, e1, real_lit, Int.cast_one]
    rw [show (0:ℝ) - p = -p by ring, abs_neg, abs_of_pos (by linarith),
      abs_of_pos (by linarith)]
    push Not; constructor <;> linarith
  unfold entropy
  rw [if_neg c, if_neg (by simpa using by linarith)]
  simp only [e1, real_sub, real_mul, real_neg, real_log, binEntropy, log_inv]; ring

/-- C16: entropy of a probability is between 0 and ln 2. -/
theorem C16_bounds (p : ℝ) (h0 : 0 ≤ p) (h1 : p ≤ 1) : 0 ≤ entropy p ∧ entropy p ≤ log 2 := by
  have l2 := Real.log_two_gt_d9
  by_cases c : (almostEqual (lit 0 0) p || almostEqual (lit 1 0) p) = true
  · unfold entropy; rw [if_pos c]; simp only [real_lit]
    constructor <;> norm_num; linarith
  · have c' := c
    simp only [Bool.or_eq_true, real_almostEqual, real_lit, Int.cast_one, Int.cast_zero, not_or,
      not_lt] at c'
    rw [C16_is_binary_entropy p]
    · exact ⟨binEntropy_nonneg h0 h1, binEntropy_le_log_two⟩
    · have := c'.1; simp only [zero_div, zero_sub, abs_neg, abs_of_nonneg h0] at this
      exact this
    · have := c'.2; simp only [pow_zero, div_one, abs_of_nonneg (by linarith : (0:ℝ) ≤ 1 - p)] at this
      linarith

/-- C16: an unknown cell scores higher than every probability. -/
theorem C16_unknown_highest (p q : ℝ) (hp : p ≤ -1 / 10 ^ 12) (h0 : 0 ≤ q) (h1 : q ≤ 1) :
    entropy q < entropy p := by
  have hpos : (0:ℝ) < 1 / 10 ^ 12 := by norm_num
  have c : ¬ (almostEqual (lit 0 0) p || almostEqual (lit 1 0) p) = true := by
    simp only [Bool.or_eq_true, real_almostEqual, real_lit, Int.cast_one, Int.cast_zero]
    have : p < 0 := by norm_num at hp hpos ⊢; linarith
    simp only [zero_sub, abs_neg, abs_of_neg this, pow_zero, div_one,
      abs_of_pos (by linarith : (0:ℝ) < 1 - p)]
    push Not; constructor
    · rw [neg_div] at hp; linarith
    · norm_num; norm_num at hp; linarith
  have hlt : Flt.lt p (lit 0 0 : ℝ) = true := by
    simp only [real_lt, real_lit]; norm_num at hp ⊢; linarith
  have e : entropy p = 7 / 10 := by
    unfold entropy; rw [if_neg c, if_pos hlt]; simp
  rw [e]
  have := (C16_bounds q h0 h1).2
  have := Real.log_two_lt_d9
  norm_num at *; linarith

/-- C16, on the integer percentages a map stores: a certain cell (0 or 100) scores lower than
every uncertain one (1..99), and an unknown cell (any negative value) higher than all. -/
theorem C16_percent_order (v c n : Int8) (hv : 1 ≤ v.toInt ∧ v.toInt ≤ 99)
    (hc : c.toInt = 0 ∨ c.toInt = 100) (hn : n.toInt < 0) :
    entropy ((c.toInt : ℝ) / 100) < entropy ((v.toInt : ℝ) / 100) ∧
      entropy ((v.toInt : ℝ) / 100) < entropy ((n.toInt : ℝ) / 100) := by
  have v1 : (1:ℝ) ≤ v.toInt := by exact_mod_cast hv.1
  have v2 : (v.toInt:ℝ) ≤ 99 := by exact_mod_cast hv.2
  have n1 : (n.toInt:ℝ) ≤ -1 := by exact_mod_cast (by omega : n.toInt ≤ -1)
  refine ⟨?_, C16_unknown_highest _ _ (by norm_num; linarith) (by positivity) (by linarith)⟩
  set p : ℝ := (v.toInt : ℝ) / 100 with hp
  have p0 : 1 / 100 ≤ p := by rw [hp]; linarith
  have p1 : p ≤ 99 / 100 := by rw [hp]; linarith
  have ec : entropy ((c.toInt : ℝ) / 100) = 1 / 1000 := by
    unfold entropy
    rw [if_pos]
    · simp; norm_num
    · simp only [Bool.or_eq_true, real_almostEqual, real_lit]
      rcases hc with h | h <;> rw [h]
      · left; norm_num
      · right; norm_num
  rw [ec, C16_is_binary_entropy p (by norm_num; linarith) (by norm_num; linarith)]
  have l1 := log_le_sub_one_of_pos (show 0 < p by linarith)
  have l2 := log_le_sub_one_of_pos (show 0 < 1 - p by linarith)
  rw [binEntropy]
  simp only [log_inv]
  nlinarith

example : (1 ≤ (50 : Int8).toInt ∧ (50 : Int8).toInt ≤ 99) ∧ ((100 : Int8).toInt = 0 ∨
    (100 : Int8).toInt = 100) ∧ (-1 : Int8).toInt < 0 := by decide

/-! ## C17 rigid transforms -/

/-- apply a homogeneous transform to a point -/
noncomputable def applyTo (t : M3 ℝ) (p : V2 ℝ) : V3 ℝ := t.mulVec ⟨p.c0, p.c1, 1⟩

/-- the 3×3 identity -/
def eye3 : M3 ℝ := ⟨⟨1, 0, 0⟩, ⟨0, 1, 0⟩, ⟨0, 0, 1⟩⟩

/-- `C17` full statement, inverse part. -/
def C17_inverse_statement : Prop :=
  ∀ x y a : ℝ, (transform2dInv (transform2d x y a)).mul (transform2d x y a) = eye3

/-- C17: the transform rotates by the angle and then translates. -/
theorem C17_rotate_then_translate (x y a : ℝ) (p : V2 ℝ) :
    let z : ℂ := Complex.exp (a * Complex.I) * ⟨p.c0, p.c1⟩ + ⟨x, y⟩
    applyTo (transform2d x y a) p = ⟨z.re, z.im, 1⟩ := by
  have hz : Complex.exp (a * Complex.I) = ⟨cos a, sin a⟩ := by
    rw [Complex.exp_mul_I, ← Complex.ofReal_cos, ← Complex.ofReal_sin]
    apply Complex.ext <;> simp [Complex.cos_ofReal_re, Complex.sin_ofReal_re]
  rw [hz]
  ext <;> simp [applyTo, transform2d, M3.mulVec, V3.dot, Complex.mul_re, Complex.mul_im] <;> ring

/-- C17: a measurement in polar coordinates is the point `range · e^(i angle)`, in both forms. -/
theorem C17_polar (angle range : ℝ) :
    (⟨(polar2Cartesian angle range).c0, (polar2Cartesian angle range).c1⟩ : ℂ) =
      range * Complex.exp (angle * Complex.I) ∧
    polar2CartesianHomo angle range =
      ⟨(range * Complex.exp (angle * Complex.I)).re, (range * Complex.exp (angle * Complex.I)).im, 1⟩ := by
  have hz : Complex.exp (angle * Complex.I) = ⟨cos angle, sin angle⟩ := by
    rw [Complex.exp_mul_I, ← Complex.ofReal_cos, ← Complex.ofReal_sin]
    apply Complex.ext <;> simp [Complex.cos_ofReal_re, Complex.sin_ofReal_re]
  rw [hz]
  constructor
  · apply Complex.ext <;> simp [polar2Cartesian]
  · simp [polar2CartesianHomo]

/-- C17: transforming a measurement rotates it by the sensor's heading and shifts it by the sensor's
position. -/
theorem C17_transform_polar (x y a angle range : ℝ) :
    let z : ℂ := range * Complex.exp ((angle + a : ℝ) * Complex.I) + ⟨x, y⟩
    (transform2d x y a).mulVec (polar2CartesianHomo angle range) = ⟨z.re, z.im, 1⟩ := by
  obtain ⟨h1, h2⟩ := C17_polar angle range
  have := C17_rotate_then_translate x y a (polar2Cartesian angle range)
  dsimp only at this ⊢
  have e : (range : ℂ) * Complex.exp ((angle + a : ℝ) * Complex.I) =
      Complex.exp (a * Complex.I) * (range * Complex.exp (angle * Complex.I)) := by
    push_cast
    rw [add_mul, Complex.exp_add]
    ring
  rw [h1, ← e] at this
  rw [← this]
  unfold applyTo
  rw [h2, ← h1]

/-- C17: the two shorter overloads are the special cases. -/
theorem C17_overloads (x y a : ℝ) :
    transform2dXY x y = transform2d x y (0:ℝ) ∧ transform2dAngle a = transform2d (0:ℝ) 0 a := by
  constructor
  · simp [transform2dXY, transform2d]
  · simp [transform2dAngle, transform2d]

/-- C17: distances are preserved. -/
theorem C17_isometry (x y a : ℝ) (p q : V2 ℝ) :
    let p' := applyTo (transform2d x y a) p
    let q' := applyTo (transform2d x y a) q
    distance p'.c0 p'.c1 q'.c0 q'.c1 = distance p.c0 p.c1 q.c0 q.c1 := by
  simp only [applyTo, transform2d, M3.mulVec, V3.dot, distance, real_add, real_mul, real_sub,
    real_neg, real_cos, real_sin, real_sqrt]
  congr 1
  have := sin_sq_add_cos_sq a
  linear_combination ((q.c0 - p.c0) ^ 2 + (q.c1 - p.c1) ^ 2) * this

/-- C17: the distance is the Euclidean one. -/
theorem C17_distance_euclidean (x0 y0 x1 y1 : ℝ) :
    distance x0 y0 x1 y1 = ‖(⟨x1, y1⟩ : ℂ) - ⟨x0, y0⟩‖ := by
  simp [distance, Complex.norm_def, Complex.normSq_apply]

/-- C17: composing transforms composes the motions and adds the angles. -/
theorem C17_compose (x y a x' y' a' : ℝ) :
    (transform2d x y a).mul (transform2d x' y' a') =
      transform2d (applyTo (transform2d x y a) ⟨x', y'⟩).c0
        (applyTo (transform2d x y a) ⟨x', y'⟩).c1 (a + a') := by
  simp only [applyTo, transform2d, M3.mul, M3.mulVec, M3.t, V3.dot, real_add, real_mul, real_neg,
    real_cos, real_sin, real_lit]
  ext <;> simp [cos_add, sin_add] <;> ring

/-- C17 (missing: `transform2dInv` itself): the three numbers the function computes are the
parameters of the inverse, but it passes them in the order (angle, x, y), i.e. it returns
`transform2d θ x' y'` where the inverse is `transform2d x' y' θ`. -/
theorem C17_inverse_arguments_partial (x y a : ℝ) :
    ∃ θ x' y' : ℝ, transform2dInv (transform2d x y a) = transform2d θ x' y' ∧
      (transform2d x' y' θ).mul (transform2d x y a) = eye3 := by
  refine ⟨_, _, _, rfl, ?_⟩
  have hn : (⟨cos a, -sin a⟩ : ℂ) = Complex.exp ((-a : ℝ) * Complex.I) := by
    rw [Complex.exp_mul_I, ← Complex.ofReal_cos, ← Complex.ofReal_sin, cos_neg, sin_neg]
    apply Complex.ext <;> simp [Complex.cos_ofReal_re, Complex.sin_ofReal_re]
  have hnorm : ‖(⟨cos a, -sin a⟩ : ℂ)‖ = 1 := by rw [hn, Complex.norm_exp_ofReal_mul_I]
  have hc : cos (realAtan2 (-sin a) (cos a)) = cos a := by
    have := Complex.norm_mul_cos_arg ⟨cos a, -sin a⟩
    rw [hnorm] at this; simpa [realAtan2] using this
  have hs : sin (realAtan2 (-sin a) (cos a)) = -sin a := by
    have := Complex.norm_mul_sin_arg ⟨cos a, -sin a⟩
    rw [hnorm] at this; simpa [realAtan2] using this
  have h1 := sin_sq_add_cos_sq a
  simp only [transform2d, M3.mul, M3.t, V3.dot, real_add, real_mul, real_neg, real_sub, real_cos,
    real_sin, real_lit, real_atan2, hc, hs, eye3, Int.cast_zero, Int.cast_one, pow_zero,
    div_one]
  ext <;> simp <;> nlinarith

/-- C17 is false: already for the translation by (1, 0). -/
theorem C17_refuted : ¬ C17_inverse_statement := by
  intro h
  have := congrArg (fun m => m.r0.c2) (h 1 0 0)
  have h1 : (⟨1, 0⟩ : ℂ) = 1 := rfl
  simp [transform2dInv, transform2d, M3.mul, M3.t, V3.dot, eye3, realAtan2, h1] at this

/-! ## C18 `integrate_twist` is the exact motion -/

/-- C18: for a twist with rotation above the tolerance and a non-zero time step the result is
the exact motion (`flow` solves the kinematic equations, see `Spec/Motion.lean`). -/
theorem C18_exact_motion (x u : V3 ℝ) (t : ℝ) (hw : 1 / 10 ^ 12 ≤ |u.c2|) (ht : t ≠ 0) :
    integrateTwist x u t = flow x u t := integrateTwist_rot hw ht

/-- C18: the result is also exact for a pure translation. -/
theorem C18_exact_translation (x u : V3 ℝ) (t : ℝ) (hw : u.c2 = 0) :
    integrateTwist x u t = flow x u t := by
  rw [integrateTwist_line (by rw [hw]; norm_num)]
  congr 1; ext <;> simp [hw]

/-- C18: steps compose. -/
theorem C18_semigroup (x u : V3 ℝ) (s t : ℝ) (hw : 1 / 10 ^ 12 ≤ |u.c2|) (hs : s ≠ 0)
    (ht : t ≠ 0) (hst : s + t ≠ 0) :
    integrateTwist x u (s + t) = integrateTwist (integrateTwist x u s) u t := by
  rw [integrateTwist_rot hw hst, integrateTwist_rot hw hs, integrateTwist_rot hw ht, flow_add]

/-- C18: the time derivative is the omni-directional kinematics, at every non-zero time. -/
theorem C18_derivative (x u : V3 ℝ) (t : ℝ) (hw : 1 / 10 ^ 12 ≤ |u.c2|) (ht : t ≠ 0) :
    let p := integrateTwist x u t
    HasDerivAt (fun t => (integrateTwist x u t).c0) (u.c0 * cos p.c2 - u.c1 * sin p.c2) t ∧
    HasDerivAt (fun t => (integrateTwist x u t).c1) (u.c0 * sin p.c2 + u.c1 * cos p.c2) t ∧
    HasDerivAt (fun t => (integrateTwist x u t).c2) u.c2 t := by
  have ev : ∀ᶠ s in nhds t, integrateTwist x u s = flow x u s := by
    filter_upwards [isOpen_ne.mem_nhds ht] with s hs using integrateTwist_rot hw hs
  simp only [integrateTwist_rot hw ht]
  exact ⟨(flow_deriv_x x u t).congr_of_eventuallyEq (ev.mono fun s h => by simp only [h]),
    (flow_deriv_y x u t).congr_of_eventuallyEq (ev.mono fun s h => by simp only [h]),
    (flow_deriv_heading x u t).congr_of_eventuallyEq (ev.mono fun s h => by simp only [h])⟩

/-- C18: as the time step goes to zero the result tends to the initial pose. -/
theorem C18_limit_zero (x u : V3 ℝ) (hw : 1 / 10 ^ 12 ≤ |u.c2|) :
    Filter.Tendsto (fun t => (integrateTwist x u t).c0) (nhdsWithin 0 {0}ᶜ) (nhds x.c0) ∧
    Filter.Tendsto (fun t => (integrateTwist x u t).c1) (nhdsWithin 0 {0}ᶜ) (nhds x.c1) ∧
    Filter.Tendsto (fun t => (integrateTwist x u t).c2) (nhdsWithin 0 {0}ᶜ) (nhds x.c2) := by
  have ev : ∀ᶠ s in nhdsWithin (0:ℝ) {0}ᶜ, flow x u s = integrateTwist x u s := by
    filter_upwards [self_mem_nhdsWithin] with s hs using (integrateTwist_rot hw hs).symm
  have h0 := (flow_deriv_x x u 0).continuousAt.tendsto
  have h1 := (flow_deriv_y x u 0).continuousAt.tendsto
  have h2 := (flow_deriv_heading x u 0).continuousAt.tendsto
  simp only [flow_zero] at h0 h1 h2
  exact ⟨(h0.mono_left nhdsWithin_le_nhds).congr' (ev.mono fun s h => by simp only [h]),
    (h1.mono_left nhdsWithin_le_nhds).congr' (ev.mono fun s h => by simp only [h]),
    (h2.mono_left nhdsWithin_le_nhds).congr' (ev.mono fun s h => by simp only [h])⟩

example : (1 / 10 ^ 12 : ℝ) ≤ |(⟨1, 0, 1⟩ : V3 ℝ).c2| ∧ (1/10 : ℝ) ≠ 0 := by norm_num

/-- C18, the excluded case: with a time step of exactly zero and a rotation the code divides
zero by zero; the resulting position is NaN (arithmetic with special values). -/
theorem C18_zero_step_is_nan (x u : V3 Dbl) (w : ℝ) (hw : 1 / 10 ^ 12 ≤ |w|) (h : u.c2 = .fin w)
    (h0 : ∃ a, u.c0 = .fin a) (h1 : ∃ a, u.c1 = .fin a) :
    (integrateTwist x u (.fin 0)).c0 = .nan ∧ (integrateTwist x u (.fin 0)).c1 = .nan := by
  obtain ⟨a, ha⟩ := h0
  obtain ⟨b, hb⟩ := h1
  have hne : ¬ almostEqual u.c2 (lit 0 0) = true := by
    simp only [almostEqual, h, Dbl.lit_eq, Dbl.sub_fin, Dbl.fabs_fin, Dbl.lt_fin]
    norm_num at hw ⊢; simpa using hw
  unfold integrateTwist
  rw [if_neg hne]
  simp only [ha, hb, h, Dbl.mul_fin, mul_zero, Dbl.sin_fin, Dbl.cos_fin,
    sin_zero, cos_zero, Dbl.add_fin, Dbl.sub_fin, Dbl.lit_eq, Int.cast_one, pow_zero, div_one,
    sub_self, add_zero, Dbl.zero_div_zero]
  simp [V3.add, transform2dAngle, M3.mulVec, V3.dot]

/-! ## C19 slow rotation -/

/-- C19: with a rotation rate below the tolerance the result is the straight-line motion with
the same linear velocity, and the heading is unchanged. -/
theorem C19_straight_line (x u : V3 ℝ) (t : ℝ) (hw : |u.c2| < 1 / 10 ^ 12) :
    integrateTwist x u t =
      ⟨x.c0 + (u.c0 * cos x.c2 - u.c1 * sin x.c2) * t,
       x.c1 + (u.c0 * sin x.c2 + u.c1 * cos x.c2) * t, x.c2⟩ := by
  rw [integrateTwist_line hw]; simp [flow]

/-- C19: the error against the exact motion: at most `1e-12 |t|` in the heading and at most
`(|vx|+|vy|) 1e-12 t²` in each coordinate. -/
theorem C19_error (x u : V3 ℝ) (t : ℝ) (hw : |u.c2| < 1 / 10 ^ 12) :
    |(integrateTwist x u t).c2 - (flow x u t).c2| ≤ 1 / 10 ^ 12 * |t| ∧
    |(integrateTwist x u t).c0 - (flow x u t).c0| ≤ (|u.c0| + |u.c1|) * (1 / 10 ^ 12) * t ^ 2 ∧
    |(integrateTwist x u t).c1 - (flow x u t).c1| ≤ (|u.c0| + |u.c1|) * (1 / 10 ^ 12) * t ^ 2 := by
  rw [C19_straight_line x u t hw, flow_heading]
  refine ⟨?_, ?_, ?_⟩
  · rw [show x.c2 - (x.c2 + u.c2 * t) = -(u.c2 * t) by ring, abs_neg, abs_mul]
    exact mul_le_mul_of_nonneg_right hw.le (abs_nonneg t)
  all_goals
    by_cases h : u.c2 = 0
    · simp only [flow, h, if_true, sub_self, abs_zero]; positivity
    · simp only [flow, h, if_false]
      set A := sin (x.c2 + u.c2 * t) - sin x.c2 - u.c2 * t * cos x.c2 with hA
      set B := cos (x.c2 + u.c2 * t) - cos x.c2 + u.c2 * t * sin x.c2 with hB
      have bA : |A / u.c2| ≤ 1 / 10 ^ 12 * t ^ 2 := by
        rw [abs_div, div_le_iff₀ (abs_pos.mpr h)]
        refine (abs_sin_taylor x.c2 (u.c2 * t)).trans ?_
        have : (u.c2 * t) ^ 2 = |u.c2| * |u.c2| * t ^ 2 := by rw [abs_mul_abs_self]; ring
        rw [this]
        have := mul_le_mul_of_nonneg_right hw.le (mul_nonneg (abs_nonneg u.c2) (sq_nonneg t))
        linarith
      have bB : |B / u.c2| ≤ 1 / 10 ^ 12 * t ^ 2 := by
        rw [abs_div, div_le_iff₀ (abs_pos.mpr h)]
        refine (abs_cos_taylor x.c2 (u.c2 * t)).trans ?_
        have : (u.c2 * t) ^ 2 = |u.c2| * |u.c2| * t ^ 2 := by rw [abs_mul_abs_self]; ring
        rw [this]
        have := mul_le_mul_of_nonneg_right hw.le (mul_nonneg (abs_nonneg u.c2) (sq_nonneg t))
        linarith
      first
      | (have e : x.c0 + (u.c0 * cos x.c2 - u.c1 * sin x.c2) * t -
            (x.c0 + (u.c0 * (sin (x.c2 + u.c2 * t) - sin x.c2) +
              u.c1 * (cos (x.c2 + u.c2 * t) - cos x.c2)) / u.c2) =
            -(u.c0 * (A / u.c2) + u.c1 * (B / u.c2)) := by
          rw [hA, hB]; field_simp; ring
         rw [e, abs_neg]
         refine (abs_add_le _ _).trans ?_
         rw [abs_mul, abs_mul]
         have := mul_le_mul_of_nonneg_left bA (abs_nonneg u.c0)
         have := mul_le_mul_of_nonneg_left bB (abs_nonneg u.c1)
         linarith)
      | (have e : x.c1 + (u.c0 * sin x.c2 + u.c1 * cos x.c2) * t -
            (x.c1 + (u.c0 * (cos x.c2 - cos (x.c2 + u.c2 * t)) +
              u.c1 * (sin (x.c2 + u.c2 * t) - sin x.c2)) / u.c2) =
            u.c0 * (B / u.c2) + -u.c1 * (A / u.c2) := by
          rw [hA, hB]; field_simp; ring
         rw [e]
         refine (abs_add_le _ _).trans ?_
         rw [abs_mul, abs_mul, abs_neg]
         have := mul_le_mul_of_nonneg_left bA (abs_nonneg u.c1)
         have := mul_le_mul_of_nonneg_left bB (abs_nonneg u.c0)
         linarith)

example : |(⟨1, 0, 1 / 10 ^ 13⟩ : V3 ℝ).c2| < 1 / 10 ^ 12 := by
  rw [abs_of_pos (by norm_num)]; norm_num

end Ergodic
