import Mathlib.Analysis.SpecialFunctions.Trigonometric.Bounds
import Verif.Lemmas.Exploration

/-!
# Property C76: no simulated motion is faster than its twist

Exact arithmetic.  The distance between two poses is the Euclidean distance of the positions,
`planar`; the speed of a twist is the length of its linear part.
-/

namespace Ergodic
open Real

/-- Euclidean distance of the positions of two poses -/
noncomputable def planar (a b : V3 ℝ) : ℝ := sqrt ((a.c0 - b.c0) ^ 2 + (a.c1 - b.c1) ^ 2)

/-- linear speed of a body twist -/
noncomputable def speed (u : V3 ℝ) : ℝ := sqrt (u.c0 ^ 2 + u.c1 ^ 2)

theorem speed_nonneg (u : V3 ℝ) : 0 ≤ speed u := sqrt_nonneg _

theorem planar_triangle (a b c : V3 ℝ) : planar a c ≤ planar a b + planar b c := by
  unfold planar
  rw [sqrt_le_left (by positivity)]
  have h1 := sq_sqrt (by positivity : 0 ≤ (a.c0 - b.c0) ^ 2 + (a.c1 - b.c1) ^ 2)
  have h2 := sq_sqrt (by positivity : 0 ≤ (b.c0 - c.c0) ^ 2 + (b.c1 - c.c1) ^ 2)
  have h3 : (a.c0 - b.c0) * (b.c0 - c.c0) + (a.c1 - b.c1) * (b.c1 - c.c1) ≤
      sqrt ((a.c0 - b.c0) ^ 2 + (a.c1 - b.c1) ^ 2) * sqrt ((b.c0 - c.c0) ^ 2 + (b.c1 - c.c1) ^ 2) := by
    rw [← sqrt_mul (by positivity)]
    apply le_sqrt_of_sq_le
    nlinarith [sq_nonneg ((a.c0 - b.c0) * (b.c1 - c.c1) - (a.c1 - b.c1) * (b.c0 - c.c0))]
  nlinarith

theorem planar_le {a b : V3 ℝ} {r : ℝ} (h : planar a b ≤ r) :
    |a.c0 - b.c0| ≤ r ∧ |a.c1 - b.c1| ≤ r := by
  constructor
  · exact (abs_le_sqrt (by nlinarith [sq_nonneg (a.c1 - b.c1)])).trans h
  · exact (abs_le_sqrt (by nlinarith [sq_nonneg (a.c0 - b.c0)])).trans h

/-- C76: the exact motion: the straight-line distance is at most speed times time. -/
theorem C76_flow (x u : V3 ℝ) (t : ℝ) : planar (flow x u t) x ≤ speed u * |t| := by
  unfold planar speed
  rw [← sqrt_sq_eq_abs, ← sqrt_mul (by positivity)]
  apply sqrt_le_sqrt
  by_cases h : u.c2 = 0
  · simp only [flow, h, if_true, add_sub_cancel_left]
    have := sin_sq_add_cos_sq x.c2
    nlinarith [sq_nonneg t]
  · simp only [flow, h, if_false, add_sub_cancel_left]
    rw [div_pow, div_pow, ← add_div, div_le_iff₀ (by positivity)]
    have h1 := one_sub_sq_div_two_le_cos (x := u.c2 * t)
    have h2 : cos (u.c2 * t) = cos (x.c2 + u.c2 * t) * cos x.c2 + sin (x.c2 + u.c2 * t) * sin x.c2 := by
      rw [← cos_sub]; congr 1; ring
    have h3 := sin_sq_add_cos_sq (x.c2 + u.c2 * t)
    have h4 := sin_sq_add_cos_sq x.c2
    generalize sin (x.c2 + u.c2 * t) = S at *
    generalize cos (x.c2 + u.c2 * t) = C at *
    generalize sin x.c2 = s at *
    generalize cos x.c2 = c at *
    have e : (u.c0 * (S - s) + u.c1 * (C - c)) ^ 2 + (u.c0 * (c - C) + u.c1 * (S - s)) ^ 2 =
        (u.c0 ^ 2 + u.c1 ^ 2) * ((S - s) ^ 2 + (C - c) ^ 2) := by ring
    rw [e, show (u.c0 ^ 2 + u.c1 ^ 2) * t ^ 2 * u.c2 ^ 2 = (u.c0 ^ 2 + u.c1 ^ 2) * ((u.c2 * t) ^ 2) by ring]
    apply mul_le_mul_of_nonneg_left _ (by positivity)
    nlinarith

/-- C76: `integrateTwist` (for a zero step with a rotation the code divides zero by zero, C18). -/
theorem C76_integrateTwist (x u : V3 ℝ) (t : ℝ) (ht : t ≠ 0) :
    planar (integrateTwist x u t) x ≤ speed u * |t| := by
  by_cases hw : 1 / 10 ^ 12 ≤ |u.c2|
  · rw [integrateTwist_rot hw ht]; exact C76_flow x u t
  · rw [integrateTwist_line (not_le.mp hw)]; exact C76_flow x ⟨u.c0, u.c1, 0⟩ t

/-- C76: every pose simulated by the validation of a twist and by the dynamic window (`k` steps of
`dt`) is within speed times elapsed time of the robot. -/
theorem C76_poseAfter (u : V3 ℝ) (dt : ℝ) (hdt : dt ≠ 0) (x : V3 ℝ) (k : Nat) :
    planar (poseAfter u dt x k) x ≤ speed u * (k * |dt|) := by
  induction k generalizing x with
  | zero => simp [poseAfter, planar]
  | succ k ih =>
    have h1 := ih (stepPose u dt x)
    have h2 : planar (stepPose u dt x) x ≤ speed u * |dt| := C76_integrateTwist x u dt hdt
    have h3 := planar_triangle (poseAfter u dt (stepPose u dt x) k) (stepPose u dt x) x
    rw [show poseAfter u dt x (k + 1) = poseAfter u dt (stepPose u dt x) k from rfl]
    push_cast
    linarith

/-- C76 for the validation horizon: all poses a validation looks at are within speed times horizon
of the robot. -/
theorem C76_validation (u : V3 ℝ) (dt horizon : ℝ) (hdt : 0 < dt) (hh : 0 ≤ horizon) (x : V3 ℝ)
    (n : UInt32) (hn : numSteps horizon dt = .ok n) (k : Nat) (hk : k ≤ n.toNat) :
    planar (poseAfter u dt x k) x ≤ speed u * horizon := by
  refine (C76_poseAfter u dt hdt.ne' x k).trans ?_
  apply mul_le_mul_of_nonneg_left _ (speed_nonneg u)
  rw [numSteps, real_div, real_fabs] at hn
  have h1 := castU32_real_eq_ok hn
  rw [realTrunc_of_nonneg (abs_nonneg _), abs_of_nonneg (by positivity)] at h1
  have h2 : (n.toNat : ℝ) ≤ horizon / dt := by
    have := Int.floor_le (horizon / dt)
    rw [h1] at this
    exact_mod_cast this
  have h3 : (k : ℝ) ≤ n.toNat := by exact_mod_cast hk
  rw [abs_of_pos hdt]
  rw [le_div_iff₀ hdt] at h2
  nlinarith

/-- C76: a Runge-Kutta step of the omni-directional model. -/
theorem C76_rk4_omni (dt : ℝ) (x u y : V3 ℝ) (h : RungeKutta.step dt omniModel.f x u = .ok y) :
    planar y x ≤ speed u * |dt| := by
  obtain ⟨hy0, hy1, -⟩ := omni_step_mid dt x u y h
  unfold planar speed
  rw [← sqrt_sq_eq_abs, ← sqrt_mul (by positivity)]
  apply sqrt_le_sqrt
  rw [hy0, hy1, add_sub_cancel_left, add_sub_cancel_left]
  have h1 := sin_sq_add_cos_sq (x.c2 + dt * u.c2 / 2)
  have h2 : 0 ≤ (2 + cos (dt * u.c2 / 2)) / 3 ∧ (2 + cos (dt * u.c2 / 2)) / 3 ≤ 1 := by
    have := neg_one_le_cos (dt * u.c2 / 2)
    have := cos_le_one (dt * u.c2 / 2)
    constructor <;> linarith
  generalize (2 + cos (dt * u.c2 / 2)) / 3 = q at h2
  generalize sin (x.c2 + dt * u.c2 / 2) = s at *
  generalize cos (x.c2 + dt * u.c2 / 2) = c at *
  have e : (dt * (u.c0 * c - u.c1 * s) * q) ^ 2 + (dt * (u.c0 * s + u.c1 * c) * q) ^ 2 =
      (u.c0 ^ 2 + u.c1 ^ 2) * dt ^ 2 * ((s ^ 2 + c ^ 2) * q ^ 2) := by ring
  rw [e, h1, one_mul]
  apply mul_le_of_le_one_right (by positivity)
  nlinarith [h2.1, h2.2]

/-- C76: a Runge-Kutta step of the cart. -/
theorem C76_rk4_cart (dt : ℝ) (x u y : V3 ℝ) (h : RungeKutta.step dt cartModel.f x u = .ok y) :
    planar y x ≤ |u.c0| * |dt| := by
  have := C76_rk4_omni dt x _ y (C50_cart dt x u y h)
  rwa [show speed ⟨u.c0, 0, u.c2⟩ = |u.c0| by simp [speed, sqrt_sq_eq_abs]] at this

/-- C76: along a planned trajectory the robot moves at most the sum of speed times `dt`. -/
theorem C76_rollout {dt : ℝ} {f : V3 ℝ → V3 ℝ → Res (V3 ℝ)} {vmax : ℝ}
    {x : V3 ℝ} {us xs : List (V3 ℝ)} (h : Rollout dt f x us xs)
    (hf : ∀ x y, ∀ u ∈ us, RungeKutta.step dt f x u = .ok y → planar y x ≤ vmax * |dt|)
    (i : Nat) (p : V3 ℝ) (hp : xs[i]? = some p) : planar p x ≤ vmax * ((i + 1) * |dt|) := by
  induction h generalizing i with
  | nil => simp at hp
  | @cons x u y us xs hs hr ih =>
    have h1 : planar ⟨y.c0, y.c1, normalizeAnglePI y.c2⟩ x ≤ vmax * |dt| := hf x y u (by simp) hs
    cases i with
    | zero =>
      rw [List.getElem?_cons_zero, Option.some.injEq] at hp
      subst hp
      simpa using h1
    | succ i =>
      rw [List.getElem?_cons_succ] at hp
      have h2 := ih (fun x y u hu => hf x y u (by simp [hu])) i hp
      have h3 := planar_triangle p ⟨y.c0, y.c1, normalizeAnglePI y.c2⟩ x
      push_cast
      linarith

/-- C76 for the controller: every pose of the trajectory replayed after a call lies within the
limits times the elapsed time of the pose passed to the call, for both robots. -/
theorem C76_plan {model : TwistModel ℝ} (hm : model = omniModel ∨ model = cartModel)
    {collision : Collision ℝ} {dt horizon resolution weight : ℝ}
    {num_basis buffer_size batch_size : Nat} {Rinv : M3 ℝ} {umin umax : V3 ℝ}
    {e e' : ErgodicControl ℝ} {g : GridMap ℝ} {x u : V3 ℝ} {draws : List Nat}
    (hb : EcBuilt model collision dt horizon resolution weight num_basis buffer_size
      batch_size Rinv umin umax e) (h : e.control g x draws = .ok (e', u))
    {vmax : ℝ} (hv : ∀ v : V3 ℝ, umin.c0 ≤ v.c0 → v.c0 ≤ umax.c0 → umin.c1 ≤ v.c1 → v.c1 ≤ umax.c1 →
      speed v ≤ vmax) (xs : List (V3 ℝ)) (hxs : e'.optTraj = .ok xs) (i : Nat) (p : V3 ℝ)
    (hp : xs[i]? = some p) : planar p x ≤ vmax * ((i + 1) * |dt|) := by
  refine C76_rollout ((C60_replay hb h).1 xs hxs) ?_ i p hp
  intro y z v hmem hs
  obtain ⟨-, hl⟩ := C59_limits_partial _ _ _ _ _ _ _ _ _ _ _ _ _ _ _ _ _ _ hb h
  have hsp : speed v ≤ vmax := by
    have hvl := (inBox_real _ _ _).mpr (hl v hmem)
    simp only [NotOutside, real_lt_false] at hvl
    exact hv v hvl.1.1 hvl.1.2 hvl.2.1.1 hvl.2.1.2
  rcases hm with rfl | rfl
  · exact (C76_rk4_omni dt y v z hs).trans (mul_le_mul_of_nonneg_right hsp (abs_nonneg _))
  · refine (C76_rk4_cart dt y v z hs).trans (mul_le_mul_of_nonneg_right (le_trans ?_ hsp) (abs_nonneg _))
    exact abs_le_sqrt (by nlinarith [sq_nonneg v.c1])

end Ergodic
