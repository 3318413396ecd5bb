import Mathlib.Analysis.Calculus.MeanValue
import Verif.Props.RoundedControl
import Verif.Props.Speed
import Verif.Props.PlanAccuracy

/-!
# Property C98: the simulated motion with rounding

`integrate_twist` against the exact motion `flow` of the body under the same twist, when every
operation is rounded.  The sine and the cosine of the library are assumed right to the last bit
(`AccurateTrig`).
-/

namespace Ergodic
open Real
variable {M : Machine}

/-- The sine and the cosine of the library are right to about one unit in the last place, and the
cosine is at least as good as returning one. -/
structure AccurateTrig (M : Machine) : Prop where
  sin : ∀ t, |M.sin t - Real.sin t| ≤ |Real.sin t| / 2 ^ 52 + tiny
  cos : ∀ t, |M.cos t - Real.cos t| ≤ 1 / 2 ^ 52
  cos_one : ∀ t, |M.cos t - Real.cos t| ≤ 1 - Real.cos t

/-- A number below one is rounded to something at least as close as one. -/
theorem ieee_below_one {x : ℝ} (h1 : x ≤ 1) : |Ieee.rnd x - x| ≤ 1 - x := by
  rcases le_or_gt x 0 with h0 | h0
  · refine (Ieee.rnd_near x).trans ?_
    have := tiny_le 1 (by norm_num)
    rw [abs_of_nonpos h0]
    norm_num at this ⊢
    linarith
  · rcases eq_or_lt_of_le h1 with rfl | h1
    · have : Ieee.rnd 1 = 1 := by simpa using Ieee.rnd_int 1 (by norm_num)
      rw [this]; norm_num
    · rcases le_or_gt (1 / 2 ^ 54) (1 - x) with h | h
      · refine (Ieee.rnd_err x).trans (le_trans ?_ h)
        have he := Ieee.expo_lt h0.ne' (e := -53) (by norm_num) (by rw [abs_of_pos h0]; norm_num; exact h1)
        have : (2 : ℝ) ^ Ieee.expo x ≤ 2 ^ (-53 : ℤ) := zpow_le_zpow_right₀ (by norm_num) he
        norm_num at this ⊢
        linarith
      · have : Ieee.rnd x = 1 := by
          rw [Ieee.rnd_eq (2 ^ 53) (-53) (by norm_num)
            (by rw [abs_of_pos h0]; norm_num at h ⊢; linarith)
            (by rw [abs_of_pos h0]; norm_num; exact h1)
            (by rw [abs_sub_comm, abs_of_pos] <;> norm_num at h ⊢ <;> linarith)]
          norm_num
        rw [this, abs_of_pos (by linarith)]

theorem ieee_trig : AccurateTrig ieee where
  sin t := by
    refine (ieee.near (Real.sin t)).trans ?_
    have := abs_nonneg (Real.sin t)
    gcongr <;> norm_num
  cos t := by
    refine (ieee.near (Real.cos t)).trans ?_
    have h := abs_cos_le_one t
    have h2 := tiny_le 53 (by norm_num)
    have : |Real.cos t| / 2 ^ 53 ≤ 1 / 2 ^ 53 := by gcongr
    calc _ ≤ (1 : ℝ) / 2 ^ 53 + 1 / 2 ^ 53 := add_le_add this h2
      _ = _ := by norm_num
  cos_one t := ieee_below_one (cos_le_one t)

/-! ## the exact motion depends continuously on heading and twist -/

/-- one coordinate: a difference whose derivative is bounded on the unit interval -/
theorem unit_gap {f f' : ℝ → ℝ} {K : ℝ} (hf : ∀ t, HasDerivAt f (f' t) t)
    (hK : ∀ t, 0 ≤ t → t ≤ 1 → |f' t| ≤ K) : |f 1 - f 0| ≤ K := by
  have := norm_image_sub_le_of_norm_deriv_le_segment_01' (f := f) (f' := f') (C := K)
    (fun t _ => (hf t).hasDerivWithinAt) (fun t ht => hK t ht.1 ht.2.le)
  simpa using this

theorem rotated_close {a b c d p q : ℝ} {e : ℝ} (h : |p - q| ≤ e) :
    |(a * cos p - b * sin p) - (c * cos q - d * sin q)| ≤ |a - c| + |b - d| + (|c| + |d|) * e ∧
    |(a * sin p + b * cos p) - (c * sin q + d * cos q)| ≤ |a - c| + |b - d| + (|c| + |d|) * e := by
  have hc := (abs_cos_sub_cos_le p q).trans h
  have hs := (abs_sin_sub_sin_le p q).trans h
  have hcp := abs_cos_le_one p
  have hsp := abs_sin_le_one p
  have m : ∀ x y : ℝ, |y| ≤ 1 → |x * y| ≤ |x| := fun x y h => by
    rw [abs_mul]; exact mul_le_of_le_one_right (abs_nonneg _) h
  have k : ∀ x y : ℝ, |y| ≤ e → |x * y| ≤ |x| * e := fun x y h => by
    rw [abs_mul]; exact mul_le_mul_of_nonneg_left h (abs_nonneg _)
  constructor
  · rw [show (a * cos p - b * sin p) - (c * cos q - d * sin q) =
      ((a - c) * cos p + -((b - d) * sin p)) + (c * (cos p - cos q) + -(d * (sin p - sin q))) by ring]
    refine (abs_add_le _ _).trans ?_
    have h1 := abs_add_le ((a - c) * cos p) (-((b - d) * sin p))
    have h2 := abs_add_le (c * (cos p - cos q)) (-(d * (sin p - sin q)))
    rw [abs_neg] at h1 h2
    linarith [m (a - c) _ hcp, m (b - d) _ hsp, k c _ hc, k d _ hs]
  · rw [show (a * sin p + b * cos p) - (c * sin q + d * cos q) =
      ((a - c) * sin p + (b - d) * cos p) + (c * (sin p - sin q) + d * (cos p - cos q)) by ring]
    refine (abs_add_le _ _).trans ?_
    have h1 := abs_add_le ((a - c) * sin p) ((b - d) * cos p)
    have h2 := abs_add_le (c * (sin p - sin q)) (d * (cos p - cos q))
    linarith [m (a - c) _ hsp, m (b - d) _ hcp, k c _ hs, k d _ hc]

theorem flow_start (x u : V3 ℝ) : (flow x u 0).c0 = x.c0 ∧ (flow x u 0).c1 = x.c1 := by
  unfold flow; split <;> simp

/-- The displacement in one unit of time, under two headings and two twists. -/
theorem flow_close (x z u v : V3 ℝ) :
    |((flow x u 1).c0 - x.c0) - ((flow z v 1).c0 - z.c0)| ≤
      |u.c0 - v.c0| + |u.c1 - v.c1| + (|v.c0| + |v.c1|) * (|x.c2 - z.c2| + |u.c2 - v.c2|) ∧
    |((flow x u 1).c1 - x.c1) - ((flow z v 1).c1 - z.c1)| ≤
      |u.c0 - v.c0| + |u.c1 - v.c1| + (|v.c0| + |v.c1|) * (|x.c2 - z.c2| + |u.c2 - v.c2|) := by
  have hh : ∀ t : ℝ, 0 ≤ t → t ≤ 1 →
      |(flow x u t).c2 - (flow z v t).c2| ≤ |x.c2 - z.c2| + |u.c2 - v.c2| := by
    intro t h0 h1
    rw [flow_heading, flow_heading,
      show x.c2 + u.c2 * t - (z.c2 + v.c2 * t) = (x.c2 - z.c2) + (u.c2 - v.c2) * t by ring]
    refine (abs_add_le _ _).trans ?_
    rw [abs_mul, abs_of_nonneg h0]
    linarith [mul_le_of_le_one_right (abs_nonneg (u.c2 - v.c2)) h1]
  constructor
  · have := unit_gap (fun t => (flow_deriv_x x u t).sub (flow_deriv_x z v t))
      (fun t h0 h1 => (rotated_close (hh t h0 h1)).1)
    simp only [Pi.sub_apply, (flow_start _ _).1] at this
    rwa [show (flow x u 1).c0 - x.c0 - ((flow z v 1).c0 - z.c0) =
      (flow x u 1).c0 - (flow z v 1).c0 - (x.c0 - z.c0) by ring]
  · have := unit_gap (fun t => (flow_deriv_y x u t).sub (flow_deriv_y z v t))
      (fun t h0 h1 => (rotated_close (hh t h0 h1)).2)
    simp only [Pi.sub_apply, (flow_start _ _).2] at this
    rwa [show (flow x u 1).c1 - x.c1 - ((flow z v 1).c1 - z.c1) =
      (flow x u 1).c1 - (flow z v 1).c1 - (x.c1 - z.c1) by ring]

/-- The motion in time `t` is the motion in unit time under the twist times `t`. -/
theorem flow_unit (x u : V3 ℝ) {t : ℝ} (ht : t ≠ 0) :
    flow x u t = flow x ⟨u.c0 * t, u.c1 * t, u.c2 * t⟩ 1 := by
  by_cases h : u.c2 = 0
  · simp only [flow, h, if_true, zero_mul, mul_one]
    ext
    · simp; ring
    · simp; ring
    · rfl
  · have h' : u.c2 * t ≠ 0 := mul_ne_zero h ht
    simp only [flow, h, h', if_false, mul_one]
    ext
    · simp; field_simp
    · simp; field_simp
    · rfl

/-! ## one step -/

theorem minNormal_small {B : ℝ} (h : 1 / 2 ^ 110 ≤ B) : minNormal ≤ B := by
  refine le_trans ?_ h
  have := tiny_le 163 (by norm_num)
  unfold minNormal
  calc 2 ^ 53 * tiny ≤ 2 ^ 53 * (1 / 2 ^ 163) := by gcongr
    _ = 1 / 2 ^ 110 := by norm_num

/-- the displacement in the body frame -/
theorem body_rd {a b s S c K w m V κ : ℝ} (hV : 1 / 2 ^ 60 ≤ V) (ha : |a| ≤ V) (hb : |b| ≤ V)
    (hm : 1 / 2 ^ 50 ≤ m) (hmw : m ≤ |w|) (hs : |s - S| ≤ m / 2 ^ 51) (hS : |S| ≤ m)
    (hc : |c - K| ≤ κ) (hκ : κ ≤ m) (hK : |K| ≤ 2 * m) :
    |M.rnd (M.rnd (M.rnd (a * s) + M.rnd (b * c)) / w) - (a * S + b * K) / w| ≤
      V * (κ / |w| + 1 / 2 ^ 47) ∧
    |M.rnd (M.rnd (M.rnd (a * s) + M.rnd (b * c)) / w)| ≤ 8 * V := by
  have hm0 : 0 < m := lt_of_lt_of_le (by positivity) hm
  have hV0 : 0 < V := lt_of_lt_of_le (by positivity) hV
  have hw0 : 0 < |w| := hm0.trans_le hmw
  have hVm : 1 / 2 ^ 110 ≤ V * m := by
    calc (1 : ℝ) / 2 ^ 110 = 1 / 2 ^ 60 * (1 / 2 ^ 50) := by norm_num
      _ ≤ V * m := by gcongr
  have hVm0 : 0 < V * m := by positivity
  -- the factors
  have es : |s| ≤ 2 * m := by
    have h1 := abs_sub_abs_le_abs_sub s S
    have : m / 2 ^ 51 ≤ m := div_le_self hm0.le (by norm_num)
    linarith
  have ec : |c| ≤ 3 * m := by
    have h1 := abs_sub_abs_le_abs_sub c K
    linarith
  -- the products
  have b1 : |a * s| ≤ 2 * (V * m) := by
    rw [abs_mul]; nlinarith [abs_nonneg a, abs_nonneg s]
  have b2 : |b * c| ≤ 3 * (V * m) := by
    rw [abs_mul]; nlinarith [abs_nonneg b, abs_nonneg c]
  have e1 := M.err (minNormal_small (by linarith)) b1
  have e2 := M.err (minNormal_small (by linarith)) b2
  have b3 : |M.rnd (a * s) + M.rnd (b * c)| ≤ 6 * (V * m) := by
    have h1 := abs_le.mp e1
    have h2 := abs_le.mp e2
    have h3 := abs_le.mp b1
    have h4 := abs_le.mp b2
    rw [abs_le]
    constructor <;> norm_num at h1 h2 ⊢ <;> linarith
  have e3 := M.err (minNormal_small (by linarith)) b3
  -- the exact numerator
  have g1 : |a * s - a * S| ≤ V * m / 2 ^ 51 := by
    rw [← mul_sub, abs_mul, mul_div_assoc]
    exact mul_le_mul ha hs (abs_nonneg _) hV0.le
  have g2 : |b * c - b * K| ≤ V * κ := by
    rw [← mul_sub, abs_mul]
    exact mul_le_mul hb hc (abs_nonneg _) hV0.le
  generalize hn : M.rnd (M.rnd (a * s) + M.rnd (b * c)) = n at *
  have gn : |n - (a * S + b * K)| ≤ V * κ + 13 * (V * m) / 2 ^ 52 := by
    have h1 := abs_le.mp e1
    have h2 := abs_le.mp e2
    have h3 := abs_le.mp e3
    have h4 := abs_le.mp g1
    have h5 := abs_le.mp g2
    rw [abs_le]
    constructor <;> norm_num at h1 h2 h3 h4 h5 ⊢ <;> linarith
  have bn : |n| ≤ 7 * (V * m) := by
    have h1 := abs_le.mp e3
    have h2 := abs_le.mp b3
    rw [abs_le]
    constructor <;> norm_num at h1 h2 ⊢ <;> linarith
  have bq : |n / w| ≤ 7 * V := by
    rw [abs_div, div_le_iff₀ hw0]
    refine bn.trans ?_
    nlinarith
  have hV1 : (1 : ℝ) / 2 ^ 110 ≤ V := le_trans (by norm_num) hV
  have e4 := M.err (minNormal_small (by linarith)) bq
  have gq : |n / w - (a * S + b * K) / w| ≤ V * (κ / |w|) + 13 * V / 2 ^ 52 := by
    rw [← sub_div, abs_div, div_le_iff₀ hw0]
    have : V * (κ / |w|) * |w| = V * κ := by field_simp
    rw [add_mul, this]
    refine gn.trans ?_
    have : 13 * (V * m) / 2 ^ 52 ≤ 13 * V / 2 ^ 52 * |w| := by
      rw [div_mul_eq_mul_div]
      exact div_le_div_of_nonneg_right (by nlinarith) (by norm_num)
    linarith
  constructor
  · rw [show M.rnd (n / w) - (a * S + b * K) / w =
      (M.rnd (n / w) - n / w) + (n / w - (a * S + b * K) / w) by ring]
    refine (abs_add_le _ _).trans ?_
    rw [mul_add]
    norm_num at e4 gq ⊢
    linarith
  · have h1 := abs_le.mp e4
    have h2 := abs_le.mp bq
    rw [abs_le]
    constructor <;> norm_num at h1 h2 ⊢ <;> linarith

/-- the displacement in the world frame, added to the coordinate `x` -/
theorem world_rd {C S c s X Y dx dy x V E B : ℝ} (hV : 1 / 2 ^ 60 ≤ V) (hC : |C - c| ≤ 1 / 2 ^ 52)
    (hS : |S - s| ≤ 1 / 2 ^ 51) (hC1 : |C| ≤ 1) (hS1 : |S| ≤ 1) (hc1 : |c| ≤ 1) (hs1 : |s| ≤ 1)
    (hX : |X - dx| ≤ E) (hY : |Y - dy| ≤ E) (bX : |X| ≤ 8 * V) (bY : |Y| ≤ 8 * V)
    (hB : |x| + 18 * V ≤ B) :
    |M.rnd (x + M.rnd (M.rnd (C * X) + M.rnd (S * Y))) - (x + (c * dx + s * dy))| ≤
      2 * E + V / 2 ^ 46 + B / 2 ^ 52 := by
  have hV0 : 0 < V := lt_of_lt_of_le (by positivity) hV
  have hV1 : (1 : ℝ) / 2 ^ 110 ≤ V := le_trans (by norm_num) hV
  have b1 : |C * X| ≤ 8 * V := by
    rw [abs_mul]; nlinarith [abs_nonneg C, abs_nonneg X]
  have b2 : |S * Y| ≤ 8 * V := by
    rw [abs_mul]; nlinarith [abs_nonneg S, abs_nonneg Y]
  have e1 := M.err (minNormal_small (by linarith)) b1
  have e2 := M.err (minNormal_small (by linarith)) b2
  have b3 : |M.rnd (C * X) + M.rnd (S * Y)| ≤ 17 * V := by
    have h1 := abs_le.mp e1
    have h2 := abs_le.mp e2
    have h3 := abs_le.mp b1
    have h4 := abs_le.mp b2
    rw [abs_le]
    constructor <;> norm_num at h1 h2 ⊢ <;> linarith
  have e3 := M.err (minNormal_small (by linarith)) b3
  have g1 : |C * X - c * dx| ≤ V / 2 ^ 49 + E := by
    rw [show C * X - c * dx = (C - c) * X + c * (X - dx) by ring]
    refine (abs_add_le _ _).trans ?_
    rw [abs_mul, abs_mul]
    have h1 : |C - c| * |X| ≤ 1 / 2 ^ 52 * (8 * V) :=
      mul_le_mul hC bX (abs_nonneg _) (by norm_num)
    have h2 : |c| * |X - dx| ≤ 1 * E := mul_le_mul hc1 hX (abs_nonneg _) (by norm_num)
    norm_num at h1 ⊢
    linarith
  have g2 : |S * Y - s * dy| ≤ V / 2 ^ 48 + E := by
    rw [show S * Y - s * dy = (S - s) * Y + s * (Y - dy) by ring]
    refine (abs_add_le _ _).trans ?_
    rw [abs_mul, abs_mul]
    have h1 : |S - s| * |Y| ≤ 1 / 2 ^ 51 * (8 * V) :=
      mul_le_mul hS bY (abs_nonneg _) (by norm_num)
    have h2 : |s| * |Y - dy| ≤ 1 * E := mul_le_mul hs1 hY (abs_nonneg _) (by norm_num)
    norm_num at h1 ⊢
    linarith
  generalize M.rnd (M.rnd (C * X) + M.rnd (S * Y)) = D at *
  have bD : |D| ≤ 18 * V := by
    have h1 := abs_le.mp e3
    have h2 := abs_le.mp b3
    rw [abs_le]
    constructor <;> norm_num at h1 h2 ⊢ <;> linarith
  have e4 := M.err (x := x + D) (B := B) (minNormal_small (by have := abs_nonneg x; linarith))
    ((abs_add_le _ _).trans (by linarith))
  have h1 := abs_le.mp e1
  have h2 := abs_le.mp e2
  have h3 := abs_le.mp e3
  have h4 := abs_le.mp e4
  have h5 := abs_le.mp g1
  have h6 := abs_le.mp g2
  rw [abs_le]
  constructor <;> norm_num at h1 h2 h3 h4 h5 h6 ⊢ <;> linarith

/-- The formula of `integrate_twist` on finite numbers, the rotating branch. -/
theorem twist_turn {x y θ vx vy om dt : ℝ} (hw0 : M.rnd (om * dt) ≠ 0)
    (hbr : almostEqual (.fin om : RDbl M) (lit 0 0) = false) :
    integrateTwist (⟨.fin x, .fin y, .fin θ⟩ : V3 (RDbl M)) ⟨.fin vx, .fin vy, .fin om⟩ (.fin dt) =
      let a := M.rnd (vx * dt)
      let b := M.rnd (vy * dt)
      let w := M.rnd (om * dt)
      let X := M.rnd (M.rnd (M.rnd (a * M.sin w) + M.rnd (b * M.rnd (M.cos w - 1))) / w)
      let Y := M.rnd (M.rnd (M.rnd (b * M.sin w) + M.rnd (a * M.rnd (1 - M.cos w))) / w)
      ⟨.fin (M.rnd (x + M.rnd (M.rnd (M.cos θ * X) + M.rnd (-M.sin θ * Y)))),
       .fin (M.rnd (y + M.rnd (M.rnd (M.sin θ * X) + M.rnd (M.cos θ * Y)))),
       .fin (M.rnd (θ + w))⟩ := by
  have h0 : (lit 0 0 : RDbl M) = .fin 0 := by rw [RDbl.lit_fin]; norm_num [M.rnd_zero]
  have h1 : (lit 1 0 : RDbl M) = .fin 1 := by
    rw [RDbl.lit_fin]; norm_num
  unfold integrateTwist
  dsimp only
  rw [hbr]
  simp only [Bool.false_eq_true, if_false, RDbl.mul_fin, RDbl.sin_fin, RDbl.cos_fin, h0, h1,
    RDbl.sub_fin, RDbl.add_fin, RDbl.div_fin _ hw0, transform2dAngle, M3.mulVec, V3.dot, V3.add,
    RDbl.neg_fin, zero_mul, M.rnd_zero, add_zero, M.idem, zero_add, one_mul]

/-- The formula of `integrate_twist` on finite numbers, the straight branch. -/
theorem twist_straight {x y θ vx vy om dt : ℝ}
    (hbr : almostEqual (.fin om : RDbl M) (lit 0 0) = true) :
    integrateTwist (⟨.fin x, .fin y, .fin θ⟩ : V3 (RDbl M)) ⟨.fin vx, .fin vy, .fin om⟩ (.fin dt) =
      let a := M.rnd (vx * dt)
      let b := M.rnd (vy * dt)
      ⟨.fin (M.rnd (x + M.rnd (M.rnd (M.cos θ * a) + M.rnd (-M.sin θ * b)))),
       .fin (M.rnd (y + M.rnd (M.rnd (M.sin θ * a) + M.rnd (M.cos θ * b)))),
       .fin (M.rnd θ)⟩ := by
  have h0 : (lit 0 0 : RDbl M) = .fin 0 := by rw [RDbl.lit_fin]; norm_num [M.rnd_zero]
  have h1 : (lit 1 0 : RDbl M) = .fin 1 := by
    rw [RDbl.lit_fin]; norm_num
  unfold integrateTwist
  dsimp only
  rw [hbr]
  simp only [if_true, RDbl.mul_fin, RDbl.sin_fin, RDbl.cos_fin, h0, h1,
    RDbl.sub_fin, RDbl.add_fin, transform2dAngle, M3.mulVec, V3.dot, V3.add,
    RDbl.neg_fin, zero_mul, M.rnd_zero, add_zero, M.idem, mul_zero]

theorem almostEqual_zero_rd (om : ℝ) :
    almostEqual (.fin om : RDbl M) (lit 0 0) = decide (|M.rnd om| < M.rnd (1 / 10 ^ 12)) := by
  have h0 : (lit 0 0 : RDbl M) = .fin 0 := by rw [RDbl.lit_fin]; norm_num [M.rnd_zero]
  have h2 : fabs (.fin (M.rnd om) : RDbl M) = .fin |M.rnd om| := by
    rcases le_or_gt 0 (M.rnd om) with h | h
    · rw [fabs_rd h, abs_of_nonneg h]
    · unfold fabs
      rw [h0, if_pos (by rw [RDbl.lt_fin]; exact h), RDbl.neg_fin, abs_of_neg h]
  unfold almostEqual
  rw [h0, RDbl.sub_fin, sub_zero, h2, RDbl.lit_fin, Int.cast_one]
  by_cases h : |M.rnd om| < M.rnd (1 / 10 ^ 12)
  · rw [decide_eq_true h, RDbl.lt_fin]; exact h
  · rw [decide_eq_false h, RDbl.lt_fin_false]; exact not_lt.mp h

/-- which twists count as turning -/
theorem branch_turn {om : ℝ} (h : almostEqual (.fin om : RDbl M) (lit 0 0) = false) :
    999 / 1000 / 10 ^ 12 ≤ |om| := by
  rw [almostEqual_zero_rd, decide_eq_false_iff_not, not_lt] at h
  by_contra hc
  rw [not_le] at hc
  have e1 := M.err (B := 1 / 10 ^ 12) (x := 1 / 10 ^ 12) (minNormal_small (by norm_num))
    (by rw [abs_of_pos (by positivity)])
  have e2 := M.err (B := 999 / 1000 / 10 ^ 12) (x := om) (minNormal_small (by norm_num)) hc.le
  have h1 := abs_le.mp e1
  have h2 := abs_sub_abs_le_abs_sub (M.rnd om) om
  norm_num at h1 e2 h hc
  linarith

theorem branch_straight {om : ℝ} (h : almostEqual (.fin om : RDbl M) (lit 0 0) = true) :
    |om| ≤ 1001 / 1000 / 10 ^ 12 := by
  rw [almostEqual_zero_rd, decide_eq_true_iff] at h
  by_contra hc
  rw [not_le] at hc
  have e1 := M.err (B := 1 / 10 ^ 12) (x := 1 / 10 ^ 12) (minNormal_small (by norm_num))
    (by rw [abs_of_pos (by positivity)])
  have e2 := M.err (B := |om|) (x := om) (minNormal_small (by norm_num at hc ⊢; linarith)) le_rfl
  have h1 := abs_le.mp e1
  have h2 := abs_sub_abs_le_abs_sub om (M.rnd om)
  rw [abs_sub_comm om] at h2
  norm_num at h1 e2 h hc
  linarith

/-- the sine and the cosine of the angle of one step -/
theorem trig_step (hM : AccurateTrig M) {w : ℝ} (hw : 1 / 2 ^ 50 ≤ |w|) :
    |M.sin w - sin w| ≤ min 1 |w| / 2 ^ 51 ∧ |sin w| ≤ min 1 |w| ∧
    |M.rnd (M.cos w - 1) - (cos w - 1)| ≤ min (1 / 2 ^ 50) (w ^ 2) ∧ |cos w - 1| ≤ 2 * min 1 |w| ∧
    |M.rnd (1 - M.cos w) - (1 - cos w)| ≤ min (1 / 2 ^ 50) (w ^ 2) ∧ |1 - cos w| ≤ 2 * min 1 |w| := by
  have hm : 1 / 2 ^ 50 ≤ min 1 |w| := le_min (by norm_num) hw
  have hS : |sin w| ≤ min 1 |w| := le_min (abs_sin_le_one w) (abs_sin_le_abs (x := w))
  have hK : |1 - cos w| ≤ 2 * min 1 |w| := by
    have h1 := cos_le_one w
    have h2 := neg_one_le_cos w
    have h3 := one_sub_sq_div_two_le_cos (x := w)
    rw [abs_of_nonneg (by linarith)]
    rcases le_total |w| 1 with h | h
    · rw [min_eq_right h]
      have := abs_nonneg w
      have e : w ^ 2 = |w| ^ 2 := (sq_abs w).symm
      nlinarith
    · rw [min_eq_left h]; linarith
  have hc1 := abs_le.mp (M.cos_le w)
  have e1 := M.near (1 - M.cos w)
  have e2 := hM.cos w
  have e3 := hM.cos_one w
  have ht := tiny_le 110 (by norm_num)
  have key : |M.rnd (1 - M.cos w) - (1 - cos w)| ≤ min (1 / 2 ^ 50) (w ^ 2) := by
    have h1 := abs_le.mp e1
    have h2 := abs_le.mp e2
    have h3 := abs_le.mp e3
    rw [abs_of_nonneg (by linarith : 0 ≤ 1 - M.cos w)] at h1
    refine le_min ?_ ?_
    · rw [abs_le]
      constructor <;> norm_num at h1 h2 ht ⊢ <;> linarith
    · have h4 := one_sub_sq_div_two_le_cos (x := w)
      have h5 : (1 : ℝ) / 2 ^ 100 ≤ w ^ 2 := by
        rw [← sq_abs w]
        calc (1 : ℝ) / 2 ^ 100 = (1 / 2 ^ 50) ^ 2 := by norm_num
          _ ≤ _ := by gcongr
      have h6 := cos_le_one w
      rw [abs_le]
      constructor <;> norm_num at h1 ht h5 ⊢ <;> linarith
  refine ⟨?_, hS, ?_, ?_, key, hK⟩
  · refine (hM.sin w).trans ?_
    have h1 : |sin w| / 2 ^ 52 ≤ min 1 |w| / 2 ^ 52 := by gcongr
    have h2 := tiny_le 110 (by norm_num)
    generalize min 1 |w| = m at *
    norm_num at h1 h2 hm ⊢
    linarith
  · rw [show M.cos w - 1 = -(1 - M.cos w) by ring, M.neg,
      show -M.rnd (1 - M.cos w) - (cos w - 1) = -(M.rnd (1 - M.cos w) - (1 - cos w)) by ring, abs_neg]
    exact key
  · rw [abs_sub_comm]; exact hK

theorem sin_heading (hM : AccurateTrig M) (θ : ℝ) : |M.sin θ - sin θ| ≤ 1 / 2 ^ 51 := by
  refine (hM.sin θ).trans ?_
  have h1 : |sin θ| / 2 ^ 52 ≤ 1 / 2 ^ 52 := by gcongr; exact abs_sin_le_one θ
  have h2 := tiny_le 52 (by norm_num)
  norm_num at h1 h2 ⊢
  linarith

/-- the error of the division of `1 - cos w` by `w` -/
noncomputable def stepLoss (w : ℝ) : ℝ := min (1 / 2 ^ 50) (w ^ 2) / |w|

/-- One step, compared with the exact motion under the rounded increments. -/
theorem step_turn (hM : AccurateTrig M) {x y θ vx vy om dt V B : ℝ} (hV : 1 / 2 ^ 60 ≤ V)
    (ha : |M.rnd (vx * dt)| ≤ V) (hb : |M.rnd (vy * dt)| ≤ V) (hw : 1 / 2 ^ 50 ≤ |M.rnd (om * dt)|)
    (hBx : |x| + 18 * V ≤ B) (hBy : |y| + 18 * V ≤ B)
    (hbr : almostEqual (.fin om : RDbl M) (lit 0 0) = false) :
    ∃ x' y', integrateTwist (⟨.fin x, .fin y, .fin θ⟩ : V3 (RDbl M)) ⟨.fin vx, .fin vy, .fin om⟩
        (.fin dt) = ⟨.fin x', .fin y', .fin (M.rnd (θ + M.rnd (om * dt)))⟩ ∧
      |x' - (flow ⟨x, y, θ⟩ ⟨M.rnd (vx * dt), M.rnd (vy * dt), M.rnd (om * dt)⟩ 1).c0| ≤
        V * (2 * stepLoss (M.rnd (om * dt)) + 1 / 2 ^ 45) + B / 2 ^ 52 ∧
      |y' - (flow ⟨x, y, θ⟩ ⟨M.rnd (vx * dt), M.rnd (vy * dt), M.rnd (om * dt)⟩ 1).c1| ≤
        V * (2 * stepLoss (M.rnd (om * dt)) + 1 / 2 ^ 45) + B / 2 ^ 52 := by
  have hw0 : M.rnd (om * dt) ≠ 0 := by
    intro h; rw [h, abs_zero] at hw; norm_num at hw
  rw [twist_turn hw0 hbr]
  dsimp only
  generalize M.rnd (vx * dt) = a at *
  generalize M.rnd (vy * dt) = b at *
  generalize M.rnd (om * dt) = w at *
  obtain ⟨t1, t2, t3, t4, t5, t6⟩ := trig_step hM hw
  have hm : 1 / 2 ^ 50 ≤ min 1 |w| := le_min (by norm_num) hw
  have hκ : min (1 / 2 ^ 50) (w ^ 2) ≤ min 1 |w| := by
    refine le_min ((min_le_left _ _).trans (by norm_num)) ?_
    exact (min_le_left _ _).trans hw
  obtain ⟨gX, bX⟩ := body_rd (M := M) hV ha hb hm (min_le_right _ _) t1 t2 t3 hκ t4
  obtain ⟨gY, bY⟩ := body_rd (M := M) hV hb ha hm (min_le_right _ _) t1 t2 t5 hκ t6
  have wx := world_rd (M := M) (x := x) hV (hM.cos θ)
    (show |-M.sin θ - -sin θ| ≤ 1 / 2 ^ 51 by rw [neg_sub_neg, abs_sub_comm]; exact sin_heading hM θ)
    (M.cos_le θ) (by rw [abs_neg]; exact M.sin_le θ) (abs_cos_le_one θ)
    (by rw [abs_neg]; exact abs_sin_le_one θ) gX gY bX bY hBx
  have wy := world_rd (M := M) (x := y) hV (show |M.cos θ - cos θ| ≤ 1 / 2 ^ 52 from hM.cos θ)
    (sin_heading hM θ) (M.cos_le θ) (M.sin_le θ) (abs_cos_le_one θ) (abs_sin_le_one θ) gY gX bY bX hBy
  refine ⟨_, _, rfl, ?_, ?_⟩
  · simp only [flow, hw0, if_false, mul_one]
    rw [show x + (a * (sin (θ + w) - sin θ) + b * (cos (θ + w) - cos θ)) / w =
      x + (cos θ * ((a * sin w + b * (cos w - 1)) / w) + -sin θ * ((b * sin w + a * (1 - cos w)) / w)) by
        rw [sin_add, cos_add]; field_simp; ring]
    refine wx.trans (le_of_eq ?_)
    unfold stepLoss
    ring
  · simp only [flow, hw0, if_false, mul_one]
    rw [add_comm (M.rnd (M.sin θ * _))]
    rw [show y + (a * (cos θ - cos (θ + w)) + b * (sin (θ + w) - sin θ)) / w =
      y + (cos θ * ((b * sin w + a * (1 - cos w)) / w) + sin θ * ((a * sin w + b * (cos w - 1)) / w)) by
        rw [sin_add, cos_add]; field_simp; ring]
    refine wy.trans (le_of_eq ?_)
    unfold stepLoss
    ring

theorem step_straight (hM : AccurateTrig M) {x y θ vx vy om dt V B : ℝ} (hV : 1 / 2 ^ 60 ≤ V)
    (ha : |M.rnd (vx * dt)| ≤ V) (hb : |M.rnd (vy * dt)| ≤ V)
    (hBx : |x| + 18 * V ≤ B) (hBy : |y| + 18 * V ≤ B)
    (hbr : almostEqual (.fin om : RDbl M) (lit 0 0) = true) :
    ∃ x' y', integrateTwist (⟨.fin x, .fin y, .fin θ⟩ : V3 (RDbl M)) ⟨.fin vx, .fin vy, .fin om⟩
        (.fin dt) = ⟨.fin x', .fin y', .fin (M.rnd θ)⟩ ∧
      |x' - (flow ⟨x, y, θ⟩ ⟨M.rnd (vx * dt), M.rnd (vy * dt), 0⟩ 1).c0| ≤ V / 2 ^ 46 + B / 2 ^ 52 ∧
      |y' - (flow ⟨x, y, θ⟩ ⟨M.rnd (vx * dt), M.rnd (vy * dt), 0⟩ 1).c1| ≤ V / 2 ^ 46 + B / 2 ^ 52 := by
  rw [twist_straight hbr]
  dsimp only
  generalize M.rnd (vx * dt) = a at *
  generalize M.rnd (vy * dt) = b at *
  have hV0 : 0 < V := lt_of_lt_of_le (by positivity) hV
  have wx := world_rd (M := M) (x := x) (dx := a) (dy := b) (E := 0) hV (hM.cos θ)
    (show |-M.sin θ - -sin θ| ≤ 1 / 2 ^ 51 by rw [neg_sub_neg, abs_sub_comm]; exact sin_heading hM θ)
    (M.cos_le θ) (by rw [abs_neg]; exact M.sin_le θ) (abs_cos_le_one θ)
    (by rw [abs_neg]; exact abs_sin_le_one θ) (by simp) (by simp)
    (show |a| ≤ 8 * V by linarith) (show |b| ≤ 8 * V by linarith) hBx
  have wy := world_rd (M := M) (x := y) (dx := b) (dy := a) (E := 0) hV (hM.cos θ)
    (sin_heading hM θ) (M.cos_le θ) (M.sin_le θ) (abs_cos_le_one θ) (abs_sin_le_one θ)
    (by simp) (by simp) (show |b| ≤ 8 * V by linarith) (show |a| ≤ 8 * V by linarith) hBy
  refine ⟨_, _, rfl, ?_, ?_⟩
  · simp only [flow, if_true, mul_one]
    rw [show x + (a * cos θ - b * sin θ) = x + (cos θ * a + -sin θ * b) by ring]
    simpa using wx
  · simp only [flow, if_true, mul_one]
    rw [add_comm (M.rnd (M.sin θ * _)),
      show y + (a * sin θ + b * cos θ) = y + (cos θ * b + sin θ * a) by ring]
    simpa using wy

/-- What a step can lose, as a fraction of its length: dividing by the angle of the step magnifies
the rounding of `1 - cos`, which is itself no larger than the square of the angle.  When the code
goes straight the rotation is lost. -/
noncomputable def stepGap (om dt : ℝ) : ℝ := min (1 / 2 ^ 47 / |om * dt|) (4 * |om * dt|)

/-- rounding an increment -/
theorem increment_rd {a V : ℝ} (hV : 1 / 2 ^ 60 ≤ V) (h : |a| ≤ V) :
    |M.rnd a - a| ≤ V / 2 ^ 52 ∧ |M.rnd a| ≤ V * (1 + 1 / 2 ^ 52) := by
  have e := M.err (minNormal_small (le_trans (by norm_num) hV)) h
  refine ⟨e, ?_⟩
  have := abs_sub_abs_le_abs_sub (M.rnd a) a
  norm_num [-abs_mul] at e ⊢
  linarith

/-- rounding the angle of a step in the turning branch -/
theorem angle_rd {om dt : ℝ} (hdt : 1 / 1000 ≤ dt)
    (hbr : almostEqual (.fin om : RDbl M) (lit 0 0) = false) :
    9 / 10 ^ 16 ≤ |om * dt| ∧ |M.rnd (om * dt) - om * dt| ≤ |om * dt| / 2 ^ 52 ∧
    |om * dt| / 2 ≤ |M.rnd (om * dt)| ∧ |M.rnd (om * dt)| ≤ 3 / 2 * |om * dt| ∧ 1 / 2 ^ 50 ≤ |M.rnd (om * dt)| := by
  have h := branch_turn hbr
  have h1 : 9 / 10 ^ 16 ≤ |om * dt| := by
    rw [abs_mul, abs_of_pos (show 0 < dt by linarith)]
    calc (9 : ℝ) / 10 ^ 16 ≤ 999 / 1000 / 10 ^ 12 * (1 / 1000) := by norm_num
      _ ≤ |om| * dt := by gcongr
  have e := M.err (x := om * dt) (minNormal_small (le_trans (by norm_num) h1)) le_rfl
  have h2 := abs_sub_abs_le_abs_sub (om * dt) (M.rnd (om * dt))
  have h3 := abs_sub_abs_le_abs_sub (M.rnd (om * dt)) (om * dt)
  rw [abs_sub_comm] at h2
  refine ⟨h1, e, ?_, ?_, ?_⟩ <;> norm_num [-abs_mul] at e h1 ⊢ <;> linarith

/-- C98, the turning branch: `integrate_twist` with rounding against the exact motion. -/
theorem C98_turn (hM : AccurateTrig M) {x y θ vx vy om dt V B : ℝ} (hV : 1 / 2 ^ 60 ≤ V)
    (ha : |vx * dt| ≤ V) (hb : |vy * dt| ≤ V) (hdt : 1 / 1000 ≤ dt) (hw : |om * dt| ≤ 64)
    (hBx : |x| + 19 * V ≤ B) (hBy : |y| + 19 * V ≤ B)
    (hbr : almostEqual (.fin om : RDbl M) (lit 0 0) = false) :
    ∃ x' y' θ', integrateTwist (⟨.fin x, .fin y, .fin θ⟩ : V3 (RDbl M)) ⟨.fin vx, .fin vy, .fin om⟩
        (.fin dt) = ⟨.fin x', .fin y', .fin θ'⟩ ∧
      |x' - (flow ⟨x, y, θ⟩ ⟨vx, vy, om⟩ dt).c0| ≤
        V * (stepGap om dt + 1 / 2 ^ 43) + B / 2 ^ 52 ∧
      |y' - (flow ⟨x, y, θ⟩ ⟨vx, vy, om⟩ dt).c1| ≤
        V * (stepGap om dt + 1 / 2 ^ 43) + B / 2 ^ 52 ∧
      |θ' - (θ + om * dt)| ≤ (|θ| + 192) / 2 ^ 52 := by
  have hV0 : 0 < V := lt_of_lt_of_le (by positivity) hV
  obtain ⟨ea, ba⟩ := increment_rd (M := M) hV ha
  obtain ⟨eb, bb⟩ := increment_rd (M := M) hV hb
  obtain ⟨w0, ew, wh, wu, wl⟩ := angle_rd (M := M) hdt hbr
  have hV' : V ≤ V * (1 + 1 / 2 ^ 52) := by nlinarith
  have h18 : 18 * (V * (1 + 1 / 2 ^ 52)) ≤ 19 * V := by norm_num; linarith
  obtain ⟨x', y', he, hx, hy⟩ := step_turn hM (x := x) (y := y) (θ := θ) (V := V * (1 + 1 / 2 ^ 52)) (B := B)
    (hV.trans hV') ba bb wl (by linarith) (by linarith) hbr
  have hdt0 : dt ≠ 0 := by linarith
  rw [flow_unit _ _ hdt0]
  dsimp only
  obtain ⟨c0, c1⟩ := flow_close ⟨x, y, θ⟩ ⟨x, y, θ⟩
    ⟨M.rnd (vx * dt), M.rnd (vy * dt), M.rnd (om * dt)⟩ ⟨vx * dt, vy * dt, om * dt⟩
  simp only [sub_self, abs_zero, zero_add, sub_sub_sub_cancel_right] at c0 c1
  have hg : |M.rnd (vx * dt) - vx * dt| + |M.rnd (vy * dt) - vy * dt| +
      (|vx * dt| + |vy * dt|) * |M.rnd (om * dt) - om * dt| ≤ V * (130 / 2 ^ 52) := by
    have h1 : (|vx * dt| + |vy * dt|) * |M.rnd (om * dt) - om * dt| ≤ (2 * V) * (64 / 2 ^ 52) := by
      refine mul_le_mul (by linarith) (ew.trans ?_) (abs_nonneg _) (by linarith)
      exact div_le_div_of_nonneg_right hw (by norm_num)
    norm_num [-abs_mul] at ea eb h1 ⊢
    linarith
  have hgap : V * (1 + 1 / 2 ^ 52) * (2 * stepLoss (M.rnd (om * dt)) + 1 / 2 ^ 45) + V * (130 / 2 ^ 52) ≤
      V * (stepGap om dt + 1 / 2 ^ 43) := by
    have hw1 : 0 < |om * dt| := lt_of_lt_of_le (by norm_num) w0
    have hw2 : 0 < |M.rnd (om * dt)| := lt_of_lt_of_le (by norm_num) wl
    have h0 : 0 ≤ stepLoss (M.rnd (om * dt)) := by unfold stepLoss; positivity
    have h1 : 5 / 2 * stepLoss (M.rnd (om * dt)) ≤ stepGap om dt := by
      unfold stepLoss stepGap
      refine le_min ?_ ?_
      · have : min (1 / 2 ^ 50) (M.rnd (om * dt) ^ 2) / |M.rnd (om * dt)| ≤
            1 / 2 ^ 50 / (|om * dt| / 2) :=
          div_le_div₀ (by norm_num) (min_le_left _ _) (by positivity) wh
        have h2 : (1 : ℝ) / 2 ^ 50 / (|om * dt| / 2) = 1 / 2 ^ 49 * (1 / |om * dt|) := by field_simp
        have h3 : (1 : ℝ) / 2 ^ 47 / |om * dt| = 1 / 2 ^ 47 * (1 / |om * dt|) := by field_simp
        have hi : 0 < 1 / |om * dt| := by positivity
        rw [h2] at this
        rw [h3]
        generalize 1 / |om * dt| = q at *
        generalize min (1 / 2 ^ 50) (M.rnd (om * dt) ^ 2) / |M.rnd (om * dt)| = r at *
        norm_num at this ⊢
        linarith
      · have : min (1 / 2 ^ 50) (M.rnd (om * dt) ^ 2) / |M.rnd (om * dt)| ≤ |M.rnd (om * dt)| := by
          rw [div_le_iff₀ hw2, abs_mul_abs_self, ← sq]
          exact min_le_right _ _
        linarith
    generalize stepLoss (M.rnd (om * dt)) = p at *
    generalize stepGap om dt = q at *
    have : V * ((1 + 1 / 2 ^ 52) * (2 * p + 1 / 2 ^ 45) + 130 / 2 ^ 52) ≤ V * (q + 1 / 2 ^ 43) := by
      apply mul_le_mul_of_nonneg_left _ hV0.le
      norm_num at h1 ⊢
      linarith
    linarith
  refine ⟨x', y', _, he, ?_, ?_, ?_⟩
  · have h1 := abs_le.mp hx
    have h2 := abs_le.mp (c0.trans hg)
    rw [abs_le]; constructor <;> linarith
  · have h1 := abs_le.mp hy
    have h2 := abs_le.mp (c1.trans hg)
    rw [abs_le]; constructor <;> linarith
  · have h0 := abs_nonneg θ
    have h1 : |M.rnd (om * dt) - om * dt| ≤ 64 / 2 ^ 52 :=
      ew.trans (div_le_div_of_nonneg_right hw (by norm_num))
    have h2 := abs_sub_abs_le_abs_sub (M.rnd (om * dt)) (om * dt)
    have h3 : |θ + M.rnd (om * dt)| ≤ |θ| + 65 := by
      refine (abs_add_le _ _).trans ?_
      norm_num [-abs_mul] at h1
      linarith
    have h4 := M.err (minNormal_small (by linarith)) h3
    have h5 := abs_le.mp h4
    have h6 := abs_le.mp h1
    rw [abs_le]
    constructor <;> norm_num [-abs_mul] at h5 h6 ⊢ <;> linarith

/-- C98, the straight branch: a rotation below `10^-12` is ignored. -/
theorem C98_straight (hM : AccurateTrig M) {x y θ vx vy om dt V B : ℝ} (hV : 1 / 2 ^ 60 ≤ V)
    (ha : |vx * dt| ≤ V) (hb : |vy * dt| ≤ V) (hdt : 0 < dt)
    (hBx : |x| + 19 * V ≤ B) (hBy : |y| + 19 * V ≤ B)
    (hbr : almostEqual (.fin om : RDbl M) (lit 0 0) = true) :
    ∃ x' y' θ', integrateTwist (⟨.fin x, .fin y, .fin θ⟩ : V3 (RDbl M)) ⟨.fin vx, .fin vy, .fin om⟩
        (.fin dt) = ⟨.fin x', .fin y', .fin θ'⟩ ∧
      |x' - (flow ⟨x, y, θ⟩ ⟨vx, vy, om⟩ dt).c0| ≤ V * (2 * |om * dt| + 1 / 2 ^ 43) + B / 2 ^ 52 ∧
      |y' - (flow ⟨x, y, θ⟩ ⟨vx, vy, om⟩ dt).c1| ≤ V * (2 * |om * dt| + 1 / 2 ^ 43) + B / 2 ^ 52 ∧
      |θ' - (θ + om * dt)| ≤ |om * dt| + (|θ| + 192) / 2 ^ 52 := by
  have hV0 : 0 < V := lt_of_lt_of_le (by positivity) hV
  obtain ⟨ea, ba⟩ := increment_rd (M := M) hV ha
  obtain ⟨eb, bb⟩ := increment_rd (M := M) hV hb
  have hV' : V ≤ V * (1 + 1 / 2 ^ 52) := by nlinarith
  have h18 : 18 * (V * (1 + 1 / 2 ^ 52)) ≤ 19 * V := by norm_num; linarith
  obtain ⟨x', y', he, hx, hy⟩ := step_straight hM (x := x) (y := y) (θ := θ) (V := V * (1 + 1 / 2 ^ 52)) (B := B)
    (hV.trans hV') ba bb (by linarith) (by linarith) hbr
  rw [flow_unit _ _ hdt.ne']
  dsimp only
  obtain ⟨c0, c1⟩ := flow_close ⟨x, y, θ⟩ ⟨x, y, θ⟩
    ⟨M.rnd (vx * dt), M.rnd (vy * dt), 0⟩ ⟨vx * dt, vy * dt, om * dt⟩
  simp only [sub_self, abs_zero, zero_add, sub_sub_sub_cancel_right, zero_sub, abs_neg] at c0 c1
  have hg : |M.rnd (vx * dt) - vx * dt| + |M.rnd (vy * dt) - vy * dt| +
      (|vx * dt| + |vy * dt|) * |om * dt| ≤ V * (2 / 2 ^ 52) + V * (2 * |om * dt|) := by
    have h1 : (|vx * dt| + |vy * dt|) * |om * dt| ≤ (2 * V) * |om * dt| :=
      mul_le_mul_of_nonneg_right (by linarith) (abs_nonneg _)
    norm_num [-abs_mul] at ea eb ⊢
    linarith
  have hgap : V * (1 + 1 / 2 ^ 52) / 2 ^ 46 + V * (2 / 2 ^ 52) ≤ V * (1 / 2 ^ 43) := by
    norm_num; linarith
  refine ⟨x', y', _, he, ?_, ?_, ?_⟩
  · have h1 := abs_le.mp hx
    have h2 := abs_le.mp (c0.trans hg)
    rw [abs_le]; constructor <;> linarith
  · have h1 := abs_le.mp hy
    have h2 := abs_le.mp (c1.trans hg)
    rw [abs_le]; constructor <;> linarith
  · have h0 := abs_nonneg θ
    have h4 := M.err (x := θ) (B := |θ| + 192) (minNormal_small (by linarith)) (by linarith)
    rw [show M.rnd θ - (θ + om * dt) = (M.rnd θ - θ) + -(om * dt) by ring]
    refine (abs_add_le _ _).trans ?_
    rw [abs_neg]
    linarith

/-- The rotation the code ignores. -/
noncomputable def lostTurn (om dt : ℝ) : ℝ :=
  if |om| ≤ 1001 / 1000 / 10 ^ 12 then |om * dt| else 0

theorem stepGap_nonneg (om dt : ℝ) : 0 ≤ stepGap om dt := by unfold stepGap; positivity

theorem lostTurn_nonneg (om dt : ℝ) : 0 ≤ lostTurn om dt := by
  unfold lostTurn; split <;> positivity

/-- Never more than a quarter of a millionth of the length of the step. -/
theorem stepGap_le (om dt : ℝ) : stepGap om dt ≤ 1 / 2 ^ 22 := by
  unfold stepGap
  rcases le_or_gt |om * dt| (1 / 2 ^ 24) with h | h
  · refine (min_le_right _ _).trans ?_
    norm_num [-abs_mul] at h ⊢
    linarith
  · refine (min_le_left _ _).trans ?_
    calc 1 / 2 ^ 47 / |om * dt| ≤ 1 / 2 ^ 47 / (1 / 2 ^ 24) := by gcongr
      _ ≤ _ := by norm_num

theorem lostTurn_le {om dt : ℝ} (hdt : 1 / 1000 ≤ dt) (hdt1 : dt ≤ 64) : lostTurn om dt ≤ 1 / 2 ^ 33 := by
  have hd : |dt| = dt := abs_of_pos (by linarith)
  unfold lostTurn
  split
  · rename_i h
    rw [abs_mul, hd]
    have : |om| * dt ≤ 1001 / 1000 / 10 ^ 12 * 64 := mul_le_mul h hdt1 (by linarith) (by norm_num)
    norm_num at this ⊢
    linarith
  · norm_num

/-- The numbers of a simulation: increments of at most `V` and one turn of at most
64 radians in each step. -/
structure MotionNumbers (vx vy om dt V : ℝ) : Prop where
  step_lo : 1 / 1000 ≤ dt
  step_hi : dt ≤ 64
  long : 1 / 2 ^ 60 ≤ V
  x_len : |vx * dt| ≤ V
  y_len : |vy * dt| ≤ V
  turn : |om * dt| ≤ 64

/-- C98: one step of `integrate_twist` with rounding against the exact motion. -/
theorem C98_step (hM : AccurateTrig M) {x y θ vx vy om dt V B : ℝ}
    (hN : MotionNumbers vx vy om dt V) (hBx : |x| + 19 * V ≤ B) (hBy : |y| + 19 * V ≤ B) :
    ∃ x' y' θ', integrateTwist (⟨.fin x, .fin y, .fin θ⟩ : V3 (RDbl M)) ⟨.fin vx, .fin vy, .fin om⟩
        (.fin dt) = ⟨.fin x', .fin y', .fin θ'⟩ ∧
      |x' - (flow ⟨x, y, θ⟩ ⟨vx, vy, om⟩ dt).c0| ≤ V * (stepGap om dt + 1 / 2 ^ 43) + B / 2 ^ 52 ∧
      |y' - (flow ⟨x, y, θ⟩ ⟨vx, vy, om⟩ dt).c1| ≤ V * (stepGap om dt + 1 / 2 ^ 43) + B / 2 ^ 52 ∧
      |θ' - (flow ⟨x, y, θ⟩ ⟨vx, vy, om⟩ dt).c2| ≤ lostTurn om dt + (|θ| + 192) / 2 ^ 52 := by
  have hV0 : 0 < V := lt_of_lt_of_le (by positivity) hN.long
  have hdt0 : 0 < dt := lt_of_lt_of_le (by norm_num) hN.step_lo
  have hd : |dt| = dt := abs_of_pos hdt0
  rw [flow_heading]
  cases hbr : almostEqual (.fin om : RDbl M) (lit 0 0) with
  | false =>
    obtain ⟨x', y', θ', he, h1, h2, h3⟩ := C98_turn hM (θ := θ) hN.long hN.x_len hN.y_len hN.step_lo
      hN.turn hBx hBy hbr
    have := lostTurn_nonneg om dt
    exact ⟨x', y', θ', he, h1, h2, h3.trans (by linarith)⟩
  | true =>
    obtain ⟨x', y', θ', he, h1, h2, h3⟩ := C98_straight hM (θ := θ) hN.long hN.x_len hN.y_len hdt0
      hBx hBy hbr
    have hs := branch_straight hbr
    have hl : lostTurn om dt = |om * dt| := by unfold lostTurn; rw [if_pos hs]
    have hg : 2 * |om * dt| ≤ stepGap om dt := by
      unfold stepGap
      have hq : |om * dt| ≤ 1 / 10 ^ 10 := by
        rw [abs_mul, hd]
        calc |om| * dt ≤ 1001 / 1000 / 10 ^ 12 * 64 :=
              mul_le_mul hs hN.step_hi hdt0.le (by norm_num)
          _ ≤ _ := by norm_num
      have h0 := abs_nonneg (om * dt)
      rcases h0.eq_or_lt with hz | hp
      · rw [← hz]; norm_num
      · refine le_min ?_ (by linarith)
        rw [le_div_iff₀ hp]
        have : |om * dt| * |om * dt| ≤ 1 / 10 ^ 10 * (1 / 10 ^ 10) := mul_le_mul hq hq hp.le (by norm_num)
        norm_num [-abs_mul, -abs_mul_abs_self] at this ⊢
        linarith
    rw [hl]
    refine ⟨x', y', θ', he, h1.trans ?_, h2.trans ?_, h3⟩
    all_goals
      have := mul_le_mul_of_nonneg_left (add_le_add_left hg (1 / 2 ^ 43)) hV0.le
      linarith

/-- one step of the simulation with its heading wrapped -/
theorem stepPose_rd (hM : AccurateTrig M) {x y θ vx vy om dt V B : ℝ}
    (hN : MotionNumbers vx vy om dt V) (hBx : |x| + 19 * V ≤ B) (hBy : |y| + 19 * V ≤ B)
    (hθ : |θ| ≤ 4) :
    ∃ x' y' θ', stepPose (⟨.fin vx, .fin vy, .fin om⟩ : V3 (RDbl M)) (.fin dt)
        ⟨.fin x, .fin y, .fin θ⟩ = ⟨.fin x', .fin y', .fin θ'⟩ ∧
      |x' - (flow ⟨x, y, θ⟩ ⟨vx, vy, om⟩ dt).c0| ≤ V * (stepGap om dt + 1 / 2 ^ 43) + B / 2 ^ 52 ∧
      |y' - (flow ⟨x, y, θ⟩ ⟨vx, vy, om⟩ dt).c1| ≤ V * (stepGap om dt + 1 / 2 ^ 43) + B / 2 ^ 52 ∧
      (∃ k : ℤ, |θ' - (θ + om * dt + 2 * π * k)| ≤ lostTurn om dt + 1 / 2 ^ 39) ∧ |θ'| ≤ 4 := by
  obtain ⟨x', y', t, he, h1, h2, h3⟩ := C98_step hM (θ := θ) hN hBx hBy
  rw [flow_heading] at h3
  have hl := lostTurn_le (om := om) hN.step_lo hN.step_hi
  have ht : |t| ≤ 69 := by
    have a1 := abs_le.mp h3
    have a2 := abs_le.mp hN.turn
    have a3 := abs_le.mp hθ
    rw [abs_le]
    dsimp only at a1
    constructor <;> norm_num at a1 a2 hl ⊢ <;> linarith
  obtain ⟨θ', k, hn, hk, lo, hi⟩ := C82_heading_PI (M := M) t (ht.trans (by norm_num))
  refine ⟨x', y', θ', ?_, h1, h2, ⟨k, ?_⟩, ?_⟩
  · unfold stepPose
    rw [he]
    dsimp only
    rw [hn]
  · have a1 := abs_le.mp h3
    have a2 := abs_le.mp hk
    dsimp only at a1
    rw [abs_le]
    constructor <;> norm_num at a1 a2 hl ⊢ <;> linarith
  · have p0 := abs_le.mp (piR_near M)
    have p1 := Real.pi_lt_d2
    rw [abs_le]
    constructor <;> norm_num at hi p0 p1 ⊢ <;> linarith

/-! ## many steps -/

theorem flow_len {x u : V3 ℝ} {t : ℝ} (ht : 0 ≤ t) :
    |(flow x u t).c0 - x.c0| ≤ speed u * t ∧ |(flow x u t).c1 - x.c1| ≤ speed u * t := by
  have := planar_le (C76_flow x u t)
  rwa [abs_of_nonneg ht] at this

/-- C98: where the simulated robot can be after `k` steps: no farther than its speed allows, plus
the rounding of the steps.  `n` is the number of steps of the whole simulation. -/
theorem C98_reach (hM : AccurateTrig M) {x y θ vx vy om dt V B : ℝ} {n : ℕ}
    (hN : MotionNumbers vx vy om dt V) (hθ : |θ| ≤ 4) (hn : n ≤ 2 ^ 40)
    (hBx : 2 * (|x| + (3 * n + 19) * V) ≤ B) (hBy : 2 * (|y| + (3 * n + 19) * V) ≤ B)
    (k : ℕ) (hk : k ≤ n) :
    ∃ x' y' θ', poseAfter (⟨.fin vx, .fin vy, .fin om⟩ : V3 (RDbl M)) (.fin dt)
        ⟨.fin x, .fin y, .fin θ⟩ k = ⟨.fin x', .fin y', .fin θ'⟩ ∧ |θ'| ≤ 4 ∧
      |x' - x| ≤ k * (speed ⟨vx, vy, om⟩ * dt + V * (stepGap om dt + 1 / 2 ^ 43) + B / 2 ^ 52) ∧
      |y' - y| ≤ k * (speed ⟨vx, vy, om⟩ * dt + V * (stepGap om dt + 1 / 2 ^ 43) + B / 2 ^ 52) ∧
      |x'| + 19 * V ≤ B ∧ |y'| + 19 * V ≤ B := by
  have hV0 : 0 < V := lt_of_lt_of_le (by positivity) hN.long
  have hdt0 : 0 < dt := lt_of_lt_of_le (by norm_num) hN.step_lo
  have hB0 : 0 ≤ B := by have := abs_nonneg x; nlinarith [(Nat.cast_nonneg n : (0 : ℝ) ≤ n)]
  -- length of one step
  have hlen : speed ⟨vx, vy, om⟩ * dt ≤ 2 * V := by
    have h1 : speed ⟨vx, vy, om⟩ ≤ |vx| + |vy| := by
      unfold speed
      rw [sqrt_le_left (by positivity)]
      dsimp only
      nlinarith [sq_abs vx, sq_abs vy, abs_nonneg vx, abs_nonneg vy,
        mul_nonneg (abs_nonneg vx) (abs_nonneg vy)]
    have h2 := hN.x_len
    have h3 := hN.y_len
    rw [abs_mul, abs_of_pos hdt0] at h2 h3
    nlinarith
  have hgap := stepGap_le om dt
  set L := speed ⟨vx, vy, om⟩ * dt + V * (stepGap om dt + 1 / 2 ^ 43) + B / 2 ^ 52 with hL
  have hL3 : L ≤ 3 * V + B / 2 ^ 52 := by
    have : V * (stepGap om dt + 1 / 2 ^ 43) ≤ V * 1 := by
      apply mul_le_mul_of_nonneg_left _ hV0.le
      norm_num at hgap ⊢
      linarith
    linarith
  have hL0 : 0 ≤ L := by
    have h1 := stepGap_nonneg om dt
    have h2 : 0 ≤ speed ⟨vx, vy, om⟩ := speed_nonneg _
    positivity
  have bound : ∀ k : ℕ, k ≤ n → ∀ c d : ℝ, 2 * (|c| + (3 * n + 19) * V) ≤ B → |d - c| ≤ k * L →
      |d| + 19 * V ≤ B := by
    intro k hk c d hc hd
    have h1 : (k : ℝ) ≤ n := by exact_mod_cast hk
    have h2 : (n : ℝ) ≤ 2 ^ 40 := by exact_mod_cast hn
    have h3 : (k : ℝ) * L ≤ n * (3 * V) + B / 2 := by
      calc (k : ℝ) * L ≤ n * (3 * V + B / 2 ^ 52) := mul_le_mul h1 hL3 hL0 (by positivity)
        _ = n * (3 * V) + n * (B / 2 ^ 52) := by ring
        _ ≤ n * (3 * V) + 2 ^ 40 * (B / 2 ^ 52) := by gcongr
        _ ≤ n * (3 * V) + B / 2 := by norm_num; linarith
    have h4 := abs_sub_abs_le_abs_sub d c
    linarith
  induction k with
  | zero =>
    refine ⟨x, y, θ, rfl, hθ, by simp, by simp, bound 0 hk x x hBx (by simp), bound 0 hk y y hBy (by simp)⟩
  | succ k ih =>
    obtain ⟨x1, y1, θ1, he, h1, hx, hy, bx, bY⟩ := ih (by omega)
    obtain ⟨x2, y2, θ2, he2, gx, gy, -, h2⟩ := stepPose_rd hM hN bx bY h1
    obtain ⟨fx, fy⟩ := flow_len (x := ⟨x1, y1, θ1⟩) (u := ⟨vx, vy, om⟩) hdt0.le
    have h3 : ∀ a b c f : ℝ, |c - f| ≤ V * (stepGap om dt + 1 / 2 ^ 43) + B / 2 ^ 52 →
        |f - b| ≤ speed ⟨vx, vy, om⟩ * dt → |b - a| ≤ k * L → |c - a| ≤ (k + 1 : ℕ) * L := by
      intro a b c f g1 g2 g3
      rw [show c - a = (c - f) + ((f - b) + (b - a)) by ring]
      refine (abs_add_le _ _).trans ?_
      have := abs_add_le (f - b) (b - a)
      push_cast
      linarith
    have hx2 := h3 x x1 x2 _ gx fx hx
    have hy2 := h3 y y1 y2 _ gy fy hy
    refine ⟨x2, y2, θ2, ?_, h2, hx2, hy2, bound _ hk x x2 hBx hx2, bound _ hk y y2 hBy hy2⟩
    unfold poseAfter at he ⊢
    rw [Function.iterate_succ_apply', he, he2]

/-- C98: after `k` steps the simulated pose is close to the exact motion over `k * dt`. -/
theorem C98_trajectory (hM : AccurateTrig M) {x y θ vx vy om dt V B : ℝ} {n : ℕ}
    (hN : MotionNumbers vx vy om dt V) (hθ : |θ| ≤ 4) (hn : n ≤ 2 ^ 40)
    (hBx : 2 * (|x| + (3 * n + 19) * V) ≤ B) (hBy : 2 * (|y| + (3 * n + 19) * V) ≤ B)
    (k : ℕ) (hk : k ≤ n) :
    ∃ x' y' θ', poseAfter (⟨.fin vx, .fin vy, .fin om⟩ : V3 (RDbl M)) (.fin dt)
        ⟨.fin x, .fin y, .fin θ⟩ k = ⟨.fin x', .fin y', .fin θ'⟩ ∧
      |x' - (flow ⟨x, y, θ⟩ ⟨vx, vy, om⟩ (k * dt)).c0| ≤
        k * (V * (stepGap om dt + 1 / 2 ^ 43) + B / 2 ^ 52) + k ^ 2 * V * (lostTurn om dt + 1 / 2 ^ 39) ∧
      |y' - (flow ⟨x, y, θ⟩ ⟨vx, vy, om⟩ (k * dt)).c1| ≤
        k * (V * (stepGap om dt + 1 / 2 ^ 43) + B / 2 ^ 52) + k ^ 2 * V * (lostTurn om dt + 1 / 2 ^ 39) ∧
      ∃ j : ℤ, |θ' - (θ + om * (k * dt) + 2 * π * j)| ≤ k * (lostTurn om dt + 1 / 2 ^ 39) := by
  have hV0 : 0 < V := lt_of_lt_of_le (by positivity) hN.long
  have hdt0 : 0 < dt := lt_of_lt_of_le (by norm_num) hN.step_lo
  set e := V * (stepGap om dt + 1 / 2 ^ 43) + B / 2 ^ 52 with he'
  set h := lostTurn om dt + 1 / 2 ^ 39 with hh
  have hh0 : 0 ≤ h := by have := lostTurn_nonneg om dt; positivity
  induction k with
  | zero =>
    refine ⟨x, y, θ, rfl, ?_, ?_, 0, by simp⟩
    · simp [(flow_start _ _).1]
    · simp [(flow_start _ _).2]
  | succ k ih =>
    obtain ⟨x1, y1, θ1, he1, hx, hy, j, hj⟩ := ih (by omega)
    obtain ⟨x1', y1', θ1', he1', hb, -, -, bx, bY⟩ := C98_reach hM hN hθ hn hBx hBy k (by omega)
    have heq := he1.symm.trans he1'
    simp only [V3.mk.injEq, RDbl.fin_inj] at heq
    obtain ⟨rfl, rfl, rfl⟩ := heq
    obtain ⟨x2, y2, θ2, he2, gx, gy, ⟨i, hi⟩, -⟩ := stepPose_rd hM hN bx bY hb
    -- the exact pose, its heading turned by whole turns
    let z : V3 ℝ := flow ⟨x, y, θ⟩ ⟨vx, vy, om⟩ (k * dt)
    let z' : V3 ℝ := ⟨z.c0, z.c1, z.c2 + 2 * π * j⟩
    have hz : SameHeading z'.c2 z.c2 := ⟨j, by simp only [z']; ring⟩
    obtain ⟨s0, s1, -⟩ := flow_displacement hz ⟨vx, vy, om⟩ dt
    obtain ⟨c0, c1⟩ := flow_close ⟨x1, y1, θ1⟩ z' ⟨vx * dt, vy * dt, om * dt⟩ ⟨vx * dt, vy * dt, om * dt⟩
    have hfl : flow ⟨x, y, θ⟩ ⟨vx, vy, om⟩ ((k + 1 : ℕ) * dt) = flow z ⟨vx, vy, om⟩ dt := by
      rw [show ((k + 1 : ℕ) : ℝ) * dt = k * dt + dt by push_cast; ring, flow_add]
    have hu : ∀ p : V3 ℝ, flow p ⟨vx, vy, om⟩ dt = flow p ⟨vx * dt, vy * dt, om * dt⟩ 1 := fun p =>
      flow_unit p ⟨vx, vy, om⟩ hdt0.ne'
    have hθz : |θ1 - z'.c2| ≤ k * h := by
      simp only [z', z, flow_heading]; exact hj
    have hmix : |vx * dt - vx * dt| + |vy * dt - vy * dt| +
        (|vx * dt| + |vy * dt|) * (|θ1 - z'.c2| + |om * dt - om * dt|) ≤ 2 * V * (k * h) := by
      rw [sub_self, sub_self, sub_self, abs_zero, zero_add, zero_add, add_zero]
      exact mul_le_mul (by linarith [hN.x_len, hN.y_len]) hθz (abs_nonneg _) (by linarith)
    have c0' := c0.trans hmix
    have c1' := c1.trans hmix
    rw [← hu, ← hu] at c0' c1'
    have hk2 : (k : ℝ) * e + k ^ 2 * V * h + 2 * V * (k * h) + e ≤
        (k + 1 : ℕ) * e + ((k + 1 : ℕ) : ℝ) ^ 2 * V * h := by
      push_cast
      nlinarith [mul_nonneg hV0.le hh0]
    refine ⟨x2, y2, θ2, ?_, ?_, ?_, j + i, ?_⟩
    · unfold poseAfter at he1 ⊢
      rw [Function.iterate_succ_apply', he1, he2]
    · rw [hfl]
      have a1 := abs_le.mp gx
      have a2 := abs_le.mp c0'
      have a3 := abs_le.mp hx
      rw [abs_le]
      simp only [z'] at s0 a2
      constructor <;> linarith
    · rw [hfl]
      have a1 := abs_le.mp gy
      have a2 := abs_le.mp c1'
      have a3 := abs_le.mp hy
      rw [abs_le]
      simp only [z'] at s1 a2
      constructor <;> linarith
    · have a1 := abs_le.mp hi
      have a2 := abs_le.mp hj
      rw [abs_le]
      push_cast
      constructor <;> linarith

/-- One metre per second and one radian per second, steps of a tenth of a second. -/
theorem demo_motion : MotionNumbers 1 0 1 (1 / 10) (1 / 10) := by
  constructor <;> norm_num [abs_of_pos]

/-- Twenty steps of it in double precision from anywhere within a hundred metres of the origin: less
than a tenth of a nanometre from the exact arc. -/
example (x y θ : ℝ) (hx : |x| ≤ 100) (hy : |y| ≤ 100) (hθ : |θ| ≤ 4) :
    ∃ x' y' θ', poseAfter (⟨.fin 1, .fin 0, .fin 1⟩ : V3 (RDbl ieee)) (.fin (1 / 10))
        ⟨.fin x, .fin y, .fin θ⟩ 20 = ⟨.fin x', .fin y', .fin θ'⟩ ∧
      |x' - (flow ⟨x, y, θ⟩ ⟨1, 0, 1⟩ 2).c0| ≤ 1 / 10 ^ 10 ∧
      |y' - (flow ⟨x, y, θ⟩ ⟨1, 0, 1⟩ 2).c1| ≤ 1 / 10 ^ 10 := by
  obtain ⟨x', y', θ', he, h1, h2, -⟩ := C98_trajectory ieee_trig (x := x) (y := y) (B := 220) (n := 20)
    demo_motion hθ (by norm_num) (by norm_num; linarith) (by norm_num; linarith) 20 le_rfl
  have hg : stepGap 1 (1 / 10) ≤ 1 / 2 ^ 43 := by
    refine (min_le_left _ _).trans ?_
    norm_num [abs_of_pos]
  have hl : lostTurn 1 (1 / 10) = 0 := by unfold lostTurn; rw [if_neg (by norm_num)]
  rw [hl] at h1 h2
  norm_num at h1 h2 hg
  refine ⟨x', y', θ', he, h1.trans ?_, h2.trans ?_⟩ <;> norm_num <;> linarith

end Ergodic
