import Verif.Spec.Dynamics
import Verif.Model.Models
import Verif.Lemmas.Numerics

/-!
# Properties C47–C49: motion models

The Jacobian properties are stated along curves: when state and control move with velocities `v`
and `w`, the dynamics changes with velocity `fdx·v + fdu·w`.  The cases `w = 0`, `v = 0` and the
coordinate directions give the partial derivatives.
-/

namespace Ergodic

/-! ## C47 Jacobians -/

/-- C47 for `Cart`. -/
theorem C47_cart (m : Cart ℝ) (x : ℝ → V3 ℝ) (u : ℝ → V2 ℝ) (v : V3 ℝ) (w : V2 ℝ) (t : ℝ)
    (hx : HasVel3 x v t) (hu : HasVel2 u w t) :
    HasVel3 (fun s => m.f (x s) (u s))
      (((m.fdx (x t) (u t)).mulVec v).add ((m.fdu (x t)).mulVec w)) t := by
  obtain ⟨-, -, hx2⟩ := hx
  obtain ⟨hu0, hu1⟩ := hu
  simp only [HasVel3, Cart.f, Cart.fdx, Cart.fdu, M3.mulVec, M32.mulVec, V3.dot, V2.dot, V3.add,
    V3.smul, real_add, real_mul, real_sub, real_div, real_neg, real_lit, real_sin, real_cos]
  refine ⟨?_, ?_, ?_⟩
  · refine (((hu0.add hu1).mul hx2.cos).const_mul _).congr_deriv ?_
    simp only [Pi.add_apply]; ring
  · refine (((hu0.add hu1).mul hx2.sin).const_mul _).congr_deriv ?_
    simp only [Pi.add_apply]; ring
  · refine (((hu1.sub hu0).div_const _).const_mul _).congr_deriv ?_
    ring

/-- C47 for `SimpleCart`, along controls without lateral velocity. -/
theorem C47_simpleCart (x u : ℝ → V3 ℝ) (v w : V3 ℝ) (t : ℝ)
    (hx : HasVel3 x v t) (hu : HasVel3 u w t) (hl : ∀ s, (u s).c1 = 0) :
    ∃ g : ℝ → V3 ℝ, (∀ s, SimpleCart.f (x s) (u s) = .ok (g s)) ∧
      HasVel3 g (((SimpleCart.fdx (x t) (u t)).mulVec v).add ((SimpleCart.fdu (x t)).mulVec w)) t := by
  refine ⟨fun s => ⟨(u s).c0 * Real.cos (x s).c2, (u s).c0 * Real.sin (x s).c2, (u s).c2⟩, ?_, ?_⟩
  · intro s
    have : almostEqual (u s).c1 (lit 0 0) = true := by
      rw [real_almostEqual, hl s]; norm_num
    unfold SimpleCart.f
    rw [if_neg (not_not.mpr this)]
    rfl
  · obtain ⟨-, -, hx2⟩ := hx
    obtain ⟨hu0, -, hu2⟩ := hu
    simp only [HasVel3, SimpleCart.fdx, SimpleCart.fdu, M3.mulVec, V3.dot, V3.add,
      real_add, real_mul, real_neg, real_lit, real_sin, real_cos]
    refine ⟨?_, ?_, ?_⟩
    · refine (hu0.mul hx2.cos).congr_deriv ?_
      push_cast; ring
    · refine (hu0.mul hx2.sin).congr_deriv ?_
      push_cast; ring
    · refine hu2.congr_deriv ?_
      push_cast; ring

/-- C47 for `Mecanum`. -/
theorem C47_mecanum (m : Mecanum ℝ) (x : ℝ → V3 ℝ) (u : ℝ → V4 ℝ) (v : V3 ℝ) (w : V4 ℝ) (t : ℝ)
    (hx : HasVel3 x v t) (hu : HasVel4 u w t) :
    HasVel3 (fun s => m.f (x s) (u s))
      (((m.fdx (x t) (u t)).mulVec v).add ((m.fdu (x t)).mulVec w)) t := by
  obtain ⟨-, -, hx2⟩ := hx
  obtain ⟨hu0, hu1, hu2, hu3⟩ := hu
  simp only [HasVel3, Mecanum.f, Mecanum.fdx, Mecanum.fdu, M3.mulVec, M34.mulVec, V3.dot, V4.dot,
    V3.add, real_add, real_mul, real_sub, real_div, real_neg, real_lit, real_sin, real_cos]
  have hs := hx2.sin.const_mul (m.wheel_radius / ((4 : Int) / 10 ^ 0))
  have hc := hx2.cos.const_mul (m.wheel_radius / ((4 : Int) / 10 ^ 0))
  refine ⟨?_, ?_, ?_⟩
  · refine ((((hu0.mul (hs.add hc)).add (hu1.mul (hs.neg.add hc))).add (hu2.mul (hs.add hc))).add
      (hu3.mul (hs.neg.add hc))).congr_deriv ?_
    simp only [Pi.add_apply, Pi.neg_apply]; ring
  · refine ((((hu0.mul (hs.sub hc)).add (hu1.mul (hs.add hc))).add (hu2.mul (hs.sub hc))).add
      (hu3.mul (hs.add hc))).congr_deriv ?_
    simp only [Pi.add_apply, Pi.sub_apply]; ring
  · refine ((((hu0.neg.mul_const _).add (hu1.mul_const _)).add (hu2.mul_const _)).sub
      (hu3.mul_const _)).congr_deriv ?_
    ring

/-- C47 for `Omni`. -/
theorem C47_omni (x u : ℝ → V3 ℝ) (v w : V3 ℝ) (t : ℝ) (hx : HasVel3 x v t) (hu : HasVel3 u w t) :
    HasVel3 (fun s => Omni.f (x s) (u s))
      (((Omni.fdx (x t) (u t)).mulVec v).add ((Omni.fdu (x t)).mulVec w)) t := by
  obtain ⟨-, -, hx2⟩ := hx
  obtain ⟨hu0, hu1, hu2⟩ := hu
  simp only [HasVel3, Omni.f, Omni.fdx, Omni.fdu, M3.mulVec, V3.dot, V3.add,
    real_add, real_mul, real_sub, real_neg, real_lit, real_sin, real_cos]
  refine ⟨?_, ?_, ?_⟩
  · refine ((hu0.mul hx2.cos).sub (hu1.mul hx2.sin)).congr_deriv ?_
    push_cast; ring
  · refine ((hu0.mul hx2.sin).add (hu1.mul hx2.cos)).congr_deriv ?_
    push_cast; ring
  · refine hu2.congr_deriv ?_
    push_cast; ring

/-- The hypotheses are met by a robot turning while accelerating. -/
example : HasVel3 (fun s : ℝ => ⟨0, 0, s⟩) ⟨0, 0, 1⟩ 2 ∧ HasVel2 (fun s : ℝ => ⟨3 * s, 1⟩) ⟨3, 0⟩ 2 := by
  refine ⟨⟨hasDerivAt_const _ _, hasDerivAt_const _ _, hasDerivAt_id _⟩, ?_, hasDerivAt_const _ _⟩
  simpa using (hasDerivAt_id (2:ℝ)).const_mul 3

/-! ## C48 wheels and twists -/

/-- C48: `Cart` driven by wheel speeds is `SimpleCart` driven by the corresponding twist. -/
theorem C48_cart (m : Cart ℝ) (x : V3 ℝ) (u : V2 ℝ) :
    SimpleCart.f x (m.wheels2Twist u) = .ok (m.f x u) := by
  have : almostEqual (m.wheels2Twist u).c1 (lit 0 0) = true := by
    rw [real_almostEqual]; norm_num [Cart.wheels2Twist]
  unfold SimpleCart.f
  rw [if_neg (not_not.mpr this), Res.ok.injEq]
  ext <;> simp only [Cart.wheels2Twist, Cart.f, V3.smul, real_add, real_mul, real_sub, real_div,
    real_lit, real_sin, real_cos] <;> ring

/-- C48: `Mecanum` driven by wheel speeds is `Omni` driven by the corresponding twist. -/
theorem C48_mecanum (m : Mecanum ℝ) (x : V3 ℝ) (u : V4 ℝ) :
    Omni.f x (m.wheels2Twist u) = m.f x u := by
  ext <;> simp only [Mecanum.wheels2Twist, Mecanum.f, Omni.f, M34.mulVec, V4.dot, real_add, real_mul,
    real_sub, real_div, real_neg, real_lit, real_sin, real_cos, div_mul_eq_div_div] <;> push_cast <;> ring

/-- C48: the twist of a cart makes both wheels roll without slipping: the contact points, at
`wheel_base` left and right of the centre, move forward with wheel speed times radius. -/
theorem C48_cart_rolling (m : Cart ℝ) (hb : m.wheel_base ≠ 0) (u : V2 ℝ) :
    let v := m.wheels2Twist u
    v.c0 - v.c2 * m.wheel_base = m.wheel_radius * u.c0 ∧
    v.c0 + v.c2 * m.wheel_base = m.wheel_radius * u.c1 ∧ v.c1 = 0 := by
  simp only [Cart.wheels2Twist, real_add, real_mul, real_sub, real_div, real_lit]
  refine ⟨?_, ?_, by norm_num⟩ <;> field_simp <;> ring

/-- C48: for every twist, driving the four mecanum wheels with the speeds that roll without
slipping gives that twist back. -/
theorem C48_mecanum_rolling (m : Mecanum ℝ) (hr : m.wheel_radius ≠ 0)
    (hb : m.wheel_base_x + m.wheel_base_y ≠ 0) (v : V3 ℝ) (u : V4 ℝ)
    (h0 : m.wheel_radius * u.c0 = v.c0 - v.c1 - (m.wheel_base_x + m.wheel_base_y) * v.c2)
    (h1 : m.wheel_radius * u.c1 = v.c0 + v.c1 + (m.wheel_base_x + m.wheel_base_y) * v.c2)
    (h2 : m.wheel_radius * u.c2 = v.c0 - v.c1 + (m.wheel_base_x + m.wheel_base_y) * v.c2)
    (h3 : m.wheel_radius * u.c3 = v.c0 + v.c1 - (m.wheel_base_x + m.wheel_base_y) * v.c2) :
    m.wheels2Twist u = v := by
  have e0 : u.c0 = (v.c0 - v.c1 - (m.wheel_base_x + m.wheel_base_y) * v.c2) / m.wheel_radius := by
    rw [eq_div_iff hr, mul_comm, h0]
  have e1 : u.c1 = (v.c0 + v.c1 + (m.wheel_base_x + m.wheel_base_y) * v.c2) / m.wheel_radius := by
    rw [eq_div_iff hr, mul_comm, h1]
  have e2 : u.c2 = (v.c0 - v.c1 + (m.wheel_base_x + m.wheel_base_y) * v.c2) / m.wheel_radius := by
    rw [eq_div_iff hr, mul_comm, h2]
  have e3 : u.c3 = (v.c0 + v.c1 - (m.wheel_base_x + m.wheel_base_y) * v.c2) / m.wheel_radius := by
    rw [eq_div_iff hr, mul_comm, h3]
  ext <;> simp only [Mecanum.wheels2Twist, M34.mulVec, V4.dot, real_add, real_mul, real_div,
    real_neg, real_lit, e0, e1, e2, e3] <;> push_cast <;> field_simp <;> ring

example : ∃ (m : Mecanum ℝ) (v : V3 ℝ) (u : V4 ℝ), m.wheel_radius ≠ 0 ∧
    m.wheel_base_x + m.wheel_base_y ≠ 0 ∧ v.c1 ≠ 0 ∧
    m.wheel_radius * u.c0 = v.c0 - v.c1 - (m.wheel_base_x + m.wheel_base_y) * v.c2 ∧
    m.wheel_radius * u.c1 = v.c0 + v.c1 + (m.wheel_base_x + m.wheel_base_y) * v.c2 ∧
    m.wheel_radius * u.c2 = v.c0 - v.c1 + (m.wheel_base_x + m.wheel_base_y) * v.c2 ∧
    m.wheel_radius * u.c3 = v.c0 + v.c1 - (m.wheel_base_x + m.wheel_base_y) * v.c2 :=
  ⟨⟨1, 1, 1⟩, ⟨1, 2, 3⟩, ⟨-7, 9, 5, -3⟩, by norm_num, by norm_num, by norm_num, by norm_num,
    by norm_num, by norm_num, by norm_num⟩

/-- C48: the dynamics of `Omni` is the motion of a planar body with a constant twist: the exact
motion `flow` solves it. -/
theorem C48_omni_flow (x u : V3 ℝ) (t : ℝ) : HasVel3 (flow x u) (Omni.f (flow x u t) u) t :=
  ⟨flow_deriv_x x u t, flow_deriv_y x u t, flow_deriv_heading x u t⟩

/-! ## C49 no lateral motion -/

/-- C49: a cart's velocity has no component across its heading. -/
theorem C49_cart_lateral (m : Cart ℝ) (x : V3 ℝ) (u : V2 ℝ) :
    -(m.f x u).c0 * Real.sin x.c2 + (m.f x u).c1 * Real.cos x.c2 = 0 := by
  simp only [Cart.f, V3.smul, real_add, real_mul, real_sub, real_div, real_lit, real_sin, real_cos]
  ring

/-- C49: a simple cart's velocity has no component across its heading; along it, it is the
commanded speed. -/
theorem C49_simpleCart_lateral (x u d : V3 ℝ) (h : SimpleCart.f x u = .ok d) :
    Moves x.c2 u.c0 0 u.c2 d ∧ -d.c0 * Real.sin x.c2 + d.c1 * Real.cos x.c2 = 0 := by
  unfold SimpleCart.f at h
  split at h
  · exact absurd h (by simp)
  · rw [Res.ok.injEq] at h
    subst h
    simp only [Moves, real_mul, real_sin, real_cos]
    refine ⟨⟨by ring, by ring, trivial⟩, by ring⟩

/-- C49: twists are rejected exactly when their lateral velocity reaches the tolerance. -/
theorem C49_guard (x u : V3 ℝ) :
    (SimpleCart.f x u = .throw .invalidArgument ↔ 1 / 10 ^ 12 ≤ |u.c1|) ∧
    ((∃ d, SimpleCart.f x u = .ok d) ↔ |u.c1| < 1 / 10 ^ 12) := by
  have key : (almostEqual u.c1 (lit 0 0) = true) ↔ |u.c1| < 1 / 10 ^ 12 := by
    rw [real_almostEqual]; norm_num
  unfold SimpleCart.f
  by_cases h : |u.c1| < 1 / 10 ^ 12
  · rw [if_neg (not_not.mpr (key.mpr h))]
    refine ⟨⟨fun hh => absurd hh (by simp), fun hh => absurd h (not_lt.mpr hh)⟩, ⟨fun _ => h, fun _ => ⟨_, rfl⟩⟩⟩
  · rw [if_pos (by rw [key]; exact h)]
    refine ⟨⟨fun _ => not_lt.mp h, fun _ => rfl⟩, ⟨?_, fun hh => absurd hh h⟩⟩
    rintro ⟨d, hd⟩; simp at hd

example : ∃ d, SimpleCart.f (⟨0, 0, 1⟩ : V3 ℝ) ⟨2, 0, 1⟩ = .ok d :=
  (C49_guard _ _).2.mpr (by norm_num)

end Ergodic
