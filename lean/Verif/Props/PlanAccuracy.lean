import Verif.Props.Speed
import Verif.Props.ErgodicTarget

/-!
# Property C91: the planned trajectory is the motion of its controls

Exact arithmetic.  The plan is computed with Runge-Kutta steps; a robot that carries out the planned
controls one after the other, each for one time step, follows `ride`.
-/

namespace Ergodic
open Real

/-- where a planar body is after each of the twists `us`, each held for `dt` -/
noncomputable def ride (dt : ℝ) : V3 ℝ → List (V3 ℝ) → List (V3 ℝ)
  | _, [] => []
  | x, u :: us => flow x u dt :: ride dt (flow x u dt) us

/-- what one Runge-Kutta step may be off -/
noncomputable def slip (dt : ℝ) (u : V3 ℝ) : ℝ := speed u * |dt| * (u.c2 * dt) ^ 4 / 2880

theorem slip_nonneg (dt : ℝ) (u : V3 ℝ) : 0 ≤ slip dt u := by
  have := speed_nonneg u
  unfold slip
  positivity

/-- The displacement of a motion depends on the direction it starts in only. -/
theorem flow_displacement {x z : V3 ℝ} (h : SameHeading x.c2 z.c2) (u : V3 ℝ) (t : ℝ) :
    (flow x u t).c0 - x.c0 = (flow z u t).c0 - z.c0 ∧ (flow x u t).c1 - x.c1 = (flow z u t).c1 - z.c1 ∧
    SameHeading (flow x u t).c2 (flow z u t).c2 := by
  obtain ⟨k, hk⟩ := h
  have hcos : ∀ t, cos (x.c2 + t) = cos (z.c2 + t) := by
    intro t; rw [hk, show z.c2 + k * (2 * π) + t = z.c2 + t + k * (2 * π) by ring, cos_add_int_mul_two_pi]
  have hsin : ∀ t, sin (x.c2 + t) = sin (z.c2 + t) := by
    intro t; rw [hk, show z.c2 + k * (2 * π) + t = z.c2 + t + k * (2 * π) by ring, sin_add_int_mul_two_pi]
  have hcos0 := hcos 0
  have hsin0 := hsin 0
  rw [add_zero, add_zero] at hcos0 hsin0
  refine ⟨?_, ?_, k, ?_⟩
  · unfold flow; split
    · simp only [hcos0, hsin0]; ring
    · simp only [hcos, hsin, hcos0, hsin0]; ring
  · unfold flow; split
    · simp only [hcos0, hsin0]; ring
    · simp only [hcos, hsin, hcos0, hsin0]; ring
  · rw [flow_heading, flow_heading, hk]; ring

theorem planar_shift {a b c d : V3 ℝ} (h0 : a.c0 - b.c0 = c.c0 - d.c0) (h1 : a.c1 - b.c1 = c.c1 - d.c1) :
    planar a c = planar b d := by
  unfold planar
  rw [show a.c0 - c.c0 = b.c0 - d.c0 by linarith, show a.c1 - c.c1 = b.c1 - d.c1 by linarith]

/-- C91 for the omni-directional model, from any start near the start of the exact motion. -/
theorem C91_rollout {dt : ℝ} {x : V3 ℝ} {us xs : List (V3 ℝ)} (h : Rollout dt omniModel.f x us xs)
    (z : V3 ℝ) (hz : SameHeading x.c2 z.c2) (i : Nat) (p : V3 ℝ) (hp : xs[i]? = some p) :
    ∃ q, (ride dt z us)[i]? = some q ∧ SameHeading p.c2 q.c2 ∧
      planar p q ≤ planar x z + ((us.take (i + 1)).map (slip dt)).sum := by
  induction h generalizing i z with
  | nil => simp at hp
  | @cons x u y us xs hs hr ih =>
    obtain ⟨d0, d1, d2⟩ := flow_displacement hz u dt
    have hy : SameHeading (normalizeAnglePI y.c2) (flow z u dt).c2 := by
      obtain ⟨k, hk⟩ := C13_same_direction y.c2
      obtain ⟨l, hl⟩ := d2
      refine ⟨k + l, ?_⟩
      rw [hk, C50_heading dt x u y hs, hl]
      push_cast; ring
    have he : planar ⟨y.c0, y.c1, normalizeAnglePI y.c2⟩ (flow z u dt) ≤ planar x z + slip dt u := by
      have h1 : planar ⟨y.c0, y.c1, normalizeAnglePI y.c2⟩ (flow x u dt) ≤ slip dt u := C50_error dt x u y hs
      have h2 := planar_triangle ⟨y.c0, y.c1, normalizeAnglePI y.c2⟩ (flow x u dt) (flow z u dt)
      rw [planar_shift d0 d1] at h2
      linarith
    cases i with
    | zero =>
      rw [List.getElem?_cons_zero, Option.some.injEq] at hp
      subst hp
      exact ⟨flow z u dt, rfl, hy, by simpa using he⟩
    | succ i =>
      rw [List.getElem?_cons_succ] at hp
      obtain ⟨q, a, b, c⟩ := ih (flow z u dt) hy i hp
      refine ⟨q, by simpa [ride] using a, b, ?_⟩
      rw [List.take_succ_cons, List.map_cons, List.sum_cons]
      linarith

/-- what the cart does with a twist -/
def noLateral (u : V3 ℝ) : V3 ℝ := ⟨u.c0, 0, u.c2⟩

theorem cart_rollout {dt : ℝ} {x : V3 ℝ} {us xs : List (V3 ℝ)} (h : Rollout dt cartModel.f x us xs) :
    Rollout dt omniModel.f x (us.map noLateral) xs := by
  induction h with
  | nil => exact .nil _
  | cons hs hr ih => exact .cons (C50_cart _ _ _ _ hs) ih

/-- C91 for the controller: every pose of the trajectory replayed after a call has the heading, and up
to the steps taken times `vmax |dt| (wmax dt)⁴ / 2880` the position, that a robot carrying out the
stored controls reaches, for both robots. -/
theorem C91_plan {model : TwistModel ℝ} {umin umax : V3 ℝ}
    (hm : model = omniModel ∨ (model = cartModel ∧ umin.c1 = 0 ∧ umax.c1 = 0)) {collision : Collision ℝ} {dt horizon resolution weight : ℝ}
    {num_basis buffer_size batch_size : Nat} {Rinv : M3 ℝ}
    {e e' : ErgodicControl ℝ} {g : GridMap ℝ} {x u : V3 ℝ} {draws : List Nat}
    (hb : EcBuilt model collision dt horizon resolution weight num_basis buffer_size
      batch_size Rinv umin umax e) (h : e.control g x draws = .ok (e', u))
    {vmax wmax : ℝ} (hv : ∀ v : V3 ℝ, umin.c0 ≤ v.c0 → v.c0 ≤ umax.c0 → umin.c1 ≤ v.c1 → v.c1 ≤ umax.c1 →
      speed v ≤ vmax) (hw0 : -wmax ≤ umin.c2) (hw1 : umax.c2 ≤ wmax)
    (xs : List (V3 ℝ)) (hxs : e'.optTraj = .ok xs) (i : Nat) (p : V3 ℝ)
    (hp : xs[i]? = some p) :
    ∃ q, (ride dt x e'.ut)[i]? = some q ∧ SameHeading p.c2 q.c2 ∧
      planar p q ≤ (i + 1) * (vmax * |dt| * (wmax * dt) ^ 4 / 2880) := by
  obtain ⟨-, hl⟩ := C59_limits_partial _ _ _ _ _ _ _ _ _ _ _ _ _ _ _ _ _ _ hb h
  have box : ∀ v ∈ e'.ut, (umin.c0 ≤ v.c0 ∧ v.c0 ≤ umax.c0) ∧ (umin.c1 ≤ v.c1 ∧ v.c1 ≤ umax.c1) ∧
      umin.c2 ≤ v.c2 ∧ v.c2 ≤ umax.c2 := by
    intro v hmem
    have hvl := (inBox_real _ _ _).mpr (hl v hmem)
    simpa only [NotOutside, real_lt_false] using hvl
  have hro := (C60_replay hb h).1 xs hxs
  have homni : Rollout dt omniModel.f x e'.ut xs := by
    rcases hm with rfl | ⟨rfl, a, b⟩
    · exact hro
    · have := cart_rollout hro
      rwa [List.map_congr_left (g := id) (by
        intro v hmem
        obtain ⟨-, ⟨c, d⟩, -⟩ := box v hmem
        rw [a] at c; rw [b] at d
        have : v.c1 = 0 := le_antisymm d c
        cases v
        simp only [noLateral, id, V3.mk.injEq, true_and, and_true]
        exact this.symm), List.map_id] at this
  obtain ⟨q, a, b, c⟩ := C91_rollout homni x ⟨0, by simp⟩ i p hp
  refine ⟨q, a, b, c.trans ?_⟩
  have h0 : planar x x = 0 := by simp [planar]
  have hvm : 0 ≤ vmax ∨ e'.ut = [] := by
    cases hut : e'.ut with
    | nil => exact .inr rfl
    | cons v vs =>
      obtain ⟨⟨a, b⟩, ⟨c, d⟩, -⟩ := box v (by rw [hut]; simp)
      exact .inl ((speed_nonneg v).trans (hv v a b c d))
  have hs : ∀ v ∈ e'.ut, slip dt v ≤ vmax * |dt| * (wmax * dt) ^ 4 / 2880 := by
    intro v hmem
    obtain ⟨⟨a, b⟩, ⟨c, d⟩, e, f⟩ := box v hmem
    have h1 := hv v a b c d
    have h2 : |v.c2 * dt| ≤ |wmax * dt| := by
      rw [abs_mul, abs_mul]
      refine mul_le_mul_of_nonneg_right ?_ (abs_nonneg _)
      rw [abs_le]
      have : wmax ≤ |wmax| := le_abs_self _
      constructor <;> linarith
    have h3 : (v.c2 * dt) ^ 4 ≤ (wmax * dt) ^ 4 := by
      have := pow_le_pow_left₀ (abs_nonneg _) h2 4
      rwa [Even.pow_abs (show Even 4 by decide), Even.pow_abs (show Even 4 by decide)] at this
    have h4 := speed_nonneg v
    have h5 : 0 ≤ vmax := h4.trans h1
    unfold slip
    gcongr
  rw [h0, zero_add]
  have : ((e'.ut.take (i + 1)).map (slip dt)).sum ≤ ((e'.ut.take (i + 1)).map (slip dt)).length •
      (vmax * |dt| * (wmax * dt) ^ 4 / 2880) := by
    apply List.sum_le_card_nsmul
    intro y hy
    obtain ⟨v, hv', rfl⟩ := List.mem_map.mp hy
    exact hs v (List.mem_of_mem_take hv')
  refine this.trans ?_
  rw [nsmul_eq_mul, List.length_map, List.length_take]
  rcases hvm with hvm | hvm
  · have : ((min (i + 1) e'.ut.length : ℕ) : ℝ) ≤ i + 1 := by
      exact_mod_cast min_le_left (i + 1) e'.ut.length
    gcongr
  · rw [hvm] at homni
    cases homni
    simp at hp

/-- With the shipped limits (1 m/s, 2 rad/s, 0.1 s) fifty steps are off by less than 3 micrometres. -/
example : (50 : ℝ) * (1 * |0.1| * (2 * 0.1) ^ 4 / 2880) < 3 / 10 ^ 6 := by
  rw [abs_of_pos (by norm_num)]; norm_num

/-- Two different controls, one after the other: the hypothesis of `C91_rollout` can be met. -/
example : ∃ xs, Rollout (1 / 10 : ℝ) omniModel.f ⟨0, 0, 0⟩ [⟨1, 0, 2⟩, ⟨0, 1, -1⟩] xs ∧ xs.length = 2 :=
  by
  have h : Rollout (1 / 10 : ℝ) omniModel.f ⟨0, 0, 0⟩ [⟨1, 0, 2⟩, ⟨0, 1, -1⟩] _ :=
    .cons rfl (.cons rfl (.nil _))
  exact ⟨_, h, h.length⟩

/-- A controller, a map and a call meeting the hypotheses of `C91_plan`. -/
example : ∃ (e e' : ErgodicControl ℝ) (u p : V3 ℝ) (xs : List (V3 ℝ)), DemoBuilt e ∧
    e.control (unitMap 0) ⟨0.5, 0.5, 0⟩ [] = .ok (e', u) ∧ e'.optTraj = .ok xs ∧ xs[1]? = some p ∧
    ∀ v : V3 ℝ, -1 ≤ v.c0 → v.c0 ≤ 1 → -1 ≤ v.c1 → v.c1 ≤ 1 → speed v ≤ 2 := by
  obtain ⟨e, hb, -⟩ := demo_new
  obtain ⟨e', u, hc⟩ := demo_control e hb 0 ⟨0.5, 0.5, 0⟩
  obtain ⟨⟨xs, hxs⟩, -⟩ := (C60_replay hb hc).2.2 (fun _ _ _ => ⟨_, rfl⟩) ""
  have hl : xs.length = 2 := by
    have hro := (C60_replay hb hc).1 xs hxs
    have hi := (hb.control hc).inv
    have h2 : e'.steps = 2 := by
      have := hi.steps_eq; rw [demo_steps, Res.ok.injEq] at this; exact this.symm
    have := hi.ut_length
    rw [hro.length, this, h2]; rfl
  refine ⟨e, e', u, xs[1], xs, hb, hc, hxs, List.getElem?_eq_getElem _, ?_⟩
  intro v a b c d
  rw [speed, Real.sqrt_le_left (by norm_num)]
  nlinarith

end Ergodic
