import Verif.Spec.Validate
import Verif.Props.Numerics

/-! # Helper lemmas about validation of a twist -/

namespace Ergodic
variable {F : Type} [Flt F]

theorem poseAfter_succ (u : V3 F) (dt : F) (x : V3 F) (k : Nat) :
    poseAfter u dt x (k + 1) = poseAfter u dt (stepPose u dt x) k := rfl

theorem validateLoop_true (c : Collision F) (g : GridMap F) (u : V3 F) (dt : F) (n : Nat)
    (x : V3 F) :
    validateLoop c g u dt n x = .ok true ↔
      ∀ k < n, c.collisionCheck g (poseAfter u dt x (k + 1)) = .ok false := by
  induction n generalizing x with
  | zero => simp [validateLoop]
  | succ n ih =>
    have hs : validateLoop c g u dt (n + 1) x =
        (c.collisionCheck g (stepPose u dt x) >>= fun hit =>
          if hit then .ok false else validateLoop c g u dt n (stepPose u dt x)) := rfl
    rw [hs, Res.bind_eq_ok]
    constructor
    · rintro ⟨b, hb, h⟩
      cases b
      · simp only [Bool.false_eq_true, if_false] at h
        intro k hk
        cases k with
        | zero => exact hb
        | succ k => exact (ih _).mp h k (by omega)
      · simp at h
    · intro h
      refine ⟨false, h 0 (by omega), ?_⟩
      simp only [Bool.false_eq_true, if_false]
      exact (ih _).mpr fun k hk => h (k + 1) (by omega)

theorem validateLoop_false (c : Collision F) (g : GridMap F) (u : V3 F) (dt : F) (n : Nat)
    (x : V3 F) :
    validateLoop c g u dt n x = .ok false ↔
      ∃ k < n, c.collisionCheck g (poseAfter u dt x (k + 1)) = .ok true ∧
        ∀ l < k, c.collisionCheck g (poseAfter u dt x (l + 1)) = .ok false := by
  induction n generalizing x with
  | zero => simp [validateLoop]
  | succ n ih =>
    have hs : validateLoop c g u dt (n + 1) x =
        (c.collisionCheck g (stepPose u dt x) >>= fun hit =>
          if hit then .ok false else validateLoop c g u dt n (stepPose u dt x)) := rfl
    rw [hs, Res.bind_eq_ok]
    constructor
    · rintro ⟨b, hb, h⟩
      cases b
      · simp only [Bool.false_eq_true, if_false] at h
        obtain ⟨k, hk, hit, hl⟩ := (ih _).mp h
        refine ⟨k + 1, by omega, hit, fun l hlk => ?_⟩
        cases l with
        | zero => exact hb
        | succ l => exact hl l (by omega)
      · exact ⟨0, by omega, hb, by omega⟩
    · rintro ⟨k, hk, hit, hl⟩
      cases k with
      | zero => exact ⟨true, hit, rfl⟩
      | succ k =>
        refine ⟨false, hl 0 (by omega), ?_⟩
        simp only [Bool.false_eq_true, if_false]
        exact (ih _).mpr ⟨k, by omega, hit, fun l hlk => hl (l + 1) (by omega)⟩

open Real in
/-- The tolerance test of `integrate_twist` is not in the way: no rotation at all, or one
above the tolerance (with a non-zero time step). -/
def RegularTwist (u : V3 ℝ) (dt : ℝ) : Prop := u.c2 = 0 ∨ (1 / 10 ^ 12 ≤ |u.c2| ∧ dt ≠ 0)

theorem integrateTwist_regular {u : V3 ℝ} {dt : ℝ} (h : RegularTwist u dt) (x : V3 ℝ) :
    integrateTwist x u dt = flow x u dt := by
  rcases h with h | ⟨h, hd⟩
  · exact C18_exact_translation x u dt h
  · exact C18_exact_motion x u dt h hd

theorem constTwistLoop_length (u : V3 F) (dt : F) (n : Nat) (x : V3 F) :
    (constTwistLoop u dt n x).length = n := by
  induction n generalizing x with
  | zero => rfl
  | succ n ih => simp [constTwistLoop, ih]

theorem integrateTwist_same {u x y : V3 ℝ} {dt : ℝ} (h0 : x.c0 = y.c0) (h1 : x.c1 = y.c1)
    (h2 : SameHeading x.c2 y.c2) (hdt : dt ≠ 0) :
    (integrateTwist x u dt).c0 = (integrateTwist y u dt).c0 ∧
      (integrateTwist x u dt).c1 = (integrateTwist y u dt).c1 ∧
      SameHeading (integrateTwist x u dt).c2 (integrateTwist y u dt).c2 := by
  by_cases hw : |u.c2| < 1 / 10 ^ 12
  · rw [integrateTwist_line hw, integrateTwist_line hw]; exact flow_same_heading h0 h1 h2
  · rw [integrateTwist_rot (not_lt.mp hw) hdt, integrateTwist_rot (not_lt.mp hw) hdt]
    exact flow_same_heading h0 h1 h2

theorem constTwistLoop_get (u : V3 ℝ) (dt : ℝ) (hdt : dt ≠ 0) (n : Nat) (x y : V3 ℝ)
    (h0 : x.c0 = y.c0) (h1 : x.c1 = y.c1) (h2 : SameHeading x.c2 y.c2) (k : Nat) (hk : k < n) :
    (constTwistLoop u dt n x)[k]? =
      some (poseMsg (poseAfter u dt y (k + 1)).c0 (poseAfter u dt y (k + 1)).c1
        (poseAfter u dt y (k + 1)).c2) := by
  induction n generalizing x y k with
  | zero => omega
  | succ n ih =>
    obtain ⟨e0, e1, e2⟩ := integrateTwist_same (u := u) h0 h1 h2 hdt
    cases k with
    | zero =>
      simp only [constTwistLoop, List.getElem?_cons_zero]
      show some (poseMsg _ _ _) = some (poseMsg (stepPose u dt y).c0 (stepPose u dt y).c1
        (stepPose u dt y).c2)
      simp only [stepPose]
      rw [e0, e1, C13_periodic _ _ e2]
    | succ k =>
      simp only [constTwistLoop, List.getElem?_cons_succ]
      rw [poseAfter_succ]
      refine ih _ (stepPose u dt y) e0 e1 ?_ k (by omega)
      obtain ⟨a, ha⟩ := e2
      obtain ⟨b, hb⟩ := C13_same_direction (integrateTwist y u dt).c2
      exact ⟨a - b, by simp only [stepPose]; rw [ha, hb]; push_cast; ring⟩

end Ergodic
