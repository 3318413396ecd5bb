import Verif.Props.Units
import Verif.Props.MirrorTakeoverCases

/-!
# Property C134: cases
-/

namespace Ergodic
open Real

/-- Case for `C134_target`: a fresh controller (the constructor's basis is 0 by 0) and the gallery, 300 by
100 units. -/
example : ∃ e : ErgodicControl ℝ,
    ErgodicControl.new omniModel galleryDetector (1 : ℝ) 3 1 1 2 5 5 ⟨⟨1, 0, 0⟩, ⟨0, 1, 0⟩, ⟨0, 0, 1⟩⟩ ⟨-1, -1, 0⟩ ⟨1, 1, 0⟩ =
      .ok e ∧ ∀ l : ℝ, 1 ≤ l →
    ¬ (almostEqual ((mapOf galleryMsg).xmax - (mapOf galleryMsg).xmin) e.basis.lx &&
      almostEqual ((mapOf galleryMsg).ymax - (mapOf galleryMsg).ymin) e.basis.ly) = true ∧
    ¬ (almostEqual (l * (mapOf galleryMsg).xmax - l * (mapOf galleryMsg).xmin) (l * e.basis.lx) &&
      almostEqual (l * (mapOf galleryMsg).ymax - l * (mapOf galleryMsg).ymin) (l * e.basis.ly)) = true := by
  have hn : numSteps (3 : ℝ) 1 = .ok 3 := by
    unfold numSteps
    rw [show fabs (3 /. (1 : ℝ)) = 3 by simp [fabs, real_div]]
    exact castU32_real_of (n := 3) (by norm_num) (by norm_num) (by norm_num)
  have hnew : ∃ e, ErgodicControl.new omniModel galleryDetector (1 : ℝ) 3 1 1 2 5 5 ⟨⟨1, 0, 0⟩, ⟨0, 1, 0⟩, ⟨0, 0, 1⟩⟩
      ⟨-1, -1, 0⟩ ⟨1, 1, 0⟩ = .ok e ∧ e.basis.lx = 0 := by
    simp only [ErgodicControl.new, hn, Res.ok_bind]
    rw [if_neg (by decide)]
    exact ⟨_, rfl, by simp [Basis.new, real_lit]⟩
  obtain ⟨e, he, hx⟩ := hnew
  have e3 : (3 : UInt32).toNat = 3 := rfl
  have x0 : (mapOf galleryMsg).xmin = 0 := rfl
  have x1 : (mapOf galleryMsg).xmax = 300 := by
    simp only [mapOf, galleryMsg, real_add, real_mul, real_ofInt, e3]; norm_num
  refine ⟨e, he, fun l hl => ⟨fun h => ?_, fun h => ?_⟩⟩
  · have := (Bool.and_eq_true_iff.mp h).1
    rw [x0, x1, hx, real_almostEqual_eps] at this
    norm_num at this
  · have := (Bool.and_eq_true_iff.mp h).1
    rw [x0, x1, hx, real_almostEqual_eps, mul_zero, sub_zero, sub_zero, abs_of_nonneg (by linarith)] at this
    linarith

/-- Case for `C134_preference`: in the gallery. -/
example : ∃ (d : DynamicWindow ℝ) (g : GridMap ℝ) (x : V3 ℝ), 0 < d.steps.toNat ∧ FreeRollout d g x ⟨1, 0, 0⟩ ∧
    FreeRollout d g x ⟨0, 0, 2⟩ := by
  refine ⟨{ wardWindow with collision := galleryDetector, steps := 1 }, mapOf galleryMsg, ⟨95, 50, 0⟩, ?_, ?_, ?_⟩
  · show 0 < (1 : UInt32).toNat; decide
  · intro k hk
    have : k < 1 := hk
    obtain rfl : k = 0 := by omega
    obtain ⟨a0, a1, -⟩ := straight_step (x := ⟨95, 50, 0⟩) (v := ⟨1, 0, 0⟩) rfl rfl
    dsimp only at a0 a1
    show galleryDetector.collisionCheck (mapOf galleryMsg) (stepPose ⟨1, 0, 0⟩ 1 ⟨95, 50, 0⟩) = .ok false
    exact gallery_free (gallery_clear (by linarith) (by linarith) (by linarith) (by linarith))
  · intro k hk
    have : k < 1 := hk
    obtain rfl : k = 0 := by omega
    show galleryDetector.collisionCheck (mapOf galleryMsg) (stepPose ⟨0, 0, 2⟩ 1 ⟨95, 50, 0⟩) = .ok false
    have a : (stepPose ⟨0, 0, 2⟩ 1 (⟨95, 50, 0⟩ : V3 ℝ)).c0 = 95 ∧ (stepPose ⟨0, 0, 2⟩ 1 (⟨95, 50, 0⟩ : V3 ℝ)).c1 = 50 := by
      have ae : ¬ almostEqual (2 : ℝ) (lit 0 0 : ℝ) = true := by
        rw [real_almostEqual_eps]; norm_num [real_lit]
      unfold stepPose integrateTwist
      dsimp only
      rw [if_neg ae]
      simp only [transform2dAngle, M3.mulVec, V3.dot, V3.add, real_add, real_mul, real_neg, real_div, real_sub, real_cos,
        real_sin, real_lit]
      norm_num
    exact gallery_free (gallery_clear (by linarith [a.1]) (by linarith [a.1]) (by linarith [a.2]) (by linarith [a.2]))

end Ergodic
