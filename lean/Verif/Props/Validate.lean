import Verif.Lemmas.Validate

/-!
# Properties C20–C21: validation of a twist and its displayed path
-/

namespace Ergodic
variable {F : Type} [Flt F]

/-! ## C20 `validate_control` -/

/-- C20: `validate_control` accepts exactly when none of the `⌊|horizon/dt|⌋` simulated poses
collides. -/
theorem C20_accepts_iff (c : Collision F) (g : GridMap F) (x u : V3 F) (dt horizon : F)
    (n : UInt32) (hn : numSteps horizon dt = .ok n) :
    validateControl c g x u dt horizon = .ok true ↔
      ∀ k < n.toNat, c.collisionCheck g (poseAfter u dt x (k + 1)) = .ok false := by
  simp only [validateControl, hn, Res.ok_bind]
  exact validateLoop_true c g u dt n.toNat x

/-- C20: it rejects exactly when some simulated pose collides, and no check before the first
colliding pose fails. -/
theorem C20_rejects_iff (c : Collision F) (g : GridMap F) (x u : V3 F) (dt horizon : F)
    (n : UInt32) (hn : numSteps horizon dt = .ok n) :
    validateControl c g x u dt horizon = .ok false ↔
      ∃ k < n.toNat, c.collisionCheck g (poseAfter u dt x (k + 1)) = .ok true ∧
        ∀ l < k, c.collisionCheck g (poseAfter u dt x (l + 1)) = .ok false := by
  simp only [validateControl, hn, Res.ok_bind]
  exact validateLoop_false c g u dt n.toNat x

/-- C20: the number of simulated poses is `⌊|horizon/dt|⌋`. -/
theorem C20_step_count (horizon dt : ℝ) (h : ⌊|horizon / dt|⌋₊ < 2 ^ 32) :
    numSteps horizon dt = .ok (UInt32.ofNat ⌊|horizon / dt|⌋₊) := by
  rw [numSteps, real_div, real_fabs]
  exact castU32_real_of (Nat.floor_le (abs_nonneg _)) (Nat.lt_floor_add_one _) h

example : ⌊|(1 / 2 : ℝ) / (1 / 10)|⌋₊ < 2 ^ 32 := by norm_num

/-- C20: the simulated poses are the poses of the exact motion at the multiples of `dt`
(headings wrapped to `[-π, π)`). -/
theorem C20_poses_are_exact (u : V3 ℝ) (dt : ℝ) (h : RegularTwist u dt) (x : V3 ℝ) (k : Nat) :
    (poseAfter u dt x (k + 1)).c0 = (flow x u ((k + 1) * dt)).c0 ∧
    (poseAfter u dt x (k + 1)).c1 = (flow x u ((k + 1) * dt)).c1 ∧
    (poseAfter u dt x (k + 1)).c2 = normalizeAnglePI (flow x u ((k + 1) * dt)).c2 := by
  induction k generalizing x with
  | zero =>
    show (stepPose u dt x).c0 = _ ∧ (stepPose u dt x).c1 = _ ∧ (stepPose u dt x).c2 = _
    simp [stepPose, integrateTwist_regular h]
  | succ k ih =>
    rw [poseAfter_succ]
    obtain ⟨h0, h1, h2⟩ := ih (stepPose u dt x)
    have e : ((k + 1 : ℕ) + 1 : ℝ) * dt = dt + (k + 1) * dt := by push_cast; ring
    have hs := flow_same_heading (u := u) (t := (k + 1) * dt) (x := stepPose u dt x)
      (y := flow x u dt) (by simp [stepPose, integrateTwist_regular h])
      (by simp [stepPose, integrateTwist_regular h])
      (by simp only [stepPose, integrateTwist_regular h]; exact C13_same_direction _)
    rw [e, flow_add, h0, h1, h2]
    exact ⟨hs.1, hs.2.1, C13_periodic _ _ hs.2.2⟩

example : RegularTwist ⟨1, 0, 1⟩ (1 / 10) := .inr (by norm_num)

/-! ## C21 `constTwistPath` -/

/-- C21: the path has `⌊|horizon/dt|⌋` poses in the requested frame; the `k`-th one carries the
position and heading of the `k`-th pose that `validate_control` checks for the same
arguments. -/
theorem C21_path_is_validated_path (frame : String) (x u : V3 ℝ) (dt horizon : ℝ) (hdt : dt ≠ 0)
    (n : UInt32) (hn : numSteps horizon dt = .ok n) :
    ∃ p, constTwistPath frame x u dt horizon = .ok p ∧ p.frame_id = frame ∧
      p.poses.length = n.toNat ∧
      ∀ k < n.toNat, ∃ m, p.poses[k]? = some m ∧
        m.px = (poseAfter u dt x (k + 1)).c0 ∧ m.py = (poseAfter u dt x (k + 1)).c1 ∧
        m.qx = 0 ∧ m.qy = 0 ∧
        m.qz = Real.sin ((poseAfter u dt x (k + 1)).c2 / 2) ∧
        m.qw = Real.cos ((poseAfter u dt x (k + 1)).c2 / 2) := by
  refine ⟨_, by simp only [constTwistPath, hn, Res.ok_bind]; rfl, rfl,
    constTwistLoop_length u dt n.toNat x, fun k hk => ?_⟩
  refine ⟨_, constTwistLoop_get u dt hdt n.toNat x x rfl rfl ⟨0, by simp⟩ k hk, rfl, rfl, ?_⟩
  simp [poseMsg]

/-- C21: `validate_control` and `constTwistPath` use the same number of poses, for every
arithmetic. -/
theorem C21_same_length (frame : String) (x u : V3 F) (dt horizon : F) (p : PathMsg F)
    (h : constTwistPath frame x u dt horizon = .ok p) :
    ∃ n, numSteps horizon dt = .ok n ∧ p.poses.length = n.toNat := by
  simp only [constTwistPath] at h
  obtain ⟨n, hn, h⟩ := Res.bind_eq_ok.mp h
  simp only [Res.ok.injEq] at h
  subst h
  exact ⟨n, hn, constTwistLoop_length u dt n.toNat x⟩

example : (1 / 10 : ℝ) ≠ 0 ∧ ∃ n, numSteps (1 / 2 : ℝ) (1 / 10) = .ok n :=
  ⟨by norm_num, _, C20_step_count _ _ (by norm_num)⟩

end Ergodic
