import Verif.Props.ClockRun
import Verif.Props.MirrorTakeoverCases

/-!
# Property C135: construction, and cases
-/

namespace Ergodic
open Real

/-- C135: a controller constructed with settings in another unit is the controller, given in that unit. -/
theorem C135_fresh {s : ℝ} (hs : 0 < s) (M : TwistModel ℝ) (c : Collision ℝ) (dt H res w : ℝ) (nb bs bt : Nat) (R : M3 ℝ)
    (lo hi : V3 ℝ) :
    Alike (fun e e' => e' = Clock.controller s e) (ErgodicControl.new M c dt H res w nb bs bt R lo hi)
      (ErgodicControl.new M c (s * dt) (s * H) res w nb bs bt (Clock.weights s R) (Clock.twist s lo) (Clock.twist s hi)) := by
  unfold ErgodicControl.new
  rw [Clock.numSteps_clock hs]
  refine Alike.same fun n _ => ?_
  by_cases h : n = 1
  · rw [if_pos h, if_pos h]
    exact rfl
  · rw [if_neg h, if_neg h]
    show _ = _
    unfold Clock.controller
    rw [ErgodicControl.mk.injEq]
    simp only [List.map_replicate, Clock.twist_zero, true_and, and_true]
    ext <;> simp [Clock.costate, V3.zero, real_lit]

/-- C135: and so is a dynamic window. -/
theorem C135_fresh_window {s : ℝ} (hs : 0 < s) (c : Collision ℝ) (dt H adt ax ay ath bx lx bY lY bth lth : ℝ)
    (nx ny nth : UInt32) :
    Alike (fun d d' => d' = Clock.window s d) (DynamicWindow.new c dt H adt ax ay ath bx lx bY lY bth lth nx ny nth)
      (DynamicWindow.new c (s * dt) (s * H) (s * adt) (ax / s ^ 2) (ay / s ^ 2) (ath / s ^ 2) (bx / s) (lx / s) (bY / s)
        (lY / s) (bth / s) (lth / s) nx ny nth) := by
  unfold DynamicWindow.new
  rw [Clock.numSteps_clock hs]
  exact Alike.same fun n _ => rfl

/-- C135: and a node started with them. -/
theorem C135_start (s : ℝ) (e : ErgodicControl ℝ) (c : Collision ℝ) (d : DynamicWindow ℝ) (t : Target ℝ) (f : String)
    (vdt vh : ℝ) :
    (Expl.start (Clock.controller s e) c (Clock.window s d) t f (s * vdt) (s * vh)).1 =
      Clock.node s (Expl.start e c d t f vdt vh).1 := by
  unfold Expl.start Clock.node
  rw [Expl.mk.injEq]
  simp only [Clock.twist_zero, true_and, and_true]
  rfl

/-- Case for `C135_run`, `C135_iteration` and `C135_control`: a node in the gallery of C132, in any unit of
time. -/
example (s : ℝ) (d : DynamicWindow ℝ) (draws : List Nat) :
    ∃ e, ErgodicControl.new omniModel galleryDetector 1 3 1 1 2 5 5 ⟨⟨1, 0, 0⟩, ⟨0, 1, 0⟩, ⟨0, 0, 1⟩⟩ ⟨-1, -1, 0⟩ ⟨1, 1, 0⟩ =
      .ok e ∧ ∀ t : Target ℝ, 0 < s →
      Clock.Drives (Expl.start e galleryDetector d t "map" 1 1).1.ec ∧
      Clock.Steady s (Expl.start e galleryDetector d t "map" 1 1).1
        [.map galleryMsg, .odom ⟨1, 1, 0⟩, .tick (some underTf) draws] := by
  have hn : numSteps (3 : ℝ) 1 = .ok 3 := by
    unfold numSteps
    rw [show fabs (3 /. (1 : ℝ)) = 3 by simp [fabs, real_div]]
    exact castU32_real_of (n := 3) (by norm_num) (by norm_num) (by norm_num)
  have hn1 : numSteps (1 : ℝ) 1 = .ok 1 := by
    unfold numSteps
    rw [show fabs (1 /. (1 : ℝ)) = 1 by simp [fabs, real_div]]
    exact castU32_real_of (n := 1) (by norm_num) (by norm_num) (by norm_num)
  have hnew : ∃ e, ErgodicControl.new omniModel galleryDetector (1 : ℝ) 3 1 1 2 5 5 ⟨⟨1, 0, 0⟩, ⟨0, 1, 0⟩, ⟨0, 0, 1⟩⟩
      ⟨-1, -1, 0⟩ ⟨1, 1, 0⟩ = .ok e ∧ e.model = omniModel := by
    simp only [ErgodicControl.new, hn, Res.ok_bind]
    rw [if_neg (by decide)]
    exact ⟨_, rfl, rfl⟩
  obtain ⟨e, he, hm⟩ := hnew
  refine ⟨e, he, fun t hs => ⟨.inl hm, ?_⟩⟩
  refine ⟨fun tf dr h => (by cases h), ?_⟩
  rintro n o h
  cases h
  refine ⟨fun tf dr h => (by cases h), ?_⟩
  rintro n o h
  cases h
  refine ⟨?_, fun _ _ _ => trivial⟩
  rintro tf dr h - - n o h2
  cases h
  unfold Expl.replan at h2
  rw [if_neg (by simp [Expl.advanceDwa, Expl.localize, Expl.mapCallback, Expl.start, Expl.odomCallback])] at h2
  obtain ⟨⟨ec, u⟩, h1, h2⟩ := Res.bind_eq_ok.mp h2
  obtain ⟨p, -, h2⟩ := Res.bind_eq_ok.mp h2
  cases h2
  have hb : EcBuilt omniModel galleryDetector (1 : ℝ) 3 1 1 2 5 5 ⟨⟨1, 0, 0⟩, ⟨0, 1, 0⟩, ⟨0, 0, 1⟩⟩
      ⟨-1, -1, 0⟩ ⟨1, 1, 0⟩ ((e.setTarget t).addStateMemory (Mirror.poseOf underTf)) :=
    ⟨e, he, .addStateMemory _ (.setTarget t .start)⟩
  have hbox := (C59_limits_partial _ _ _ _ _ _ _ _ _ _ _ _ _ _ _ _ _ _ hb h1).1
  have le : ∀ a b : ℝ, AtMost a b ↔ a ≤ b := by
    intro a b; simp only [AtMost, real_lt]; exact le_iff_lt_or_eq.symm
  obtain ⟨b0, b1, b2⟩ := hbox
  simp only [le] at b0 b1 b2
  have u2 : u.c2 = 0 := le_antisymm b2.2 b2.1
  have hcl : ∀ k, k < 1 → upside.Clear (mapOf galleryMsg) (poseAfter u 1 (Mirror.poseOf underTf) (k + 1)) := by
    intro k hk
    obtain rfl : k = 0 := by omega
    obtain ⟨q0, q1, -⟩ := straight_step (x := Mirror.poseOf underTf) (v := u) gallery_yaw u2
    have p0 : (Mirror.poseOf underTf).c0 = 20 := rfl
    have p1 : (Mirror.poseOf underTf).c1 = 30 := rfl
    rw [p0] at q0
    rw [p1] at q1
    show upside.Clear (mapOf galleryMsg) (stepPose u 1 (Mirror.poseOf underTf))
    exact gallery_clear (by linarith [b0.1]) (by linarith [b0.2]) (by linarith [b1.1]) (by linarith [b1.2])
  have hval : validateControl galleryDetector (mapOf galleryMsg) (Mirror.poseOf underTf) u 1 1 = .ok true :=
    (C20_accepts_iff _ _ _ _ _ _ 1 hn1).mpr fun k hk => gallery_free (hcl k hk)
  refine ⟨?_, fun h => ?_⟩
  · show |u.c2| < _ ↔ |u.c2| < _
    rw [u2, abs_zero]
    exact ⟨fun _ => by positivity, fun _ => by positivity⟩
  · have h : validateControl galleryDetector (mapOf galleryMsg) (Mirror.poseOf underTf) u 1 1 = .ok false := h
    rw [hval] at h
    cases h

/-- Case for `C135_window`, `C135_track`, `C135_validate` and the takeover: the twist of a node is rejected
and it searches the window, in seconds or milliseconds. -/
example (e : ErgodicControl ℝ) (t : Target ℝ) : ∃ n : Expl ℝ, n.follow_dwa = true ∧ Clock.Paced 1000 n ∧
    validateControl n.collision n.grid n.pose n.u n.val_dt n.val_horizon = .ok false ∧
    (∀ v, IsSample n.dwa n.vb v → Clock.Brisk 1000 v ∧ Clock.Modest 1000 n.u v) := by
  have key : ∀ v, IsSample wardWindow ⟨0, 0, 0⟩ v → Clock.Brisk 1000 v ∧ Clock.Modest 1000 ⟨10, 1, 0⟩ v := by
    intro v hv
    obtain ⟨h0, h1, h2⟩ := ward_samples hv
    refine ⟨?_, ?_⟩
    · unfold Clock.Brisk
      rw [h2]
      norm_num
    · have hB : (2 : ℝ) ^ 10 ≤ 2 ^ 1000 := pow_le_pow_right₀ (by norm_num) (by norm_num)
      unfold Clock.Modest
      generalize (2 : ℝ) ^ 1000 = B at hB
      norm_num at hB
      rw [h2]
      rcases h0 with h0 | h0 <;> rcases h1 with h1 | h1 <;> rw [h0, h1] <;> norm_num <;> constructor <;> linarith
  refine ⟨{ (Expl.start e wardDetector wardWindow t "map" 1 1).1 with
      map_received := true, grid := mapOf galleryMsg, pose := ⟨95, 30, 0⟩, pose_known := true, follow_dwa := true
      u := ⟨10, 1, 0⟩, vb := ⟨0, 0, 0⟩ }, rfl, ⟨?_, fun _ v hv => ⟨(key v hv).1, fun _ => (key v hv).2⟩⟩, ward_rejected, key⟩
  show |(0 : ℝ)| < _ ↔ |(0 : ℝ)| < _
  norm_num

end Ergodic
