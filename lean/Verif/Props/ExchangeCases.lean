import Verif.Props.ExchangeRun
import Verif.Props.MirrorTakeoverCases

/-!
# Property C133: a case

The gallery of C132, three cells of 100 m each in a row, the last occupied, becomes a shaft.
-/

namespace Ergodic
open Real

/-- the gallery with its axes exchanged -/
def shaftMsg : OccupancyGrid ℝ := ⟨1, 3, 100, 0, 0, [0, 0, 100]⟩

/-- the image of `underTf`: it looks along the second axis -/
noncomputable def shaftTf : TransformMsg ℝ := ⟨30, 20, 0, 0, Real.sin (π / 4), Real.cos (π / 4)⟩

theorem shaft_maps : Exchange.Maps (mapOf galleryMsg) (mapOf shaftMsg) where
  xmin := rfl
  xmax := rfl
  ymin := rfl
  ymax := rfl
  xsize := rfl
  ysize := rfl
  resolution := rfl
  size := rfl
  cells := by
    intro i j hi hj
    have hi' : i < 1 := hi
    have hj' : j < 3 := hj
    obtain rfl : i = 0 := by omega
    have : j = 0 ∨ j = 1 ∨ j = 2 := by omega
    rcases this with rfl | rfl | rfl <;> rfl

theorem shaft_yaw : getYaw (0 : ℝ) 0 (Real.sin (π / 4)) (Real.cos (π / 4)) = π / 2 := by
  have := C15_pure_yaw (π / 2) 1 one_ne_zero (by linarith [Real.pi_pos]) (by linarith [Real.pi_pos])
  rw [show π / 2 / 2 = π / 4 by ring] at this
  simpa using this

theorem shaft_poses : Exchange.Poses (Mirror.poseOf underTf) (Mirror.poseOf shaftTf) := by
  simp only [Exchange.Poses, Mirror.poseOf, underTf, shaftTf, gallery_yaw, shaft_yaw]
  norm_num

/-- Case for `C133_history` and what it rests on: a node in the gallery and one in the shaft; everything
holds that the theorem asks for. -/
example (d : DynamicWindow ℝ) (draws : List Nat) :
    ∃ e, ErgodicControl.new omniModel galleryDetector 1 3 1 1 2 5 5 ⟨⟨1, 0, 0⟩, ⟨0, 1, 0⟩, ⟨0, 0, 1⟩⟩ ⟨-1, -1, 0⟩ ⟨1, 1, 0⟩ =
      .ok e ∧ ∀ t : Target ℝ,
      Exchange.Nodes (Expl.start e galleryDetector d t "map" 1 1).1
        (Expl.start e galleryDetector d (Exchange.target t) "map" 1 1).1 ∧
      Exchange.Fair (Expl.start e galleryDetector d t "map" 1 1).1.ec ∧
      (Expl.start e galleryDetector d t "map" 1 1).1.ec.model = omniModel ∧
      List.Forall₂ Exchange.Events [.map galleryMsg, .odom ⟨1, 1, 0⟩, .tick (some underTf) draws]
        [.map shaftMsg, .odom (Exchange.twist ⟨1, 1, 0⟩), .tick (some shaftTf) draws] ∧
      Exchange.Governed (Expl.start e galleryDetector d t "map" 1 1).1
        [.map galleryMsg, .odom ⟨1, 1, 0⟩, .tick (some underTf) draws] := by
  have hn : numSteps (3 : ℝ) 1 = .ok 3 := by
    unfold numSteps
    rw [show fabs (3 /. (1 : ℝ)) = 3 by simp [fabs, real_div]]
    exact castU32_real_of (n := 3) (by norm_num) (by norm_num) (by norm_num)
  have hn1 : numSteps (1 : ℝ) 1 = .ok 1 := by
    unfold numSteps
    rw [show fabs (1 /. (1 : ℝ)) = 1 by simp [fabs, real_div]]
    exact castU32_real_of (n := 1) (by norm_num) (by norm_num) (by norm_num)
  have hnew : ∃ e, ErgodicControl.new omniModel galleryDetector (1 : ℝ) 3 1 1 2 5 5 ⟨⟨1, 0, 0⟩, ⟨0, 1, 0⟩, ⟨0, 0, 1⟩⟩
      ⟨-1, -1, 0⟩ ⟨1, 1, 0⟩ = .ok e ∧ e.model = omniModel ∧ Exchange.Fair e := by
    simp only [ErgodicControl.new, hn, Res.ok_bind]
    rw [if_neg (by decide)]
    refine ⟨_, rfl, rfl, ?_⟩
    norm_num [Exchange.Fair]
  obtain ⟨e, he, hm, hf⟩ := hnew
  refine ⟨e, he, fun t => ⟨C133_start he _ _ _ _ _ _ _, hf, hm,
    .cons (.map shaft_maps) (.cons (.odom _) (.cons (.tick draws shaft_poses) .nil)), ?_⟩⟩
  refine ⟨fun tf dr h => (by cases h), ?_⟩
  rintro s o h
  cases h
  refine ⟨fun tf dr h => (by cases h), ?_⟩
  rintro s o h
  cases h
  refine ⟨?_, fun _ _ _ => trivial⟩
  rintro tf dr h - - s o h2
  cases h
  unfold Expl.replan at h2
  rw [if_neg (by simp [Expl.advanceDwa, Expl.localize, Expl.mapCallback, Expl.start, Expl.odomCallback])] at h2
  obtain ⟨⟨ec, u⟩, h1, h2⟩ := Res.bind_eq_ok.mp h2
  obtain ⟨p, -, h2⟩ := Res.bind_eq_ok.mp h2
  cases h2
  have hb : EcBuilt omniModel galleryDetector (1 : ℝ) 3 1 1 2 5 5 ⟨⟨1, 0, 0⟩, ⟨0, 1, 0⟩, ⟨0, 0, 1⟩⟩
      ⟨-1, -1, 0⟩ ⟨1, 1, 0⟩ ((e.setTarget t).addStateMemory (Mirror.poseOf underTf)) :=
    ⟨e, he, .addStateMemory _ (.setTarget t .start)⟩
  have hbox := (C59_limits_partial _ _ _ _ _ _ _ _ _ _ _ _ _ _ _ _ _ _ hb h1).1
  have hcl : ∀ k, k < 1 → upside.Clear (mapOf galleryMsg) (poseAfter u 1 (Mirror.poseOf underTf) (k + 1)) := by
    intro k hk
    obtain rfl : k = 0 := by omega
    have le : ∀ a b : ℝ, AtMost a b ↔ a ≤ b := by
      intro a b; simp only [AtMost, real_lt]; exact le_iff_lt_or_eq.symm
    obtain ⟨b0, b1, b2⟩ := hbox
    simp only [le] at b0 b1 b2
    have u2 : u.c2 = 0 := le_antisymm b2.2 b2.1
    obtain ⟨q0, q1, -⟩ := straight_step (x := Mirror.poseOf underTf) (v := u) gallery_yaw u2
    have p0 : (Mirror.poseOf underTf).c0 = 20 := rfl
    have p1 : (Mirror.poseOf underTf).c1 = 30 := rfl
    rw [p0] at q0
    rw [p1] at q1
    show upside.Clear (mapOf galleryMsg) (stepPose u 1 (Mirror.poseOf underTf))
    exact gallery_clear (by linarith [b0.1]) (by linarith [b0.2]) (by linarith [b1.1]) (by linarith [b1.2])
  have hval : validateControl galleryDetector (mapOf galleryMsg) (Mirror.poseOf underTf) u 1 1 = .ok true :=
    (C20_accepts_iff _ _ _ _ _ _ 1 hn1).mpr fun k hk => gallery_free (hcl k hk)
  have no : ∀ {P : Prop}, validateControl galleryDetector (mapOf galleryMsg) (Mirror.poseOf underTf) u 1 1 = .ok false → P := by
    intro P h
    rw [hval] at h
    cases h
  refine ⟨gallery_sensible, fun n hn' => ?_, fun h => no h, fun h => no h, fun h => no h⟩
  have : numSteps (1 : ℝ) 1 = .ok n := hn'
  rw [hn1] at this
  cases this
  exact fun k hk _ => (hcl k hk).1

/-- Case for `C133_takeover`, `C133_window` and `C133_check`: the twist of the node in the gallery is
rejected, and it searches the window. -/
example (t : Target ℝ) : ∃ s s' : Expl ℝ, Exchange.Nodes s s' ∧ s.ec.model = omniModel ∧
    s.map_received = true ∧ s.pose_known = true ∧ s.follow_dwa = true ∧ Exchange.Steered s ∧
    validateControl s.collision s.grid s.pose s.u s.val_dt s.val_horizon = .ok false ∧ s'.u ≠ s.u ∧ s'.pose ≠ s.pose := by
  have hn : numSteps (3 : ℝ) 1 = .ok 3 := by
    unfold numSteps
    rw [show fabs (3 /. (1 : ℝ)) = 3 by simp [fabs, real_div]]
    exact castU32_real_of (n := 3) (by norm_num) (by norm_num) (by norm_num)
  have hn1 : numSteps (1 : ℝ) 1 = .ok 1 := by
    unfold numSteps
    rw [show fabs (1 /. (1 : ℝ)) = 1 by simp [fabs, real_div]]
    exact castU32_real_of (n := 1) (by norm_num) (by norm_num) (by norm_num)
  have hnew : ∃ e, ErgodicControl.new omniModel wardDetector (1 : ℝ) 3 1 1 2 5 5 ⟨⟨1, 0, 0⟩, ⟨0, 1, 0⟩, ⟨0, 0, 1⟩⟩
      ⟨-1, -1, 0⟩ ⟨1, 1, 0⟩ = .ok e ∧ e.model = omniModel := by
    simp only [ErgodicControl.new, hn, Res.ok_bind]
    rw [if_neg (by decide)]
    exact ⟨_, rfl, rfl⟩
  obtain ⟨e, he, hm⟩ := hnew
  have hs := C133_start he wardDetector wardWindow t "map" "map" 1 1
  refine ⟨{ (Expl.start e wardDetector wardWindow t "map" 1 1).1 with
      map_received := true, grid := mapOf galleryMsg, pose := ⟨95, 30, 0⟩, pose_known := true, follow_dwa := true
      u := ⟨10, 1, 0⟩, vb := ⟨0, 0, 0⟩ },
    { (Expl.start e wardDetector wardWindow (Exchange.target t) "map" 1 1).1 with
      map_received := true, grid := mapOf shaftMsg, pose := ⟨30, 95, π / 2⟩, pose_known := true, follow_dwa := true
      u := ⟨10, -1, 0⟩, vb := ⟨0, 0, 0⟩ },
    { hs with
      map_received := rfl
      grid := fun _ => shaft_maps
      vb := by ext <;> simp [Exchange.twist]
      u := by ext <;> simp [Exchange.twist]
      pose := fun _ => by
        simp only [Exchange.Poses]
        norm_num
      pose_known := rfl
      follow_dwa := rfl }, hm, rfl, rfl, rfl, ?_, ward_rejected, ?_, ?_⟩
  · refine ⟨ward_sensible, fun n hn' => ?_, fun _ => ⟨ward_sensible, ?_, fun v hv k hk a => (ward_seen hv k hk a).1⟩,
      fun _ _ => ward_sole, fun _ h => (by cases h)⟩
    · have : numSteps (1 : ℝ) 1 = .ok n := hn'
      rw [hn1] at this
      cases this
      intro k hk _
      obtain rfl : k = 0 := by have : k < 1 := hk; omega
      obtain ⟨a0, a1, -⟩ := straight_step (x := ⟨95, 30, 0⟩) (v := ⟨10, 1, 0⟩) rfl rfl
      dsimp only at a0 a1
      refine And.left (show upside.Clear (mapOf galleryMsg) (stepPose ⟨10, 1, 0⟩ 1 ⟨95, 30, 0⟩) from ?_)
      refine gallery_clear ?_ ?_ ?_ ?_ <;> first | (rw [a0]; norm_num) | (rw [a1]; norm_num)
    · refine ⟨by norm_num [Expl.start, wardWindow], by norm_num [Expl.start, wardWindow], .inl ?_, .inr ?_⟩
      · show 2 ≤ (2 : UInt32).toNat; decide
      · norm_num [Expl.start, wardWindow]
  · intro h
    have : (-1 : ℝ) = 1 := congrArg V3.c1 h
    norm_num at this
  · intro h
    have : (95 : ℝ) = 30 := congrArg V3.c1 h
    norm_num at this

end Ergodic
