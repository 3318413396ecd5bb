import Verif.Props.Quiet
import Verif.Props.MirrorTakeoverCases
import Verif.Props.Running
import Verif.Props.Local

/-!
# Property C137: cases
-/

namespace Ergodic

/-- less cautious than `galleryDetector` -/
noncomputable def easyDetector : Collision ℝ := ⟨1, 50, 0, 9 / 10⟩

theorem easy_warier : Warier easyDetector galleryDetector := by
  constructor <;> norm_num [easyDetector, galleryDetector]

/-- A node in the gallery of C132 is not disturbed, and stays in the map. -/
theorem gallery_passed (d : DynamicWindow ℝ) (draws : List Nat) :
    ∃ e, ErgodicControl.new omniModel galleryDetector 1 3 1 1 2 5 5 ⟨⟨1, 0, 0⟩, ⟨0, 1, 0⟩, ⟨0, 0, 1⟩⟩ ⟨-1, -1, 0⟩ ⟨1, 1, 0⟩ =
      .ok e ∧ ∀ t : Target ℝ,
      AtTicks Passed (Expl.start e galleryDetector d t "map" 1 1).1
        [.map galleryMsg, .odom ⟨1, 1, 0⟩, .tick (some underTf) draws] ∧
      AtTicks Spacious (Expl.start e galleryDetector d t "map" 1 1).1
        [.map galleryMsg, .odom ⟨1, 1, 0⟩, .tick (some underTf) draws] := by
  have hn : numSteps (3 : ℝ) 1 = .ok 3 := by
    unfold numSteps
    rw [show fabs (3 /. (1 : ℝ)) = 3 by simp [fabs, real_div]]
    exact castU32_real_of (n := 3) (by norm_num) (by norm_num) (by norm_num)
  have hn1 : numSteps (1 : ℝ) 1 = .ok 1 := by
    unfold numSteps
    rw [show fabs (1 /. (1 : ℝ)) = 1 by simp [fabs, real_div]]
    exact castU32_real_of (n := 1) (by norm_num) (by norm_num) (by norm_num)
  have hnew : ∃ e, ErgodicControl.new omniModel galleryDetector (1 : ℝ) 3 1 1 2 5 5 ⟨⟨1, 0, 0⟩, ⟨0, 1, 0⟩, ⟨0, 0, 1⟩⟩
      ⟨-1, -1, 0⟩ ⟨1, 1, 0⟩ = .ok e := by
    simp only [ErgodicControl.new, hn, Res.ok_bind]
    rw [if_neg (by decide)]
    exact ⟨_, rfl⟩
  obtain ⟨e, he⟩ := hnew
  refine ⟨e, he, fun t => ?_⟩
  have key : ∀ ec u, ((e.setTarget t).addStateMemory (Mirror.poseOf underTf)).control (mapOf galleryMsg)
      (Mirror.poseOf underTf) draws = .ok (ec, u) → ∀ k, k < 1 →
      upside.Clear (mapOf galleryMsg) (poseAfter u 1 (Mirror.poseOf underTf) (k + 1)) := by
    intro ec u h1 k hk
    have hb : EcBuilt omniModel galleryDetector (1 : ℝ) 3 1 1 2 5 5 ⟨⟨1, 0, 0⟩, ⟨0, 1, 0⟩, ⟨0, 0, 1⟩⟩
        ⟨-1, -1, 0⟩ ⟨1, 1, 0⟩ ((e.setTarget t).addStateMemory (Mirror.poseOf underTf)) :=
      ⟨e, he, .addStateMemory _ (.setTarget t .start)⟩
    have hbox := (C59_limits_partial _ _ _ _ _ _ _ _ _ _ _ _ _ _ _ _ _ _ hb h1).1
    have le : ∀ a b : ℝ, AtMost a b ↔ a ≤ b := by
      intro a b; simp only [AtMost, real_lt]; exact le_iff_lt_or_eq.symm
    obtain ⟨b0, b1, b2⟩ := hbox
    simp only [le] at b0 b1 b2
    have u2 : u.c2 = 0 := le_antisymm b2.2 b2.1
    obtain rfl : k = 0 := by omega
    obtain ⟨q0, q1, -⟩ := straight_step (x := Mirror.poseOf underTf) (v := u) gallery_yaw u2
    have p0 : (Mirror.poseOf underTf).c0 = 20 := rfl
    have p1 : (Mirror.poseOf underTf).c1 = 30 := rfl
    rw [p0] at q0
    rw [p1] at q1
    show upside.Clear (mapOf galleryMsg) (stepPose u 1 (Mirror.poseOf underTf))
    exact gallery_clear (by linarith [b0.1]) (by linarith [b0.2]) (by linarith [b1.1]) (by linarith [b1.2])
  constructor
  · refine ⟨fun tf dr h => (by cases h), ?_⟩
    rintro n o h
    cases h
    refine ⟨fun tf dr h => (by cases h), ?_⟩
    rintro n o h
    cases h
    refine ⟨?_, fun _ _ _ => trivial⟩
    rintro tf dr h ec u - - hc
    cases h
    exact (C20_accepts_iff galleryDetector (mapOf galleryMsg) (Mirror.poseOf underTf) u 1 1 1 hn1).mpr fun k hk =>
      gallery_free (key ec u hc k hk)
  · refine ⟨fun tf dr h => (by cases h), ?_⟩
    rintro n o h
    cases h
    refine ⟨fun tf dr h => (by cases h), ?_⟩
    rintro n o h
    cases h
    refine ⟨?_, fun _ _ _ => trivial⟩
    rintro tf dr h ec u - - hc
    cases h
    refine ⟨gallery_sensible, fun n hn k hk => ?_⟩
    have hn : numSteps (1 : ℝ) 1 = .ok n := hn
    rw [hn1] at hn
    cases hn
    exact (key ec u hc k hk).1

/-- It plans a twist. -/
theorem gallery_plans {e : ErgodicControl ℝ} (he : ErgodicControl.new omniModel galleryDetector 1 3 1 1 2 5 5
      ⟨⟨1, 0, 0⟩, ⟨0, 1, 0⟩, ⟨0, 0, 1⟩⟩ ⟨-1, -1, 0⟩ ⟨1, 1, 0⟩ = .ok e) (t : Target ℝ) :
    ∃ ec u p, ((e.setTarget t).addStateMemory (Mirror.poseOf underTf)).control (mapOf galleryMsg)
      (Mirror.poseOf underTf) [0, 0, 0, 0, 0] = .ok (ec, u) ∧ ec.path "map" = .ok p := by
  have hn : numSteps (3 : ℝ) 1 = .ok 3 := by
    unfold numSteps
    rw [show fabs (3 /. (1 : ℝ)) = 3 by simp [fabs, real_div]]
    exact castU32_real_of (n := 3) (by norm_num) (by norm_num) (by norm_num)
  have hb : EcBuilt omniModel galleryDetector (1 : ℝ) 3 1 1 2 5 5 ⟨⟨1, 0, 0⟩, ⟨0, 1, 0⟩, ⟨0, 0, 1⟩⟩
      ⟨-1, -1, 0⟩ ⟨1, 1, 0⟩ ((e.setTarget t).addStateMemory (Mirror.poseOf underTf)) :=
    ⟨e, he, .addStateMemory _ (.setTarget t .start)⟩
  have hst : e.steps = 3 ∧ e.buffer.memory = [] ∧ e.buffer.buffer_size = 5 := by
    simp only [ErgodicControl.new, hn, Res.ok_bind] at he
    rw [if_neg (by decide)] at he
    cases he
    exact ⟨rfl, rfl, rfl⟩
  have e3 : (3 : UInt32).toNat = 3 := rfl
  have e1 : (1 : UInt32).toNat = 1 := rfl
  have sx : (mapOf galleryMsg).xmax - (mapOf galleryMsg).xmin = 300 := by
    simp only [mapOf, galleryMsg, real_add, real_mul, real_ofInt, e3]; norm_num
  have sy : (mapOf galleryMsg).ymax - (mapOf galleryMsg).ymin = 100 := by
    simp only [mapOf, galleryMsg, real_add, real_mul, real_ofInt, e1]; norm_num
  have hfit : TargetGridFits (mapOf galleryMsg) 1 := by
    unfold TargetGridFits
    have f3 : ⌊(300 : ℝ) / 1 + 1 / 2⌋₊ = 300 := by rw [Nat.floor_eq_iff (by norm_num)]; constructor <;> norm_num
    have f1 : ⌊(100 : ℝ) / 1 + 1 / 2⌋₊ = 100 := by rw [Nat.floor_eq_iff (by norm_num)]; constructor <;> norm_num
    rw [sx, sy, f3, f1]
    norm_num
  have hi := hb.inv
  have hm : ((e.setTarget t).addStateMemory (Mirror.poseOf underTf)).buffer.memory.length = 1 := by
    simp [ErgodicControl.addStateMemory, ErgodicControl.setTarget, ReplayBuffer.append,
      ReplayBuffer.emplace, hst.2.1, hst.2.2]
  obtain ⟨ec, u, hc⟩ := C60_total (x := Mirror.poseOf underTf) (g := mapOf galleryMsg) (draws := [0, 0, 0, 0, 0]) hb
    (by show 2 ≤ e.steps.toNat; rw [hst.1]; decide) (columns_accepted (.inl rfl) hb)
    (configTarget_total _ _ (by rw [hi.resolution_eq]; norm_num) (by linarith) (by linarith)
      (by rw [hi.resolution_eq]; exact hfit)) rfl
    (by
      intro r hr
      rw [hm]
      simp only [List.mem_cons, List.not_mem_nil, or_false, or_self] at hr
      omega)
    (by rw [real_lt_false]; norm_num) (by rw [real_lt_false]; norm_num) (by rw [real_lt_false])
  obtain ⟨-, p, hp⟩ := (C60_replay hb hc).2.2 (fun y v hv => columns_accepted (.inl rfl) (hb.control hc) y v
    (List.mem_cons_of_mem _ hv)) "map"
  exact ⟨ec, u, p, hc, hp⟩

/-- Case for `C137_cautious`, and so for `C137_passed`, `C137_tick` and `C137_run`: the wall is taken out of the map,
the detector is less cautious, the window and the measured velocity are others, and the same trajectory and twist are
published. -/
example (d d' : DynamicWindow ℝ) (t : Target ℝ) (v : V3 ℝ) :
    ∃ e r r' p u, ErgodicControl.new omniModel galleryDetector 1 3 1 1 2 5 5 ⟨⟨1, 0, 0⟩, ⟨0, 1, 0⟩, ⟨0, 0, 1⟩⟩
        ⟨-1, -1, 0⟩ ⟨1, 1, 0⟩ = .ok e ∧
      (Expl.start e easyDetector d' t "map" 1 1).1.run [.map { galleryMsg with data := [0, 0, 0] }, .odom v,
        .tick (some underTf) [0, 0, 0, 0, 0]] = .ok (r, [.trajectory p, .twist u]) ∧
      (Expl.start e galleryDetector d t "map" 1 1).1.run [.map galleryMsg, .odom ⟨1, 1, 0⟩,
        .tick (some underTf) [0, 0, 0, 0, 0]] = .ok (r', [.trajectory p, .twist u]) := by
  obtain ⟨e, he, h⟩ := gallery_passed d [0, 0, 0, 0, 0]
  have hn1 : numSteps (1 : ℝ) 1 = .ok 1 := by
    unfold numSteps
    rw [show fabs (1 /. (1 : ℝ)) = 1 by simp [fabs, real_div]]
    exact castU32_real_of (n := 1) (by norm_num) (by norm_num) (by norm_num)
  have hr : Raised [0, 0, 0] [0, 0, 100] := by
    unfold Raised
    exact .cons (by decide) (.cons (by decide) (.cons (by decide) .nil))
  have ha : Alike (fun a b => b.2 = a.2)
      ((Expl.start e easyDetector d' t "map" 1 1).1.run [.map { galleryMsg with data := [0, 0, 0] }, .odom v,
        .tick (some underTf) [0, 0, 0, 0, 0]])
      ((Expl.start e galleryDetector d t "map" 1 1).1.run [.map galleryMsg, .odom ⟨1, 1, 0⟩,
        .tick (some underTf) [0, 0, 0, 0, 0]]) := (C137_cautious (.cons (Fuller.map { galleryMsg with data := [0, 0, 0] } [0, 0, 100] hr)
    (.cons (.odom v _) (.cons (.tick _ _) .nil))) (s := (Expl.start e easyDetector d' t "map" 1 1).1)
    (s' := (Expl.start e galleryDetector d t "map" 1 1).1)
    ⟨⟨rfl, rfl, rfl, rfl, rfl, ⟨rfl, rfl, rfl, rfl⟩, rfl, rfl⟩, easy_warier,
      by norm_num [Expl.start, easyDetector], by norm_num [Expl.start, easyDetector], rfl,
      ⟨1, 1, hn1, hn1, le_rfl⟩, rfl, .nil⟩ (h t).1 (h t).2).2
  obtain ⟨ec, u, p, hc, hp⟩ := gallery_plans he t
  have hq := (((h t).1.2 _ _ rfl).2 _ _ rfl).1 (some underTf) [0, 0, 0, 0, 0] rfl
  have hrun : ∃ r', (Expl.start e galleryDetector d t "map" 1 1).1.run [.map galleryMsg, .odom ⟨1, 1, 0⟩,
      .tick (some underTf) [0, 0, 0, 0, 0]] = .ok (r', [.trajectory p, .twist u]) := by
    have hit := (passed_iteration rfl hq).trans (if_pos rfl)
    have hit := hit.trans (show _ = Res.ok _ from by
      refine (congrArg (· >>= _) hc).trans ?_
      rw [Res.ok_bind]
      exact (congrArg (· >>= _) hp).trans (Res.ok_bind _ _))
    simp only [Expl.run, Expl.step, Res.ok_bind, hit]
    exact ⟨_, rfl⟩
  obtain ⟨r', hr'⟩ := hrun
  rw [hr'] at ha
  cases hs : (Expl.start e easyDetector d' t "map" 1 1).1.run [.map { galleryMsg with data := [0, 0, 0] }, .odom v,
      .tick (some underTf) [0, 0, 0, 0, 0]] with
  | ok x =>
    rw [hs] at ha
    obtain ⟨r, o⟩ := x
    have ho : [.trajectory p, .twist u] = o := ha
    subst ho
    exact ⟨e, r, r', p, u, he, hs, hr'⟩
  | throw => rw [hs] at ha; exact ha.elim
  | ub => rw [hs] at ha; exact ha.elim
  | timeout => rw [hs] at ha; exact ha.elim

/-! ## The executables -/

theorem far_empty (i j : Int) : ¬ Occupied (4 / 5 : ℝ) (mapOf (farMsg 0)) i j := by
  rintro ⟨-, -, -, -, v, hv, hlt⟩
  rw [real_lt_false] at hlt
  have hz : v = 0 := by
    have hv : (List.replicate 143 (0 : Int8) ++ [0])[i.toNat * 12 + j.toNat]? = some v := hv
    have := List.mem_of_getElem? hv
    rw [List.mem_append, List.mem_replicate, List.mem_singleton] at this
    rcases this with ⟨-, h⟩ | h <;> exact h
  subst hz
  rw [show ((0 : Int8).toInt) = 0 from by decide] at hlt
  norm_num at hlt

/-- The robot of `far_case` is not disturbed on the empty map, whatever its window and the measured velocity are. -/
theorem far_passed {M : TwistModel ℝ} {ec : ErgodicControl ℝ} {Rinv : M3 ℝ} {lo hi : ℝ} (hlo : -1 ≤ lo) (hhi : hi ≤ 1)
    (hec : ErgodicControl.new M nearDetector 1 2 1 1 2 10 0 Rinv ⟨-1, lo, -1⟩ ⟨1, hi, 1⟩ = .ok ec) (d : DynamicWindow ℝ) (t : Target ℝ) (v : V3 ℝ) :
    AtTicks Passed (Expl.start ec nearDetector d t "map" 0.1 0.1).1
      [.map (farMsg 0), .odom v, .tick (some (lowTf (7/2) (7/2))) []] := by
  refine ⟨fun tf dr h => (by cases h), ?_⟩
  rintro n o h
  cases h
  refine ⟨fun tf dr h => (by cases h), ?_⟩
  rintro n o h
  cases h
  refine ⟨?_, fun _ _ _ => trivial⟩
  rintro tf dr h
  cases h
  have h1 : numSteps (0.1 : ℝ) 0.1 = .ok 1 := by rw [C20_step_count _ _ (by norm_num)]; norm_num
  refine C137_empty ?_ ⟨1, h1⟩ far_empty
  rintro e' u - - hc
  refine ⟨far_sensible 0, fun n hn k hk => ?_⟩
  have hb : EcBuilt M nearDetector (1 : ℝ) 2 1 1 2 10 0 Rinv ⟨-1, lo, -1⟩ ⟨1, hi, 1⟩
      ((ec.setTarget t).addStateMemory ⟨7/2, 7/2, getYaw (0:ℝ) 0 0 1⟩) :=
    ⟨ec, hec, .addStateMemory _ (.setTarget t .start)⟩
  obtain ⟨b0, b1, -⟩ := (C59_limits_partial _ _ _ _ _ _ _ _ _ _ _ _ _ _ _ _ _ _ hb hc).1
  have le : ∀ a b : ℝ, AtMost a b ↔ a ≤ b := by
    intro a b; simp only [AtMost, real_lt]; exact le_iff_lt_or_eq.symm
  simp only [le] at b0 b1
  have hs : speed u ≤ 2 := by
    unfold speed
    rw [Real.sqrt_le_left (by norm_num)]
    nlinarith [b0.1, b0.2, hlo.trans b1.1, b1.2.trans hhi]
  have hp := C76_validation u 0.1 0.1 (by norm_num) (by norm_num) ⟨7/2, 7/2, getYaw (0:ℝ) 0 0 1⟩ n hn (k + 1) hk
  have hp : planar (poseAfter u 0.1 ⟨7/2, 7/2, getYaw (0:ℝ) 0 0 1⟩ (k + 1)) ⟨7/2, 7/2, getYaw (0:ℝ) 0 0 1⟩ ≤ 1 :=
    hp.trans (by linarith)
  obtain ⟨q0, q1⟩ := planar_le hp
  rw [abs_le] at q0 q1
  simp only at q0 q1
  show InRect (mapOf (farMsg 0)) (poseAfter u 0.1 ⟨7/2, 7/2, getYaw (0:ℝ) 0 0 1⟩ (k + 1)).c0
    (poseAfter u 0.1 ⟨7/2, 7/2, getYaw (0:ℝ) 0 0 1⟩ (k + 1)).c1
  have e12 : (12 : UInt32).toNat = 12 := rfl
  simp only [InRect, mapOf, farMsg, e12]
  norm_num
  exact ⟨by linarith, by linarith, by linarith, by linarith⟩

/-- Case for `C137_omni` and `C137_empty`: two robots with other horizons of the window and other lateral accelerations,
and with other measured velocities, publish the same. -/
example (v v' : V3 ℝ) : ∃ n n' o, Node.omni (sideParams 1 1 (-1) 1) = .ok (n, o) ∧
    Node.omni (sideParams 2 5 (-1) 1) = .ok (n', o) ∧
    Alike (fun a b => b.2 = a.2) (n.run [.map (farMsg 0), .odom v, .tick (some (lowTf (7/2) (7/2))) []])
      (n'.run [.map (farMsg 0), .odom v', .tick (some (lowTf (7/2) (7/2))) []]) := by
  obtain ⟨t, ec, R, o, hec, hn⟩ := side_omni 1 1 (by norm_num) (by norm_num) 1 (-1) 1
  obtain ⟨t', ec', R', o', hec', hn'⟩ := side_omni 2 2 (by norm_num) (by norm_num) 5 (-1) 1
  have h := C137_omni (p := sideParams 1 1 (-1) 1) (p' := sideParams 2 5 (-1) 1) rfl
    (by rw [real_lt_false]; norm_num [sideParams]) (by rw [real_lt_false]; norm_num [sideParams]) hn hn'
    (.cons (.map (farMsg 0) (farMsg 0) ⟨rfl, rfl, rfl, rfl⟩) (.cons (.odom v v') (.cons (.tick _ _) .nil)))
    (far_passed le_rfl le_rfl hec _ t v) (far_passed le_rfl le_rfl hec' _ t' v')
  obtain ⟨rfl, h⟩ := h
  exact ⟨_, _, _, hn, hn', h⟩

/-- Case for `C137_cart`. -/
example (v v' : V3 ℝ) : ∃ n n' o, Node.cart (sideParams 1 1 0 0) = .ok (n, o) ∧
    Node.cart (sideParams 2 5 0 0) = .ok (n', o) ∧
    Alike (fun a b => b.2 = a.2) (n.run [.map (farMsg 0), .odom v, .tick (some (lowTf (7/2) (7/2))) []])
      (n'.run [.map (farMsg 0), .odom v', .tick (some (lowTf (7/2) (7/2))) []]) := by
  obtain ⟨t, ec, R, o, hec, hn⟩ := side_cart 1 1 (by norm_num) (by norm_num) 1
  obtain ⟨t', ec', R', o', hec', hn'⟩ := side_cart 2 2 (by norm_num) (by norm_num) 5
  have h := C137_cart (p := sideParams 1 1 0 0) (p' := sideParams 2 5 0 0) rfl
    (by rw [real_lt_false]; norm_num [sideParams]) (by rw [real_lt_false]; norm_num [sideParams]) hn hn'
    (.cons (.map (farMsg 0) (farMsg 0) ⟨rfl, rfl, rfl, rfl⟩) (.cons (.odom v v') (.cons (.tick _ _) .nil)))
    (far_passed (by norm_num) (by norm_num) hec _ t v) (far_passed (by norm_num) (by norm_num) hec' _ t' v')
  obtain ⟨rfl, h⟩ := h
  exact ⟨_, _, _, hn, hn', h⟩

end Ergodic
