import Verif.Props.ClosedLoop

/-!
# C89: iterations in which the transform lookup fails

The `continue` of the `catch` block is commented out (exploration.hpp:217): an iteration without a
transform plans and validates from the pose of an earlier one, while the robot has moved on.
-/

namespace Ergodic

/-- Full statement of C89: the robot is free at every iteration, whether or not the lookups succeed. -/
def C89_statement : Prop :=
  ∀ (p : Params ℝ) (n : Node ℝ) (o0 : List (Out ℝ)) (es : List (Event ℝ)) (os : List (List (Out ℝ)))
    (t : Expl ℝ) (T : ℝ) (l : Option (V3 ℝ × List (V3 ℝ))) (real : List (V3 ℝ)) (m : OccupancyGrid ℝ),
    (Node.cart p = .ok (n, o0) ∨ Node.omni p = .ok (n, o0)) → 0 < p.val_dt → 0 < p.dwa_dt →
    Instant T p.val_dt p.val_horizon → Instant T p.dwa_dt p.dwa_horizon →
    Trace n.expl es os t → Roamed T es os l real → (∀ m' ∈ maps es, m' = m) →
    (∀ o ∈ os, ∀ u ∈ twists o, Measurable u) →
    (∀ x, real.head? = some x → n.expl.collision.collisionCheck (mapOf m) x = .ok false) →
    ∀ x ∈ real, n.expl.collision.collisionCheck (mapOf m) x = .ok false

/-- A robot that can only drive forward at 1 m/s, with look-aheads of one second. -/
noncomputable def lostParams : Params ℝ :=
  { sideParams 1 0 0 0 with
    min_vel_x := 1, min_rot_vel := 0, max_rot_vel := 0, val_dt := 1, val_horizon := 1 }

/-- the dynamic window with these parameters -/
noncomputable def lostDwa : DynamicWindow ℝ :=
  { sideDwa 1 1 0 0 0 with min_vel_x := 1, min_rot_vel := 0, max_rot_vel := 0 }

theorem lost_steps : numSteps (1:ℝ) 1 = .ok 1 := steps_side 1 1 (by norm_num) (by norm_num)

theorem lost_dwa : DynamicWindow.new nearDetector (1:ℝ) 1 1 1 0 1 1 1 0 0 0 0 1 1 1 = .ok lostDwa := by
  unfold DynamicWindow.new
  rw [lost_steps, Res.ok_bind]
  rfl

theorem lost_starts :
    ∃ target ec Rinv o, ErgodicControl.new omniModel nearDetector 1 2 1 1 2 10 0 Rinv ⟨1, 0, 0⟩
      ⟨1, 0, 0⟩ = .ok ec ∧
      Node.omni lostParams = .ok (⟨(Expl.start ec nearDetector lostDwa target "map" 1 1).1,
        !Flt.lt (2:ℝ) 1⟩, o) := by
  obtain ⟨gs, hgs⟩ := side_target
  obtain ⟨ec, hec⟩ : ∃ ec, ErgodicControl.new omniModel nearDetector 1 2 1 1 2 10 0
      (diag3 (lit 1 0 /. (1:ℝ)) (lit 1 0 /. (1:ℝ)) (lit 1 0 /. (1:ℝ))) ⟨1, 0, 0⟩ ⟨1, 0, 0⟩ = .ok ec := by
    unfold ErgodicControl.new
    rw [demo_steps, Res.ok_bind, if_neg (by decide)]
    exact ⟨_, rfl⟩
  refine ⟨⟨gs⟩, ec, _, [.target ((⟨gs⟩ : Target ℝ).markers "map")], hec, ?_⟩
  unfold Node.omni
  simp only [lostParams, sideParams, vecAt, List.getElem?_cons_zero, List.getElem?_cons_succ, Res.ok_bind, hgs,
    side_collision, hec, lost_dwa]
  rfl

theorem lost_valid : validateControl nearDetector (mapOf sideMsg) ⟨0.5, 2.5, 0⟩ ⟨1, 0, 0⟩ (1:ℝ) 1 = .ok true := by
  rw [C20_accepts_iff _ _ _ _ _ _ 1 lost_steps]
  intro k hk
  have : k = 0 := by simpa using hk
  subst this
  rw [straight_poses]
  norm_num
  have := top_clear 0
  norm_num at this
  exact this

/-- An iteration that works with the pose (0.5, 2.5, 0). -/
theorem lost_iteration {Rinv : M3 ℝ} (s : Expl ℝ) (tf : Option (TransformMsg ℝ))
    (hb : EcBuilt omniModel nearDetector 1 2 1 1 2 10 0 Rinv ⟨1, 0, 0⟩ ⟨1, 0, 0⟩ (s.localize tf).ec)
    (h1 : s.collision = nearDetector) (h3 : s.map_received = true) (h4 : s.grid = mapOf sideMsg)
    (h6 : s.val_dt = 1) (h7 : s.val_horizon = 1) (h8 : s.follow_dwa = false)
    (hp : (s.localize tf).pose = ⟨0.5, 2.5, 0⟩) (hk : (s.localize tf).pose_known = true) :
    ∃ e' o, s.step (.tick tf []) = .ok ({ s.localize tf with ec := e', u := ⟨1, 0, 0⟩ }, o) ∧
      EcBuilt omniModel nearDetector 1 2 1 1 2 10 0 Rinv ⟨1, 0, 0⟩ ⟨1, 0, 0⟩ e' ∧ twists o = [⟨1, 0, 0⟩] := by
  have l1 : (s.localize tf).collision = nearDetector := by cases tf <;> exact h1
  have l3 : (s.localize tf).map_received = true := by cases tf <;> exact h3
  have l4 : (s.localize tf).grid = mapOf sideMsg := by cases tf <;> exact h4
  have l6 : (s.localize tf).val_dt = 1 := by cases tf <;> exact h6
  have l7 : (s.localize tf).val_horizon = 1 := by cases tf <;> exact h7
  have l8 : (s.localize tf).follow_dwa = false := by cases tf <;> exact h8
  show ∃ e' o, s.iteration tf [] = _ ∧ _
  unfold Expl.iteration
  dsimp only
  generalize s.localize tf = r at *
  have hi := hb.inv
  have hsteps : r.ec.steps = 2 := by
    have := hi.steps_eq; rw [demo_steps, Res.ok.injEq] at this; exact this.symm
  have hadv : r.advanceDwa = r := by
    unfold Expl.advanceDwa
    rw [if_neg (by rw [l8]; simp)]
  obtain ⟨r', o1, hr⟩ := C77_replan (Or.inl rfl) r hb (by rw [hsteps]; decide) (by norm_num)
    (by rw [l4]; simp [mapOf, sideMsg]) (by rw [l4]; simp [mapOf, sideMsg]) (by rw [l4]; exact side_fits)
    (draws := []) rfl (by simp) le_rfl le_rfl le_rfl
  have hr0 := hr
  unfold Expl.replan at hr
  rw [if_neg (by rw [l8]; simp)] at hr
  simp only [Res.bind_eq_ok, Res.ok.injEq, Prod.mk.injEq] at hr
  obtain ⟨⟨e', u⟩, hc, path, -, rfl, rfl⟩ := hr
  obtain ⟨e0, he0, hreach⟩ := hb
  obtain ⟨⟨a, b⟩, ⟨c, d⟩, e, f⟩ := ec_in_box he0 hreach hc
  have hu : u = ⟨1, 0, 0⟩ := by
    cases u
    simp only [V3.mk.injEq]
    exact ⟨le_antisymm b a, le_antisymm d c, le_antisymm f e⟩
  subst hu
  refine ⟨e', [.trajectory path] ++ [] ++ [.twist ⟨1, 0, 0⟩], ?_, ⟨e0, he0, .control _ _ _ hreach hc⟩, rfl⟩
  rw [if_pos (by rw [l3, hk]; rfl), hadv, hr0]
  simp only [Res.ok_bind]
  unfold Expl.avoid
  simp only [l1, l4, hp, l6, l7, lost_valid, Res.ok_bind, if_true]

theorem edge_collides (pose : V3 ℝ) (h0 : 2 ≤ pose.c0) (h1 : pose.c0 < 3) (h2 : 2 ≤ pose.c1)
    (h3 : pose.c1 < 3) : nearDetector.collisionCheck (mapOf sideMsg) pose = .ok true := by
  have hc := near_config pose 2 2 (by decide) (by decide) (by
    simp only [InHalfOpenCell, mapOf, sideMsg, UInt32.toNat_ofNat]
    refine ⟨?_, ?_, ?_, ?_⟩ <;> norm_num <;> linarith)
  exact C26_axis_partial _ _ side_wf _ _ hc (by constructor <;> decide) 1 (by decide) (by decide)
    (by decide) (by decide) (Or.inr (Or.inr (Or.inr ((side_occupied _ _).mpr (by decide)))))

theorem corner_clear (th : ℝ) : nearDetector.collisionCheck (mapOf sideMsg) ⟨0.5, 2.5, th⟩ = .ok false := by
  have hc := near_config ⟨0.5, 2.5, th⟩ 2 0 (by decide) (by decide) (by
    simp only [InHalfOpenCell, mapOf, sideMsg, UInt32.toNat_ofNat]
    refine ⟨?_, ?_, ?_, ?_⟩ <;> norm_num)
  have hr : InRange (mapOf sideMsg) { r_bnd := 0, r_col := 1, r_max := 1, cx := (0 : UInt32).toNat, cy := (2 : UInt32).toNat } := by
    constructor <;> decide
  obtain ⟨b, hb, -⟩ := collisionCheck_iff nearDetector _ side_wf _ _ hc hr
  cases b with
  | false => exact hb
  | true =>
    obtain ⟨i, j, ho, hd⟩ := C25_sound nearDetector _ side_wf _ _ hc hr hb
    obtain ⟨rfl, rfl⟩ := (side_occupied i j).mp ho
    exact absurd hd (by decide)

/-- C89 is false: after one failed lookup the robot drives into the obstacle. -/
theorem C89_refuted_lost : ¬ C89_statement := by
  intro h
  obtain ⟨target, ec, Rinv, o0, hec, hn⟩ := lost_starts
  set s0 := (Expl.start ec nearDetector lostDwa target "map" (1:ℝ) 1).1 with hs0
  have hloc : ((s0.mapCallback sideMsg).localize (some (alongTf 0.5))).pose = ⟨0.5, 2.5, 0⟩ := by
    show (⟨0.5, 2.5, getYaw (0:ℝ) 0 0 1⟩ : V3 ℝ) = _
    rw [midTf_yaw]
  obtain ⟨e1, o1, hst1, hb1, ho1⟩ := lost_iteration (s0.mapCallback sideMsg) (some (alongTf 0.5))
    ⟨ec, hec, .addStateMemory _ (.setTarget _ .start)⟩ rfl rfl rfl rfl rfl rfl hloc rfl
  obtain ⟨e2, o2, hst2, hb2, ho2⟩ := lost_iteration (tf := none) (hb := by exact hb1)
    (s := { (s0.mapCallback sideMsg).localize (some (alongTf 0.5)) with ec := e1, u := ⟨1, 0, 0⟩ })
    (h1 := rfl) (h3 := rfl) (h4 := rfl) (h6 := rfl) (h7 := rfl) (h8 := rfl) (hp := hloc) (hk := rfl)
  obtain ⟨e3, o3, hst3, hb3, ho3⟩ := lost_iteration (tf := none) (hb := by exact hb2)
    (s := { ({ (s0.mapCallback sideMsg).localize (some (alongTf 0.5)) with ec := e1, u := ⟨1, 0, 0⟩ } : Expl ℝ).localize none with ec := e2, u := ⟨1, 0, 0⟩ })
    (h1 := rfl) (h3 := rfl) (h4 := rfl) (h6 := rfl) (h7 := rfl) (h8 := rfl) (hp := hloc) (hk := rfl)
  have ht := (((Trace.nil (s := s0)).snoc (e := .map sideMsg) rfl).snoc hst1).snoc hst2 |>.snoc hst3
  have moved : ∀ (x : ℝ) (o : List (Out ℝ)), twists o = [⟨1, 0, 0⟩] →
      Moved 1 ⟨x, 2.5, 0⟩ (twists o) ⟨x + 1, 2.5, 0⟩ := by
    intro x o ho
    rw [ho]
    refine ⟨by simp, ?_⟩
    intro v hv
    rw [List.mem_singleton] at hv
    subst hv
    simp only [flow, if_true]
    refine ⟨by simp, by simp, 0, by simp⟩
  have hro : Roamed 1 _ _ _ ([] ++ [⟨0.5, 2.5, 0⟩] ++ [⟨0.5 + 1, 2.5, 0⟩] ++ [⟨0.5 + 1 + 1, 2.5, 0⟩]) :=
    .next (T := 1) (o := o3) (.next (T := 1) (o := o2) (.first (T := 1) (p := ⟨0.5, 2.5, 0⟩) (e := .tick (some (alongTf 0.5)) []) (o := o1)
      (.callback (T := 1) (e := .map sideMsg) (o := []) .nil rfl) rfl
      (fun q hq => by rw [along_pose, Option.some.injEq] at hq; exact hq.symm))
      (e := .tick none []) rfl (by simp [Event.pose?]) (moved _ _ ho1))
      (e := .tick none []) rfl (by simp [Event.pose?]) (moved _ _ ho2)
  have hI : Instant 1 1 1 := ⟨0, by norm_num, le_rfl⟩
  have := h lostParams _ o0 _ _ _ 1 _ _ sideMsg (.inr hn) (by show (0:ℝ) < 1; norm_num) (by show (0:ℝ) < 1; norm_num)
    hI hI ht hro (by simp [maps, Event.map?]) (by
      intro o ho u hu
      simp only [List.nil_append, List.cons_append, List.mem_cons, List.not_mem_nil, or_false] at ho
      rcases ho with rfl | rfl | rfl | rfl
      · simp [twists] at hu
      · rw [ho1, List.mem_singleton] at hu; subst hu; exact .inl rfl
      · rw [ho2, List.mem_singleton] at hu; subst hu; exact .inl rfl
      · rw [ho3, List.mem_singleton] at hu; subst hu; exact .inl rfl) (by
      intro x hx
      simp only [List.nil_append, List.cons_append, List.head?_cons, Option.some.injEq] at hx
      rw [← hx]
      exact corner_clear 0) ⟨0.5 + 1 + 1, 2.5, 0⟩ (by simp)
  have hcol : nearDetector.collisionCheck (mapOf sideMsg) ⟨0.5 + 1 + 1, 2.5, 0⟩ = .ok true :=
    edge_collides _ (by norm_num) (by norm_num) (by norm_num) (by norm_num)
  have e : (⟨s0, !Flt.lt (2:ℝ) 1⟩ : Node ℝ).expl.collision = nearDetector := rfl
  rw [e, hcol] at this
  simp at this

end Ergodic
