import Verif.Props.ExplorationLimits

/-!
# A concrete run: refutations of C69 and C70

A robot in the middle of a 3 × 3 map with an obstacle to its right.  No twist within the limits
passes validation, so the loop falls back on the dynamic window, which has one sample per axis.
-/

namespace Ergodic

/-- the map message: 1 m cells, the cell to the right of the middle is occupied -/
def sideMsg : OccupancyGrid ℝ := ⟨3, 3, 1, 0, 0, [0, 0, 0, 0, 0, 100, 0, 0, 0]⟩

/-- it sees the four neighbouring cells -/
noncomputable def nearDetector : Collision ℝ := ⟨0, 1, 1, 4/5⟩

theorem side_wf : WellFormed (mapOf sideMsg) := ⟨by decide, by decide⟩

theorem side_occupied (i j : Int) : Occupied (4/5 : ℝ) (mapOf sideMsg) i j ↔ i = 1 ∧ j = 2 := by
  constructor
  · rintro ⟨h1, h2, h3, h4, v, hv, hlt⟩
    have h2' : i < 3 := h2
    have h4' : j < 3 := h4
    by_contra hc
    have hv0 : v = 0 := by
      obtain rfl | rfl | rfl : i = 0 ∨ i = 1 ∨ i = 2 := by omega
      all_goals obtain rfl | rfl | rfl : j = 0 ∨ j = 1 ∨ j = 2 := by omega
      all_goals first
        | exact absurd ⟨rfl, rfl⟩ hc
        | (simpa [cellAt, mapOf, sideMsg] using hv.symm)
    subst hv0
    rw [real_lt_false, show ((0 : Int8).toInt) = 0 from by decide] at hlt
    norm_num at hlt
  · rintro ⟨rfl, rfl⟩
    refine ⟨by norm_num, by decide, by norm_num, by decide, 100, rfl, ?_⟩
    rw [real_lt_false]
    have : ((100 : Int8).toInt) = 100 := by decide
    norm_num [this]

theorem near_config (pose : V3 ℝ) (i j : UInt32) (hi : i.toNat < 3) (hj : j.toNat < 3)
    (h : InHalfOpenCell (mapOf sideMsg) i j pose.c0 pose.c1) :
    nearDetector.config (mapOf sideMsg) pose =
      .ok { r_bnd := 0, r_col := 1, r_max := 1, cx := j.toNat, cy := i.toNat } := by
  have hw := C08_half_open_exact (mapOf sideMsg) (by norm_num [mapOf, sideMsg]) _ _ i j ⟨hi, hj⟩ h
  have e1 := castI32_floor (x := (0:ℝ)/1) (by norm_num) (by norm_num)
  have e2 := castI32_floor (x := ((0:ℝ)+1)/1) (by norm_num) (by norm_num)
  have e3 := castI32_floor (x := (1:ℝ)/1) (by norm_num) (by norm_num)
  simp only [Collision.config, hw, Res.ok_bind]
  have hui : u2i i = i.toNat ∧ u2i j = j.toNat := by
    unfold u2i
    rw [if_pos (by omega), if_pos (by omega)]
    exact ⟨rfl, rfl⟩
  simp only [nearDetector, mapOf, sideMsg, real_div, real_add, e1, e2, e3, Res.ok_bind, hui]
  norm_num

/-- in the middle cell every pose collides -/
theorem middle_collides (pose : V3 ℝ) (h0 : 1 ≤ pose.c0) (h1 : pose.c0 < 2) (h2 : 1 ≤ pose.c1)
    (h3 : pose.c1 < 2) : nearDetector.collisionCheck (mapOf sideMsg) pose = .ok true := by
  have hc := near_config pose 1 1 (by decide) (by decide) (by
    simp only [InHalfOpenCell, mapOf, sideMsg, UInt32.toNat_one]
    refine ⟨?_, ?_, ?_, ?_⟩ <;> norm_num <;> linarith)
  exact C26_axis_partial _ _ side_wf _ _ hc (by constructor <;> decide) 1 (by decide) (by decide)
    (by decide) (by decide) (Or.inl ((side_occupied _ _).mpr (by decide)))

/-- one cell up nothing is seen -/
theorem top_clear (th : ℝ) : nearDetector.collisionCheck (mapOf sideMsg) ⟨1.5, 2.5, th⟩ = .ok false := by
  have hc := near_config ⟨1.5, 2.5, th⟩ 2 1 (by decide) (by decide) (by
    simp only [InHalfOpenCell, mapOf, sideMsg, UInt32.toNat_ofNat]
    refine ⟨?_, ?_, ?_, ?_⟩ <;> norm_num)
  have hr : InRange (mapOf sideMsg) { r_bnd := 0, r_col := 1, r_max := 1, cx := (1 : UInt32).toNat, cy := (2 : UInt32).toNat } := by
    constructor <;> decide
  obtain ⟨b, hb, -⟩ := collisionCheck_iff nearDetector _ side_wf _ _ hc hr
  cases b with
  | false => exact hb
  | true =>
    obtain ⟨i, j, ho, hd⟩ := C25_sound nearDetector _ side_wf _ _ hc hr hb
    obtain ⟨rfl, rfl⟩ := (side_occupied i j).mp ho
    exact absurd hd (by decide)

/-- The parameters: one second steps for the controller, one validation step of 0.1 s; `h` is the
horizon of the dynamic window. -/
noncomputable def sideParams (h ay ylo yhi : ℝ) : Params ℝ :=
  { map_frame_id := "map", val_dt := 0.1, val_horizon := 0.1
    max_vel_x := 1, max_vel_y := yhi, max_rot_vel := 1
    min_vel_x := -1, min_vel_y := ylo, min_rot_vel := -1
    acc_lim_x := 1, acc_lim_y := ay, acc_lim_th := 1
    boundary_radius := 0, search_radius := 1, obstacle_threshold := 1, occupied_threshold := 4/5
    ec_dt := 1, ec_horizon := 2, target_resolution := 1, expl_weight := 1
    num_basis := 2, buffer_size := 10, batch_size := 0, control_weights := [1, 1, 1]
    dwa_dt := 1, dwa_horizon := h, acc_dt := 1, vx_samples := 1, vy_samples := 1, vth_samples := 1
    targets := [(⟨0, 0⟩, ⟨1, 1⟩)] }

/-- the dynamic window with these parameters -/
noncomputable def sideDwa (h : ℝ) (n : UInt32) (ay ylo yhi : ℝ) : DynamicWindow ℝ :=
  { collision := nearDetector, dt := 1, horizon := h, acc_dt := 1, acc_lim_x := 1, acc_lim_y := ay,
    acc_lim_th := 1, max_vel_x := 1, min_vel_x := -1, max_vel_y := yhi, min_vel_y := ylo,
    max_rot_vel := 1, min_rot_vel := -1, vx_samples := 1, vy_samples := 1, vth_samples := 1, steps := n }

/-- the robot in the middle of the map, heading 0 -/
noncomputable def midTf : TransformMsg ℝ := ⟨1.5, 1.5, 0, 0, 0, 1⟩

/-- and the pose it stands for -/
noncomputable def midPose : V3 ℝ := ⟨1.5, 1.5, 0⟩

theorem midTf_yaw : getYaw (0:ℝ) 0 0 1 = 0 := by
  have := C15_pure_yaw 0 1 one_ne_zero (by linarith [Real.pi_pos]) Real.pi_pos.le
  simpa using this

theorem side_visited (h : ℝ) (n : UInt32) (ay ylo yhi : ℝ) (hy : ylo ≤ 1) :
    visited (sideDwa h n ay ylo yhi) ⟨1, 1 + ay, 1⟩ = [⟨0, 1, 0⟩] := by
  have e : ((sideDwa h n ay ylo yhi).window ⟨1, 1 + ay, 1⟩).1 = ⟨0, 1, 0⟩ := by
    simp only [DynamicWindow.window, DynamicWindow.velLower, sideDwa, real_fmax, real_sub, real_mul]
    norm_num [hy]
  have h2 : visited (sideDwa h n ay ylo yhi) ⟨1, 1 + ay, 1⟩ =
      [((sideDwa h n ay ylo yhi).window ⟨1, 1 + ay, 1⟩).1] := rfl
  rw [h2, e]

/-- a search with one sample succeeds if that sample is cheap -/
theorem single_sample {d : DynamicWindow ℝ} {vb v : V3 ℝ} {cost : V3 ℝ → Res ℝ} {c : ℝ}
    (hv : visited d vb = [v]) (hc : cost v = .ok c) (hle : c ≤ 2 ^ 1000) :
    d.searchWindow vb cost = .ok (true, v) := by
  have hlt : c < (Flt.maxFin : ℝ) := by
    have := maxFin_large
    rw [← real_maxFin] at this
    exact lt_of_le_of_lt hle (lt_trans (lt_add_one _) this)
  rw [searchWindow_eq, hv]
  simp only [List.foldlM_cons, List.foldlM_nil, consider, hc, Res.ok_bind]
  rw [if_pos (by rw [real_lt]; exact hlt)]
  show (if almostEqual c Flt.maxFin = true then _ else _) = _
  rw [if_neg (not_close_maxFin hle)]

theorem steps_side (h : ℝ) (k : Nat) (hk : k < 2 ^ 32) (e : |h| = k) :
    numSteps h (1:ℝ) = .ok (UInt32.ofNat k) := by
  simp only [numSteps, real_div, real_fabs, div_one, e]
  exact castU32_natCast hk

theorem steps_val : numSteps (0.1:ℝ) 0.1 = .ok 1 := by
  simp only [numSteps, real_div, real_fabs]
  rw [show |(0.1:ℝ) / 0.1| = ((1 : Nat) : ℝ) by norm_num]
  exact castU32_natCast (by norm_num)

/-- no twist within the limits passes validation in the middle of the map -/
theorem side_invalid (u : V3 ℝ) (h0 : |u.c0| ≤ 1) (h1 : |u.c1| ≤ 1) :
    validateControl nearDetector (mapOf sideMsg) midPose u 0.1 0.1 = .ok false := by
  rw [C20_rejects_iff _ _ _ _ _ _ 1 steps_val]
  refine ⟨0, by decide, ?_, by omega⟩
  have hp := planar_le (C76_poseAfter u 0.1 (by norm_num) midPose 1)
  have hs : speed u ≤ 2 := by
    unfold speed
    rw [Real.sqrt_le_left (by norm_num)]
    have := sq_abs u.c0
    have := sq_abs u.c1
    nlinarith [abs_nonneg u.c0, abs_nonneg u.c1]
  have hr : speed u * (((1 : ℕ) : ℝ) * |(0.1:ℝ)|) ≤ 0.2 := by
    rw [abs_of_pos (by norm_num)]
    push_cast
    linarith
  obtain ⟨ha, hb⟩ := hp
  have ha := abs_le.mp (ha.trans hr)
  have hb := abs_le.mp (hb.trans hr)
  rw [show midPose.c0 = (1.5:ℝ) from rfl] at ha
  rw [show midPose.c1 = (1.5:ℝ) from rfl] at hb
  rw [Nat.zero_add]
  apply middle_collides
  · linarith [ha.1]
  · linarith [ha.2]
  · linarith [hb.1]
  · linarith [hb.2]

theorem side_free (h : ℝ) (n : UInt32) (hn : n.toNat ≤ 1) (ay ylo yhi : ℝ) :
    FreeRollout (sideDwa h n ay ylo yhi) (mapOf sideMsg) midPose ⟨0, 1, 0⟩ := by
  intro k hk
  have hk0 : k = 0 := by
    have : k < n.toNat := hk
    omega
  subst hk0
  have := top_clear 0
  rw [show (sideDwa h n ay ylo yhi).collision = nearDetector from rfl,
    show (sideDwa h n ay ylo yhi).dt = 1 from rfl, midPose, straight_poses]
  norm_num
  norm_num at this
  exact this

/-- One iteration of the loop in the middle of the map: the dynamic window's only sample is
published. -/
theorem side_tick {model : TwistModel ℝ} {Rinv : M3 ℝ} (s : Expl ℝ) (k : Nat) (h ay ylo yhi : ℝ)
    (hh : |h| = k) (hk : k ≤ 1) (hy0 : -1 ≤ ylo) (hy1 : ylo ≤ yhi) (hy2 : yhi ≤ 1)
    (hm : model = omniModel ∨ (model = cartModel ∧ ylo = 0 ∧ yhi = 0))
    (hb : EcBuilt model nearDetector 1 2 1 1 2 10 0 Rinv ⟨-1, ylo, -1⟩ ⟨1, yhi, 1⟩ s.ec)
    (h1 : s.collision = nearDetector) (h2 : s.dwa = sideDwa h (UInt32.ofNat k) ay ylo yhi)
    (h3 : s.map_received = true) (h4 : s.grid = mapOf sideMsg) (h5 : s.vb = ⟨1, 1 + ay, 1⟩)
    (h6 : s.val_dt = 0.1) (h7 : s.val_horizon = 0.1) (h8 : s.follow_dwa = false) :
    ∃ ec o, s.step (.tick (some midTf) []) = .ok ({ s with
        pose := midPose, ec := ec, pose_known := true, u := ⟨0, 1, 0⟩, follow_dwa := true, i := 0 }, o) ∧
      twists o = [⟨0, 1, 0⟩] ∧ Replanned o := by
  have hkn : (UInt32.ofNat k).toNat = k :=
    UInt32.toNat_ofNat_of_lt' (by unfold UInt32.size; omega)
  -- the controller
  have hb1 : EcBuilt model nearDetector 1 2 1 1 2 10 0 Rinv ⟨-1, ylo, -1⟩ ⟨1, yhi, 1⟩
      (s.ec.addStateMemory midPose) := by
    obtain ⟨e0, a, b⟩ := hb; exact ⟨e0, a, .addStateMemory _ b⟩
  have hi := hb1.inv
  have hsteps : (s.ec.addStateMemory midPose).steps = 2 := by
    have := hi.steps_eq; rw [demo_steps, Res.ok.injEq] at this; exact this.symm
  have hcfg : ∃ ec, (s.ec.addStateMemory midPose).configTarget (mapOf sideMsg) = .ok ec := by
    have hf : ⌊(3:ℝ) + 1 / 2⌋₊ = 3 := by
      rw [Nat.floor_eq_iff (by norm_num)]; constructor <;> norm_num
    apply configTarget_total
    · rw [hi.resolution_eq]; norm_num
    · simp [mapOf, sideMsg]
    · simp [mapOf, sideMsg]
    · rw [hi.resolution_eq]
      simp only [mapOf, sideMsg, real_mul, real_add, real_ofInt, UInt32.toNat_ofNat]
      norm_num
      rw [show (7:ℝ)/2 = 3 + 1/2 by norm_num, hf]
      norm_num
  have hctl : ∃ e' u, (s.ec.addStateMemory midPose).control (mapOf sideMsg) midPose [] = .ok (e', u) := by
    rcases hm with rfl | ⟨rfl, rfl, rfl⟩
    · exact C60_total hb1 (by rw [hsteps]; decide) (fun y v _ => ⟨_, rfl⟩) hcfg rfl (by simp)
        (by rw [real_lt_false]; norm_num) (by rw [real_lt_false]; exact hy1)
        (by rw [real_lt_false]; norm_num)
    · obtain ⟨e', u, a, -⟩ := C60_total_cart (x := midPose) (draws := []) hb1 (by rw [hsteps]; decide) hcfg rfl (by simp)
        (by norm_num) ⟨rfl, rfl⟩ (by norm_num)
      exact ⟨e', u, a⟩
  obtain ⟨e', u, hctl⟩ := hctl
  have hlim := C59_not_outside hb1 hctl
  have hf' : ∀ y, ∀ v ∈ e'.ut, ∃ d, model.f y v = .ok d := by
    intro y v hv
    rcases hm with rfl | ⟨rfl, rfl, rfl⟩
    · exact ⟨_, rfl⟩
    · have hz := hlim.2 v hv
      simp only [NotOutside, real_lt_false] at hz
      have hz : v.c1 = 0 := le_antisymm hz.2.1.2 hz.2.1.1
      refine ⟨⟨v.c0 *. Flt.cos y.c2, v.c0 *. Flt.sin y.c2, v.c2⟩, ?_⟩
      show SimpleCart.f y v = _
      unfold SimpleCart.f
      rw [if_neg]
      rw [not_not, hz]
      norm_num [almostEqual, real_fabs]
  obtain ⟨⟨xs, hxs⟩, ⟨path, hpath⟩⟩ := (C60_replay hb1 hctl).2.2 hf' s.map_frame_id
  have hb2 := hb1.control hctl
  have hi2 := hb2.inv
  -- validation
  have hu := hlim.1
  simp only [NotOutside, real_lt_false] at hu
  have hinv := side_invalid u (abs_le.mpr ⟨hu.1.1, hu.1.2⟩)
    (abs_le.mpr ⟨by linarith [hu.2.1.1], by linarith [hu.2.1.2]⟩)
  -- the search
  have hro := (C60_replay hb1 hctl).1 xs hxs
  have hlen : xs.length = 2 := by
    have h := hxs
    unfold ErgodicControl.optTraj at h
    rw [C51_count _ _ _ _ _ _ h, hi2.dt_eq, hi2.horizon_eq]
    norm_num
  obtain ⟨x0, hx0⟩ : ∃ x0, xs[0]? = some x0 := ⟨xs[0], by rw [List.getElem?_eq_getElem]⟩
  have hnear := C76_plan (vmax := 2) (by rcases hm with h | h; exacts [Or.inl h, Or.inr h.1]) hb1 hctl (by
    intro v a b c d
    unfold speed
    rw [Real.sqrt_le_left (by norm_num)]
    simp only at a b c d
    nlinarith) xs hxs 0 x0 hx0
  have hstep : e'.timeStep = 1 := hi2.dt_eq
  have hgap : poseGap x0 ⟨1.5, 2.5, 0⟩ ≤ 100 := by
    have h1 := planar_le hnear
    have h2 := Real.Angle.abs_toReal_le_pi ((x0.c2 - 0 : ℝ) : Real.Angle)
    have h3 : Real.sqrt ((x0.c0 - 1.5) ^ 2 + (x0.c1 - 2.5) ^ 2) ≤ 20 := by
      rw [Real.sqrt_le_left (by norm_num)]
      rw [show midPose.c0 = (1.5:ℝ) from rfl, show midPose.c1 = (1.5:ℝ) from rfl] at h1
      norm_num at h1
      have := abs_le.mp h1.1
      have := abs_le.mp h1.2
      nlinarith
    have := Real.pi_le_four
    show Real.sqrt ((x0.c0 - 1.5) ^ 2 + (x0.c1 - 2.5) ^ 2) + |((x0.c2 - 0 : ℝ) : Real.Angle).toReal| ≤ 100
    linarith
  have hidx : refIndex xs.length 0 (Flt.ofInt xs.length *. e'.timeStep : ℝ) = 0 := by
    simp [refIndex]
    norm_num
  have hcost : ∃ c, (sideDwa h (UInt32.ofNat k) ay ylo yhi).objectiveTraj (mapOf sideMsg) midPose ⟨0, 1, 0⟩ xs
      (Flt.ofInt xs.length *. e'.timeStep) = .ok c ∧ c ≤ 2 ^ 1000 := by
    refine ⟨_, (objectiveTraj_ok _ (by show (0:ℝ) ≤ 1; norm_num) _ _ _ _ (by omega) (by omega)
      (by rw [hlen, hstep]; norm_num [real_mul, real_ofInt]) _).mpr (Or.inl ⟨side_free _ _ (by omega) _ _ _, ?_, rfl⟩), ?_⟩
    · intro l hl
      have : l = 0 := by
        have : l < (UInt32.ofNat k).toNat := hl
        omega
      subst this
      rw [Nat.cast_zero, zero_mul, hidx]
      omega
    · rw [show (sideDwa h (UInt32.ofNat k) ay ylo yhi).steps.toNat = k from hkn,
        show (sideDwa h (UInt32.ofNat k) ay ylo yhi).dt = 1 from rfl]
      have hbig : (100:ℝ) ≤ 2 ^ 1000 :=
        le_trans (by norm_num : (100:ℝ) ≤ 2 ^ 7) (pow_le_pow_right₀ (by norm_num) (by norm_num))
      rcases (by omega : k = 0 ∨ k = 1) with rfl | rfl
      · simp only [trackCost, Finset.range_zero, Finset.sum_empty]
        positivity
      · simp only [trackCost, Finset.range_one, Finset.sum_singleton]
        rw [Nat.cast_zero, zero_mul, hidx, List.getD_eq_getElem?_getD, hx0, midPose, straight_poses]
        norm_num
        norm_num at hgap
        exact hgap.trans hbig
  obtain ⟨c, hc, hc1⟩ := hcost
  have hsearch : (sideDwa h (UInt32.ofNat k) ay ylo yhi).controlTraj (mapOf sideMsg) midPose ⟨1, 1 + ay, 1⟩ xs
      e'.timeStep = .ok (true, ⟨0, 1, 0⟩) :=
    single_sample (side_visited _ _ _ _ _ (by linarith)) hc hc1
  have hcp : ∃ q, constTwistPath s.map_frame_id midPose ⟨0, 1, 0⟩ (1:ℝ) h = .ok q := by
    unfold constTwistPath
    rw [steps_side h k (by omega) hh]
    exact ⟨_, rfl⟩
  obtain ⟨q, hq⟩ := hcp
  have hpose : s.localize (some midTf) =
      { s with pose := midPose, ec := s.ec.addStateMemory midPose, pose_known := true } := by
    simp only [Expl.localize, midTf, midTf_yaw, midPose]
  refine ⟨e', [.trajectory path, .dwaPath q, .twist ⟨0, 1, 0⟩], ?_, rfl, path, by simp⟩
  show s.iteration (some midTf) [] = _
  unfold Expl.iteration
  rw [hpose, if_pos (by dsimp only; rw [h3]; rfl)]
  have hadv : ({ s with pose := midPose, ec := s.ec.addStateMemory midPose, pose_known := true } : Expl ℝ).advanceDwa =
      { s with pose := midPose, ec := s.ec.addStateMemory midPose, pose_known := true } := by
    unfold Expl.advanceDwa
    rw [if_neg (by dsimp only; rw [h8]; simp)]
  rw [hadv]
  unfold Expl.replan
  dsimp only
  rw [if_neg (by rw [h8]; simp), h4, hctl]
  simp only [Res.ok_bind, hpath]
  unfold Expl.avoid
  simp only [h1, h6, h7, hinv, Res.ok_bind]
  rw [if_neg (by simp), if_neg (by rw [h8]; simp), hxs, h2, h5]
  simp only [Res.ok_bind, hsearch, if_true]
  rw [show (sideDwa h (UInt32.ofNat k) ay ylo yhi).dt = 1 from rfl,
    show (sideDwa h (UInt32.ofNat k) ay ylo yhi).horizon = h from rfl, hq]
  simp only [Res.ok_bind]
  simp

theorem side_collision : Collision.new (0:ℝ) 1 1 (4/5) = .ok nearDetector := by
  unfold Collision.new
  rw [if_neg (by rw [real_lt]; norm_num), if_neg]
  · rfl
  · rw [Bool.or_eq_true, real_lt, real_lt]
    norm_num

theorem side_dwa (h : ℝ) (k : Nat) (hk : k < 2 ^ 32) (e : |h| = k) (ay ylo yhi : ℝ) (n : UInt32)
    (hn : n = 0 ∨ n = 1) :
    DynamicWindow.new nearDetector 1 h 1 1 ay 1 1 (-1) yhi ylo 1 (-1) 1 n 1 =
      .ok (sideDwa h (UInt32.ofNat k) ay ylo yhi) := by
  unfold DynamicWindow.new
  rw [steps_side h k hk e, Res.ok_bind]
  rcases hn with rfl | rfl <;> rfl

theorem side_target : ∃ gs, ([(⟨0, 0⟩, ⟨1, 1⟩)] : List (V2 ℝ × V2 ℝ)).mapM
    (fun t => Gaussian.new t.1 t.2) = .ok gs := by
  have : ∃ g, Gaussian.new (⟨0, 0⟩ : V2 ℝ) ⟨1, 1⟩ = .ok g := by
    unfold Gaussian.new
    dsimp only
    rw [if_neg (by simp [real_lt])]
    exact ⟨_, rfl⟩
  obtain ⟨g, hg⟩ := this
  refine ⟨[g], ?_⟩
  rw [List.mapM_cons, hg]
  rfl

theorem side_control (model : TwistModel ℝ) (Rinv : M3 ℝ) (ylo yhi : ℝ) :
    ∃ ec, ErgodicControl.new model nearDetector 1 2 1 1 2 10 0 Rinv ⟨-1, ylo, -1⟩ ⟨1, yhi, 1⟩ = .ok ec := by
  unfold ErgodicControl.new
  rw [demo_steps, Res.ok_bind, if_neg (by decide)]
  exact ⟨_, rfl⟩

theorem side_omni (h : ℝ) (k : Nat) (hk : k < 2 ^ 32) (e : |h| = k) (ay ylo yhi : ℝ) :
    ∃ target ec Rinv o, ErgodicControl.new omniModel nearDetector 1 2 1 1 2 10 0 Rinv ⟨-1, ylo, -1⟩
      ⟨1, yhi, 1⟩ = .ok ec ∧
      Node.omni (sideParams h ay ylo yhi) = .ok (⟨(Expl.start ec nearDetector
        (sideDwa h (UInt32.ofNat k) ay ylo yhi) target "map" 0.1 0.1).1, !Flt.lt (2:ℝ) h⟩, o) := by
  obtain ⟨gs, hgs⟩ := side_target
  obtain ⟨ec, hec⟩ := side_control omniModel (diag3 (lit 1 0 /. (1:ℝ)) (lit 1 0 /. (1:ℝ)) (lit 1 0 /. (1:ℝ))) ylo yhi
  refine ⟨⟨gs⟩, ec, _, [.target ((⟨gs⟩ : Target ℝ).markers "map")], hec, ?_⟩
  unfold Node.omni
  simp only [sideParams, vecAt, List.getElem?_cons_zero, List.getElem?_cons_succ, Res.ok_bind, hgs,
    side_collision, hec, side_dwa h k hk e ay ylo yhi 1 (Or.inr rfl)]
  rfl

theorem side_cart (h : ℝ) (k : Nat) (hk : k < 2 ^ 32) (e : |h| = k) (ay : ℝ) :
    ∃ target ec Rinv o, ErgodicControl.new cartModel nearDetector 1 2 1 1 2 10 0 Rinv ⟨-1, 0, -1⟩
      ⟨1, 0, 1⟩ = .ok ec ∧
      Node.cart (sideParams h ay 0 0) = .ok (⟨(Expl.start ec nearDetector
        (sideDwa h (UInt32.ofNat k) 0 0 0) target "map" 0.1 0.1).1, !Flt.lt (2:ℝ) h⟩, o) := by
  obtain ⟨gs, hgs⟩ := side_target
  obtain ⟨ec, hec⟩ := side_control cartModel (diag3 (lit 1 0 /. (1:ℝ)) (lit 0 0) (lit 1 0 /. (1:ℝ))) 0 0
  refine ⟨⟨gs⟩, ec, _, [.target ((⟨gs⟩ : Target ℝ).markers "map")], hec, ?_⟩
  have h0 : (lit 0 0 : ℝ) = 0 := by simp
  unfold Node.cart
  rw [h0] at hec ⊢
  simp only [sideParams, vecAt, List.getElem?_cons_zero, List.getElem?_cons_succ, Res.ok_bind, hgs,
    side_collision, hec, side_dwa h k hk e 0 0 0 0 (Or.inl rfl)]
  rfl

theorem update_empty (m : OccupancyGrid ℝ) : (GridMap.empty : GridMap ℝ).update m = mapOf m := rfl

theorem run_three {s s1 s2 s3 : Expl ℝ} {e1 e2 e3 : Event ℝ} {o : List (Out ℝ)}
    (h1 : s.step e1 = .ok (s1, [])) (h2 : s1.step e2 = .ok (s2, [])) (h3 : s2.step e3 = .ok (s3, o)) :
    s.run [e1, e2, e3] = .ok (s3, o) := by
  simp only [Expl.run, h1, h2, h3, Res.ok_bind, List.nil_append, List.append_nil]

/-- the run: a map, an odometry measurement and one iteration of the loop -/
theorem side_run {model : TwistModel ℝ} {Rinv : M3 ℝ} {ec : ErgodicControl ℝ} (target : Target ℝ)
    (k : Nat) (h ay ylo yhi : ℝ)
    (hh : |h| = k) (hk : k ≤ 1) (hy0 : -1 ≤ ylo) (hy1 : ylo ≤ yhi) (hy2 : yhi ≤ 1)
    (hm : model = omniModel ∨ (model = cartModel ∧ ylo = 0 ∧ yhi = 0))
    (hec : ErgodicControl.new model nearDetector 1 2 1 1 2 10 0 Rinv ⟨-1, ylo, -1⟩ ⟨1, yhi, 1⟩ = .ok ec) :
    ∃ t out, (Expl.start ec nearDetector (sideDwa h (UInt32.ofNat k) ay ylo yhi) target "map" 0.1 0.1).1.run
      [.map sideMsg, .odom ⟨1, 1 + ay, 1⟩, .tick (some midTf) []] = .ok (t, out) ∧
      twists out = [⟨0, 1, 0⟩] ∧ t.follow_dwa = true ∧ t.i = 0 ∧ t.u = ⟨0, 1, 0⟩ ∧ t.pose = midPose ∧
      t.pose_known = true ∧ t.map_received = true ∧ t.grid = mapOf sideMsg ∧ t.collision = nearDetector ∧
      t.dwa = sideDwa h (UInt32.ofNat k) ay ylo yhi ∧ t.val_dt = 0.1 ∧ t.val_horizon = 0.1 ∧
      t.vb = ⟨1, 1 + ay, 1⟩ ∧ Replanned out := by
  obtain ⟨ec', o, ht, ho, hp⟩ := side_tick (((Expl.start ec nearDetector
    (sideDwa h (UInt32.ofNat k) ay ylo yhi) target "map" 0.1 0.1).1.mapCallback sideMsg).odomCallback ⟨1, 1 + ay, 1⟩)
    k h ay ylo yhi hh hk hy0 hy1 hy2 hm ⟨ec, hec, .setTarget _ .start⟩ rfl rfl rfl rfl rfl rfl rfl rfl
  have hrun := run_three (e1 := .map sideMsg) (e2 := .odom ⟨1, 1 + ay, 1⟩) rfl rfl ht
  exact ⟨_, o, hrun, ho, rfl, rfl, rfl, rfl, rfl, rfl, rfl, rfl, rfl, rfl, rfl, rfl, hp⟩

theorem node_run_of_expl {F : Type} [Flt F] (n : Node F) (hup : n.up = true) (es : List (Event F))
    (t : Expl F) (out : List (Out F)) (h : n.expl.run es = .ok (t, out)) : n.run es = .ok (⟨t, true⟩, out) := by
  induction es generalizing n out with
  | nil =>
    simp only [Expl.run, Res.ok.injEq, Prod.mk.injEq] at h
    obtain ⟨rfl, rfl⟩ := h
    obtain ⟨e, u⟩ := n
    simp only at hup
    subst hup
    rfl
  | cons e es ih =>
    simp only [Expl.run, Res.bind_eq_ok, Res.ok.injEq, Prod.mk.injEq] at h
    obtain ⟨⟨s1, o1⟩, h1, ⟨s2, o2⟩, h2, rfl, rfl⟩ := h
    simp only [Node.run, Node.step, hup, if_true, h1, Res.ok_bind]
    have := ih ⟨s1, true⟩ rfl o2 h2
    rw [hup] at *
    rw [this]
    rfl

theorem lt_two_one : (!Flt.lt (2:ℝ) 1) = true := by
  rw [Bool.not_eq_true', real_lt_false]; norm_num

/-- C70 is false for the cart: its lateral limits, acceleration and sample count are zero, but the
window's lower corner is the measured lateral velocity when that is positive, and the only lateral
sample is published. -/
theorem C70_refuted_cart : ∃ (p : Params ℝ) (n n' : Node ℝ) (o out : List (Out ℝ))
    (es : List (Event ℝ)), LimitsOk p ∧ Node.cart p = .ok (n, o) ∧ n.run es = .ok (n', out) ∧
    ⟨0, 1, 0⟩ ∈ twists out := by
  obtain ⟨target, ec, Rinv, o, hec, hn⟩ := side_cart 1 1 (by norm_num) (by norm_num) 0
  obtain ⟨t, out, hr, ho, -⟩ := side_run target 1 1 0 0 0 (by norm_num) (by norm_num) (by norm_num)
    le_rfl (by norm_num) (Or.inr ⟨rfl, rfl, rfl⟩) hec
  refine ⟨_, _, _, _, out, _, ?_, hn, node_run_of_expl _ lt_two_one _ _ _ hr, by rw [ho]; simp⟩
  simp [LimitsOk, WithinParams, sideParams]

/-- C70 is false for the omni-directional robot: measured faster than the acceleration limit can
undo, the window's lower corner lies above the upper limit and is published. -/
theorem C70_refuted_omni : ∃ (p : Params ℝ) (n n' : Node ℝ) (o out : List (Out ℝ))
    (es : List (Event ℝ)), LimitsOk p ∧ Node.omni p = .ok (n, o) ∧ n.run es = .ok (n', out) ∧
    ∃ u ∈ twists out, p.max_vel_y < u.c1 := by
  obtain ⟨target, ec, Rinv, o, hec, hn⟩ := side_omni 1 1 (by norm_num) (by norm_num) (1/2) (-1/2) (1/2)
  obtain ⟨t, out, hr, ho, -⟩ := side_run target 1 1 (1/2) (-1/2) (1/2) (by norm_num) (by norm_num)
    (by norm_num) (by norm_num) (by norm_num) (Or.inl rfl) hec
  refine ⟨_, _, _, _, out, _, ?_, hn, node_run_of_expl _ lt_two_one _ _ _ hr, ⟨0, 1, 0⟩, by rw [ho]; simp, ?_⟩
  · simp only [LimitsOk, WithinParams, sideParams]
    norm_num
  · simp only [sideParams]; norm_num

/-- C70 is false. -/
theorem C70_refuted : ¬ C70_statement := by
  intro hc
  obtain ⟨p, n, n', o, out, es, hl, hn, hr, u, hu, hlt⟩ := C70_refuted_omni
  have := ((hc p n n' o out es hl hr).1 hn u hu).2.1.2
  linarith

/-- C69 is false: with a window horizon of zero steps the counter misses zero, and the second
iteration publishes without replanning. -/
theorem C69_refuted : ¬ C69_statement ℝ := by
  intro hc
  obtain ⟨ec, hec⟩ := side_control omniModel unitWeights (-1/2) (1/2)
  obtain ⟨t, out, hr, ho, h1, h2, h3, h4, h5, h6, h7, h8, h9, h10, h11, h12, -⟩ :=
    side_run ⟨[]⟩ 0 0 (1/2) (-1/2) (1/2) (by norm_num) (by norm_num)
      (by norm_num) (by norm_num) (by norm_num) (Or.inl rfl) hec
  rw [run_iff_trace] at hr
  obtain ⟨os, htr, -⟩ := hr
  have hs : t.step (.tick none []) = .ok ({ t with i := 1, follow_dwa := false }, [.twist ⟨0, 1, 0⟩]) := by
    show t.iteration none [] = _
    unfold Expl.iteration
    rw [show t.localize none = t from rfl, if_pos (by rw [h5, h6]; rfl)]
    have hadv : t.advanceDwa = { t with i := 1, follow_dwa := true } := by
      unfold Expl.advanceDwa
      rw [if_pos h1, h2, h9]
      rfl
    rw [hadv]
    unfold Expl.replan
    dsimp only
    rw [if_pos rfl]
    simp only [Res.ok_bind]
    unfold Expl.avoid
    simp only [h8, h7, h4, h3, h10, h11, h9, h12,
      side_invalid ⟨0, 1, 0⟩ (by norm_num) (by norm_num), Res.ok_bind]
    rw [if_neg (by simp), if_pos trivial]
    have hsearch : (sideDwa 0 (UInt32.ofNat 0) (1/2) (-1/2) (1/2)).controlTwist (mapOf sideMsg) midPose
        ⟨1, 1 + 1/2, 1⟩ ⟨0, 1, 0⟩ = .ok (true, ⟨0, 1, 0⟩) := by
      refine single_sample (side_visited _ _ _ _ _ (by norm_num))
        ((objectiveTwist_ok _ _ _ _ _ _).mpr (Or.inl ⟨side_free _ _ (by decide) _ _ _, rfl⟩)) ?_
      simp [V3.sub, V3.dot]
    rw [hsearch]
    simp
  have := hc ec nearDetector _ ⟨[]⟩ "map" 0.1 0.1 _ os [[.twist ⟨0, 1, 0⟩]] [] _
    (by rw [List.append_nil]; exact .snoc htr hs) (by
      intro o ho
      rw [List.mem_singleton] at ho
      subst ho
      rintro ⟨p, hp⟩
      simp at hp)
  revert this
  decide

/-! ## Cases meeting the hypotheses of the theorems about the loop -/

/-- a history with a published twist -/
theorem side_history : ∃ ec dwa target, ∃ os : List (List (Out ℝ)), ∃ s t : Expl ℝ, ∃ o : List (Out ℝ),
    ErgodicControl.new omniModel nearDetector 1 2 1 1 2 10 0 unitWeights ⟨-1, -1, -1⟩ ⟨1, 1, 1⟩ = .ok ec ∧
    0 < dwa.steps.toNat ∧
    Trace (Expl.start ec nearDetector dwa target "map" 0.1 0.1).1 [.map sideMsg, .odom ⟨1, 1 + 1/2, 1⟩] os s ∧
    s.step (.tick (some midTf) []) = .ok (t, o) ∧ twists o = [⟨0, 1, 0⟩] := by
  obtain ⟨ec, hec⟩ := side_control omniModel unitWeights (-1) 1
  obtain ⟨ec', o, ht, ho, hp⟩ := side_tick (((Expl.start ec nearDetector
    (sideDwa 1 (UInt32.ofNat 1) (1/2) (-1) 1) ⟨[]⟩ "map" 0.1 0.1).1.mapCallback sideMsg).odomCallback ⟨1, 1 + 1/2, 1⟩)
    1 1 (1/2) (-1) 1 (by norm_num) le_rfl le_rfl (by norm_num) le_rfl (Or.inl rfl)
    ⟨ec, hec, .setTarget _ .start⟩ rfl rfl rfl rfl rfl rfl rfl rfl
  refine ⟨ec, sideDwa 1 (UInt32.ofNat 1) (1/2) (-1) 1, ⟨[]⟩, [[], []], _, _, o, hec, by decide, ?_, ht, ho⟩
  exact .snoc (es := [.map sideMsg]) (os := [[]]) (.snoc (es := []) (os := []) .nil rfl) rfl

/-- `C67_one_per_iteration`, `C67_count` and `C73_remembered` apply to that history -/
example : ∃ ec dwa target, ∃ os : List (List (Out ℝ)), ∃ s : Expl ℝ,
    Trace (Expl.start ec nearDetector dwa target "map" 0.1 0.1).1
      [.map sideMsg, .odom ⟨1, 1 + 1/2, 1⟩, .tick (some midTf) []] os s ∧
    (twists os.flatten).length = 1 ∧ s.ec.buffer.memory.length = 1 := by
  obtain ⟨ec, dwa, target, os, s, t, o, hec, hpos, htr, hs, ho⟩ := side_history
  have h : Trace _ [.map sideMsg, .odom ⟨1, 1 + 1/2, 1⟩, .tick (some midTf) []] (os ++ [o]) t := .snoc htr hs
  exact ⟨ec, dwa, target, _, t, h, (C67_count h).1.trans rfl, (C73_remembered hec h).1.trans rfl⟩

/-- `C68_safe` applies to it, and the second alternative is met -/
example : ∃ ec dwa target, ∃ os : List (List (Out ℝ)), ∃ s t : Expl ℝ, ∃ o : List (Out ℝ), ∃ u,
    Trace (Expl.start ec nearDetector dwa target "map" 0.1 0.1).1 [.map sideMsg, .odom ⟨1, 1 + 1/2, 1⟩] os s ∧
    s.step (.tick (some midTf) []) = .ok (t, o) ∧ u ∈ twists o ∧
    IsSample dwa ⟨1, 1 + 1/2, 1⟩ u ∧ FreeRollout dwa (mapOf sideMsg) midPose u := by
  obtain ⟨ec, dwa, target, os, s, t, o, hec, hpos, htr, hs, ho⟩ := side_history
  have hp : (poses (([.map sideMsg, .odom ⟨1, 1 + 1/2, 1⟩] : List (Event ℝ)) ++ [.tick (some midTf) []])).getLast? =
      some midPose := by
    simp [poses, Event.pose?, midTf, midTf_yaw, midPose]
  refine ⟨ec, dwa, target, os, s, t, o, ⟨0, 1, 0⟩, htr, hs, by rw [ho]; simp, ?_⟩
  rcases C68_safe htr hs ⟨0, 1, 0⟩ (by rw [ho]; simp) sideMsg midPose rfl hp with ⟨n, hn, h⟩ | h | h
  · rw [steps_val, Res.ok.injEq] at hn
    have := (C20_accepts_iff nearDetector (mapOf sideMsg) midPose ⟨0, 1, 0⟩ 0.1 0.1 1 steps_val).mpr
      (by rw [hn]; exact h)
    rw [side_invalid _ (by norm_num) (by norm_num)] at this
    simp at this
  · exact h
  · simp at h

/-- `C67_silent`: iterations without a map -/
example : ∃ ec dwa target, ∃ os : List (List (Out ℝ)), ∃ s : Expl ℝ,
    Trace (Expl.start ec nearDetector dwa target "map" 0.1 0.1).1
      [.tick (some midTf) [], .tick none []] os s ∧
    maps ([.tick (some midTf) [], .tick none []] : List (Event ℝ)) = [] := by
  obtain ⟨ec, hec⟩ := side_control omniModel unitWeights (-1) 1
  refine ⟨ec, sideDwa 1 1 0 0 0, ⟨[]⟩, [[], []], (Expl.start ec nearDetector (sideDwa 1 1 0 0 0) ⟨[]⟩
    "map" 0.1 0.1).1.localize (some midTf), ?_, rfl⟩
  exact .snoc (es := [.tick (some midTf) []]) (os := [[]]) (.snoc (es := []) (os := []) .nil rfl) rfl

/-- `C69_zero_steps`: a robot at rest away from the obstacle -/
example : ∃ s : Expl ℝ, s.dwa.steps = 0 ∧ s.follow_dwa = true ∧ s.map_received = true ∧
    s.pose_known = true ∧ s.i = 0 ∧
    validateControl s.collision s.grid s.pose s.u s.val_dt s.val_horizon = .ok true := by
  obtain ⟨ec, hec⟩ := side_control omniModel unitWeights (-1) 1
  refine ⟨{ (Expl.start ec nearDetector (sideDwa 0 0 0 0 0) ⟨[]⟩ "map" 0.1 0.1).1 with
    follow_dwa := true, map_received := true, pose_known := true, grid := mapOf sideMsg
    pose := ⟨1.5, 2.5, 0⟩, u := ⟨0, 0, 0⟩ }, rfl, rfl, rfl, rfl, rfl, ?_⟩
  refine (C20_accepts_iff _ _ _ _ _ _ 1 steps_val).mpr ?_
  intro k hk
  have hk0 : k = 0 := by
    have : k < 1 := hk
    omega
  subst hk0
  have := top_clear 0
  rw [straight_poses]
  norm_num
  norm_num at this
  exact this

/-- `C70_omni_partial`: measured lateral velocity 3/2, limit 1, acceleration limit 1/2 -/
example : ∃ (p : Params ℝ) (n n' : Node ℝ) (o out : List (Out ℝ)) (es : List (Event ℝ)), LimitsOk p ∧
    RecoverableAll p ⟨0, 0, 0⟩ ∧ (∀ v ∈ odoms es, RecoverableAll p v) ∧ Node.omni p = .ok (n, o) ∧
    n.run es = .ok (n', out) ∧ twists out = [⟨0, 1, 0⟩] := by
  obtain ⟨target, ec, Rinv, o, hec, hn⟩ := side_omni 1 1 (by norm_num) (by norm_num) (1/2) (-1) 1
  obtain ⟨t, out, hr, ho, -⟩ := side_run target 1 1 (1/2) (-1) 1 (by norm_num) (by norm_num)
    (by norm_num) (by norm_num) (by norm_num) (Or.inl rfl) hec
  refine ⟨_, _, _, _, out, _, ?_, ?_, ?_, hn, node_run_of_expl _ lt_two_one _ _ _ hr, ho⟩
  · simp only [LimitsOk, WithinParams, sideParams]
    norm_num
  · simp only [RecoverableAll, Recoverable, sideParams]
    norm_num
  · simp only [odoms, Event.odom?, List.filterMap_cons, List.filterMap_nil, List.mem_singleton,
      RecoverableAll, Recoverable, sideParams]
    rintro v rfl
    norm_num

/-- `C70_cart_partial`: the measured lateral velocity is published -/
example : ∃ (p : Params ℝ) (n n' : Node ℝ) (o out : List (Out ℝ)) (es : List (Event ℝ)), LimitsOk p ∧
    RecoverableAll p ⟨0, 0, 0⟩ ∧ (∀ v ∈ odoms es,
      Recoverable v.c0 (p.acc_lim_x * p.acc_dt) p.min_vel_x p.max_vel_x ∧
      Recoverable v.c2 (p.acc_lim_th * p.acc_dt) p.min_rot_vel p.max_rot_vel) ∧
    Node.cart p = .ok (n, o) ∧ n.run es = .ok (n', out) ∧ twists out = [⟨0, 1, 0⟩] := by
  obtain ⟨target, ec, Rinv, o, hec, hn⟩ := side_cart 1 1 (by norm_num) (by norm_num) 0
  obtain ⟨t, out, hr, ho, -⟩ := side_run target 1 1 0 0 0 (by norm_num) (by norm_num) (by norm_num)
    le_rfl (by norm_num) (Or.inr ⟨rfl, rfl, rfl⟩) hec
  refine ⟨_, _, _, _, out, _, ?_, ?_, ?_, hn, node_run_of_expl _ lt_two_one _ _ _ hr, ho⟩
  · simp [LimitsOk, WithinParams, sideParams]
  · simp only [RecoverableAll, Recoverable, sideParams]
    norm_num
  · simp only [odoms, Event.odom?, List.filterMap_cons, List.filterMap_nil, List.mem_singleton,
      Recoverable, sideParams]
    rintro v rfl
    norm_num

/-- `C72_silent`: a window horizon of 3 s and a controller horizon of 2 s -/
example : ∃ (p : Params ℝ) (n : Node ℝ) (o : List (Out ℝ)), Flt.lt p.ec_horizon p.dwa_horizon = true ∧
    Node.omni p = .ok (n, o) := by
  obtain ⟨target, ec, Rinv, o, hec, hn⟩ := side_omni 3 3 (by norm_num) (by norm_num) (1/2) (-1) 1
  refine ⟨_, _, _, ?_, hn⟩
  simp only [sideParams, real_lt]; norm_num

/-- `C72_running` -/
example : ∃ (p : Params ℝ) (n n' : Node ℝ) (o out : List (Out ℝ)) (es : List (Event ℝ)),
    Flt.lt p.ec_horizon p.dwa_horizon = false ∧ Node.cart p = .ok (n, o) ∧ n.run es = .ok (n', out) ∧
    activeTicks es = 1 := by
  obtain ⟨target, ec, Rinv, o, hec, hn⟩ := side_cart 1 1 (by norm_num) (by norm_num) 0
  obtain ⟨t, out, hr, ho, -⟩ := side_run target 1 1 0 0 0 (by norm_num) (by norm_num) (by norm_num)
    le_rfl (by norm_num) (Or.inr ⟨rfl, rfl, rfl⟩) hec
  refine ⟨_, _, _, _, out, _, ?_, hn, node_run_of_expl _ lt_two_one _ _ _ hr, rfl⟩
  simp only [sideParams, real_lt_false]; norm_num

end Ergodic
