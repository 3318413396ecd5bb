import Verif.Lemmas.DynamicWindow
import Verif.Props.Collision
import Verif.Props.Validate

/-! # Properties of the dynamic window search (C55–C58) -/

namespace Ergodic
variable {F : Type} [Flt F]

/-! ## C55 the sampled twists -/

theorem real_fmax (a b : ℝ) : fmax a b = max a b := by
  unfold fmax
  by_cases h : a < b
  · rw [if_pos (by simpa using h), max_eq_right h.le]
  · rw [if_neg (by simpa using h), max_eq_left (not_lt.mp h)]

theorem real_fmin (a b : ℝ) : fmin a b = min a b := by
  unfold fmin
  by_cases h : b < a
  · rw [if_pos (by simpa using h), min_eq_right h.le]
  · rw [if_neg (by simpa using h), min_eq_left (not_lt.mp h)]

theorem delta_real (n : UInt32) (lo up : ℝ) (i : Nat) (hi : i < n.toNat) :
    (i : ℝ) * DynamicWindow.delta n lo up = (up - lo) * ((i : ℝ) / ((n.toNat : ℝ) - 1)) := by
  unfold DynamicWindow.delta
  by_cases h : 1 < n
  · rw [if_pos h]
    have h1 : 1 < n.toNat := by simpa [UInt32.lt_iff_toNat_lt] using h
    have h2 : (n - 1).toNat = n.toNat - 1 := by
      rw [UInt32.toNat_sub_of_le _ _ (by rw [UInt32.le_iff_toNat_le]; simp; omega)]; rfl
    simp only [real_sub, real_div, real_ofInt, h2]
    rw [show (((n.toNat - 1 : Nat) : Int) : ℝ) = (n.toNat : ℝ) - 1 by
      push_cast [Nat.cast_sub h1.le]; ring]
    ring
  · rw [if_neg h]
    have h1 : ¬ 1 < n.toNat := by simpa [UInt32.lt_iff_toNat_lt] using h
    have : i = 0 := by omega
    subst this
    simp

/-- C55: the sampled twists are exactly the points of the regular grid over the window
`[max (vb - a·Δ) min, min (vb + a·Δ) max]`, both ends included, `n` per axis (the lower end
alone when `n = 1`). -/
theorem C55_grid (d : DynamicWindow ℝ) (vb u : V3 ℝ) :
    IsSample d vb u ↔
      ∃ i < d.vx_samples.toNat, ∃ j < d.vy_samples.toNat, ∃ k < d.vth_samples.toNat,
        u.c0 = max (vb.c0 - d.acc_lim_x * d.acc_dt) d.min_vel_x +
          (min (vb.c0 + d.acc_lim_x * d.acc_dt) d.max_vel_x -
            max (vb.c0 - d.acc_lim_x * d.acc_dt) d.min_vel_x) *
            ((i : ℝ) / ((d.vx_samples.toNat : ℝ) - 1)) ∧
        u.c1 = max (vb.c1 - d.acc_lim_y * d.acc_dt) d.min_vel_y +
          (min (vb.c1 + d.acc_lim_y * d.acc_dt) d.max_vel_y -
            max (vb.c1 - d.acc_lim_y * d.acc_dt) d.min_vel_y) *
            ((j : ℝ) / ((d.vy_samples.toNat : ℝ) - 1)) ∧
        u.c2 = max (vb.c2 - d.acc_lim_th * d.acc_dt) d.min_rot_vel +
          (min (vb.c2 + d.acc_lim_th * d.acc_dt) d.max_rot_vel -
            max (vb.c2 - d.acc_lim_th * d.acc_dt) d.min_rot_vel) *
            ((k : ℝ) / ((d.vth_samples.toNat : ℝ) - 1)) := by
  obtain ⟨u0, u1, u2⟩ := u
  unfold IsSample
  refine exists_congr fun i => and_congr_right fun hi => exists_congr fun j =>
    and_congr_right fun hj => exists_congr fun k => and_congr_right fun hk => ?_
  simp only [stride_real, DynamicWindow.window, delta_real _ _ _ i hi, delta_real _ _ _ j hj,
    delta_real _ _ _ k hk, V3.mk.injEq, DynamicWindow.velLower, DynamicWindow.velUpper,
    real_fmax, real_fmin, real_add, real_sub, real_mul]

/-- The measured velocity can be brought back into `[lo, hi]` within one acceleration step,
and the limits are the right way round. -/
def Recoverable (v a lo hi : ℝ) : Prop := 0 ≤ a ∧ lo ≤ hi ∧ lo - a ≤ v ∧ v ≤ hi + a

/-- `Recoverable` on every axis. -/
def WindowNonempty (d : DynamicWindow ℝ) (vb : V3 ℝ) : Prop :=
  Recoverable vb.c0 (d.acc_lim_x * d.acc_dt) d.min_vel_x d.max_vel_x ∧
  Recoverable vb.c1 (d.acc_lim_y * d.acc_dt) d.min_vel_y d.max_vel_y ∧
  Recoverable vb.c2 (d.acc_lim_th * d.acc_dt) d.min_rot_vel d.max_rot_vel

theorem axis_in_window {v a lo hi : ℝ} (h : Recoverable v a lo hi) {n i : Nat} (hi' : i < n)
    {x : ℝ} (hx : x = max (v - a) lo + (min (v + a) hi - max (v - a) lo) *
      ((i : ℝ) / ((n : ℝ) - 1))) : (lo ≤ x ∧ x ≤ hi) ∧ |x - v| ≤ a := by
  obtain ⟨ha, hlh, h1, h2⟩ := h
  have hle : max (v - a) lo ≤ min (v + a) hi := by
    rw [max_le_iff, le_min_iff, le_min_iff]
    refine ⟨⟨?_, ?_⟩, ?_, ?_⟩ <;> linarith
  have hf : 0 ≤ (i : ℝ) / ((n : ℝ) - 1) ∧ (i : ℝ) / ((n : ℝ) - 1) ≤ 1 := by
    have hin : (i : ℝ) + 1 ≤ n := by exact_mod_cast hi'
    have hi0 : (0 : ℝ) ≤ i := Nat.cast_nonneg i
    exact ⟨div_nonneg hi0 (by linarith), div_le_one_of_le₀ (by linarith) (by linarith)⟩
  have hx1 : max (v - a) lo ≤ x := by rw [hx]; nlinarith
  have hx2 : x ≤ min (v + a) hi := by rw [hx]; nlinarith
  rw [max_le_iff] at hx1
  rw [le_min_iff] at hx2
  exact ⟨⟨hx1.2, hx2.2⟩, abs_le.mpr ⟨by linarith [hx1.1], by linarith [hx2.1]⟩⟩

/-- C55 (missing: measured velocities that cannot be brought back within the limits in one
acceleration step, see `C55_refuted`): every sampled twist is within the velocity limits and
reachable under the acceleration limits. -/
theorem C55_within_partial (d : DynamicWindow ℝ) (vb u : V3 ℝ) (h : WindowNonempty d vb)
    (hu : IsSample d vb u) : WithinLimits d u ∧ Reachable d vb u := by
  obtain ⟨i, hi, j, hj, k, hk, e0, e1, e2⟩ := (C55_grid d vb u).mp hu
  obtain ⟨w0, w1, w2⟩ := h
  have a0 := axis_in_window w0 hi e0
  have a1 := axis_in_window w1 hj e1
  have a2 := axis_in_window w2 hk e2
  exact ⟨⟨a0.1, a1.1, a2.1⟩, a0.2, a1.2, a2.2⟩

/-- C55 (same restriction): the search never looks at any other twist — two objectives that
agree on the admissible twists give the same answer. -/
theorem C55_only_admissible_partial (d : DynamicWindow ℝ) (vb : V3 ℝ) (h : WindowNonempty d vb)
    (c1 c2 : V3 ℝ → Res ℝ)
    (hc : ∀ u, WithinLimits d u → Reachable d vb u → c1 u = c2 u) :
    d.searchWindow vb c1 = d.searchWindow vb c2 := by
  rw [searchWindow_eq, searchWindow_eq, foldlM_consider_congr]
  intro u hu
  obtain ⟨w, r⟩ := C55_within_partial d vb u h ((mem_visited d vb u).mp hu)
  exact hc u w r

/-- The state of a finished search, in words of the specification. -/
theorem searchWindow_spec [StrictLt F] (d : DynamicWindow F) (vb : V3 F) (cost : V3 F → Res F)
    (b : Bool) (u : V3 F) (h : d.searchWindow vb cost = .ok (b, u)) :
    ∃ m, (∀ v, IsSample d vb v → ∃ c, cost v = .ok c ∧ Flt.lt c m = false) ∧
      (b = false ↔ almostEqual m Flt.maxFin = true) ∧
      ((m = Flt.maxFin ∧ u = V3.zero) ∨
        (Flt.lt m Flt.maxFin = true ∧ IsSample d vb u ∧ cost u = .ok m ∧
          ∃ l1 l2, visited d vb = l1 ++ u :: l2 ∧ ∀ v ∈ l1, cost v ≠ .ok m)) := by
  rw [searchWindow_eq] at h
  obtain ⟨⟨m, u'⟩, hs, h⟩ := Res.bind_eq_ok.mp h
  obtain ⟨h1, h2⟩ := foldlM_consider _ _ _ hs
  have hb : u = u' ∧ (b = false ↔ almostEqual m Flt.maxFin = true) := by
    by_cases ha : almostEqual m (Flt.maxFin : F) = true
    · simp only [ha, if_true, Res.ok.injEq, Prod.mk.injEq] at h
      exact ⟨h.2.symm, by simp [← h.1, ha]⟩
    · simp only [ha, Bool.false_eq_true, if_false, Res.ok.injEq, Prod.mk.injEq] at h
      exact ⟨h.2.symm, by simp [← h.1, ha]⟩
  obtain ⟨rfl, hb⟩ := hb
  refine ⟨m, fun v hv => h1 v ((mem_visited d vb v).mpr hv), hb, ?_⟩
  rcases h2 with h2 | ⟨h2, l1, l2, h3, h4, h5⟩
  · simp only [Prod.mk.injEq] at h2
    exact Or.inl h2
  · refine Or.inr ⟨h2, (mem_visited d vb u).mp (by rw [h3]; simp), h4, l1, l2, h3, h5⟩

/-- C55 (same restriction): a returned twist is admissible, or zero when nothing was
found; this holds for both `control` functions. -/
theorem C55_result_partial (d : DynamicWindow ℝ) (vb : V3 ℝ) (h : WindowNonempty d vb)
    (g : GridMap ℝ) (x0 vref : V3 ℝ) (ref : List (V3 ℝ)) (dt_ref : ℝ) (b : Bool) (u : V3 ℝ)
    (hc : d.controlTwist g x0 vb vref = .ok (b, u) ∨ d.controlTraj g x0 vb ref dt_ref = .ok (b, u)) :
    (WithinLimits d u ∧ Reachable d vb u) ∨ (b = false ∧ u = V3.zero) := by
  have key : ∀ cost : V3 ℝ → Res ℝ, d.searchWindow vb cost = .ok (b, u) →
      (WithinLimits d u ∧ Reachable d vb u) ∨ (b = false ∧ u = V3.zero) := by
    intro cost hs
    obtain ⟨m, -, hb, (⟨rfl, rfl⟩ | ⟨-, hu, -⟩)⟩ := searchWindow_spec d vb cost b u hs
    · exact Or.inr ⟨hb.mpr StrictLt.max_close, rfl⟩
    · exact Or.inl (C55_within_partial d vb u h hu)
  rcases hc with hc | hc
  · exact key _ hc
  · exact key _ hc

/-- The full statement of C55: no condition on the measured velocity. -/
def C55_statement : Prop :=
  ∀ (d : DynamicWindow ℝ) (vb u : V3 ℝ),
    d.min_vel_x ≤ d.max_vel_x → d.min_vel_y ≤ d.max_vel_y → d.min_rot_vel ≤ d.max_rot_vel →
    0 ≤ d.acc_lim_x * d.acc_dt → 0 ≤ d.acc_lim_y * d.acc_dt → 0 ≤ d.acc_lim_th * d.acc_dt →
    IsSample d vb u → WithinLimits d u ∧ Reachable d vb u

/-- C55, the failure in general: when the robot is measured to move faster than the limit by
more than one acceleration step, the window is turned inside out and every sample but those
at its far end exceeds the limit. -/
theorem C55_inverted (d : DynamicWindow ℝ) (vb u : V3 ℝ)
    (h : d.max_vel_x < vb.c0 - d.acc_lim_x * d.acc_dt) (hl : d.min_vel_x ≤ d.max_vel_x)
    (ha : 0 ≤ d.acc_lim_x * d.acc_dt)
    (i j k : Nat) (hi : i = 0 ∨ i + 1 < d.vx_samples.toNat)
    (hn : 0 < d.vx_samples.toNat)
    (hu : u = ⟨stride (d.window vb).1.c0 (d.window vb).2.c0 i,
         stride (d.window vb).1.c1 (d.window vb).2.c1 j,
         stride (d.window vb).1.c2 (d.window vb).2.c2 k⟩) : d.max_vel_x < u.c0 := by
  subst hu
  have hi' : i < d.vx_samples.toNat := by omega
  simp only [stride_real, DynamicWindow.window, delta_real _ _ _ i hi', DynamicWindow.velLower,
    DynamicWindow.velUpper, real_fmax, real_fmin, real_add, real_sub, real_mul]
  rw [max_eq_left (by linarith), min_eq_right (by linarith)]
  have hf : (i : ℝ) / ((d.vx_samples.toNat : ℝ) - 1) < 1 := by
    rcases hi with rfl | hi
    · simp
    · have : (i : ℝ) + 1 < d.vx_samples.toNat := by exact_mod_cast hi
      have hi0 : (0 : ℝ) ≤ i := Nat.cast_nonneg i
      rw [div_lt_one (by linarith)]
      linarith
  nlinarith

/-- A collision detector, a 40 × 40 map of unknown cells around the origin and the parameters
of the repository's omnidirectional robot (`config/explore_omni.yaml`) with `n` samples per
axis; used to show that the hypotheses of this file can be met. -/
noncomputable def dwaCollision : Collision ℝ := ⟨0.7, 1, 0.2, 0.8⟩

@[inherit_doc dwaCollision]
noncomputable def dwaRobot (n steps : UInt32) (dt : ℝ) : DynamicWindow ℝ :=
  { collision := dwaCollision, dt := dt, horizon := 0.5, acc_dt := 0.2
    acc_lim_x := 1, acc_lim_y := 1, acc_lim_th := 1
    max_vel_x := 1, min_vel_x := -1, max_vel_y := 1, min_vel_y := -1
    max_rot_vel := 2, min_rot_vel := -2
    vx_samples := n, vy_samples := n, vth_samples := n, steps := steps }

@[inherit_doc dwaCollision]
noncomputable def unknownMap : GridMap ℝ :=
  { xmin := -20, xmax := 20, ymin := -20, ymax := 20, resolution := 1
    xsize := 40, ysize := 40, data := List.replicate 1600 (-1) }

example : WindowNonempty (dwaRobot 3 5 0.1) ⟨0.5, 0, 0⟩ ∧
    IsSample (dwaRobot 3 5 0.1) ⟨0.5, 0, 0⟩ ⟨0.7, 0, -0.2⟩ := by
  refine ⟨?_, ?_⟩
  · simp only [WindowNonempty, Recoverable, dwaRobot]; norm_num
  · rw [C55_grid]
    refine ⟨2, by simp [dwaRobot], 1, by simp [dwaRobot], 0, by simp [dwaRobot], ?_⟩
    simp only [dwaRobot, show UInt32.toNat 3 = 3 from rfl]
    norm_num

/-- C55 is false: at a measured 2 m/s with a limit of 1 m/s the first sample is 1.8 m/s. -/
theorem C55_refuted : ¬ C55_statement := by
  intro h
  have hs : IsSample (dwaRobot 3 5 0.1) ⟨2, 0, 0⟩ _ :=
    ⟨0, by simp [dwaRobot], 0, by simp [dwaRobot], 0, by simp [dwaRobot], rfl⟩
  have := (h (dwaRobot 3 5 0.1) ⟨2, 0, 0⟩ _ (by norm_num [dwaRobot]) (by norm_num [dwaRobot])
    (by norm_num [dwaRobot]) (by norm_num [dwaRobot]) (by norm_num [dwaRobot])
    (by norm_num [dwaRobot]) hs).1.1.2
  have h2 := C55_inverted (dwaRobot 3 5 0.1) ⟨2, 0, 0⟩ _ (by norm_num [dwaRobot])
    (by norm_num [dwaRobot]) (by norm_num [dwaRobot]) 0 0 0 (Or.inl rfl)
    (by simp [dwaRobot]) rfl
  linarith

/-! ## C56 safety and optimality -/

/-- C56, in every arithmetic with a strict `<` (IEEE doubles included): if the search reports
success, the returned twist is a sample, no pose of its rollout collides, no sampled
collision-free twist has a smaller error to the reference twist, and no earlier sample has
the same cost. -/
theorem C56_optimal [StrictLt F] (d : DynamicWindow F) (g : GridMap F) (x0 vb vref u : V3 F)
    (h : d.controlTwist g x0 vb vref = .ok (true, u)) :
    IsSample d vb u ∧ FreeRollout d g x0 u ∧
    (∀ v, IsSample d vb v → FreeRollout d g x0 v →
      Flt.lt ((vref.sub v).dot (vref.sub v)) ((vref.sub u).dot (vref.sub u)) = false) ∧
    ∃ l1 l2, visited d vb = l1 ++ u :: l2 ∧ ∀ v ∈ l1, FreeRollout d g x0 v →
      (vref.sub v).dot (vref.sub v) ≠ (vref.sub u).dot (vref.sub u) := by
  obtain ⟨m, h1, hb, h2⟩ := searchWindow_spec d vb _ true u h
  rcases h2 with ⟨rfl, rfl⟩ | ⟨hlt, hu, hm, l1, l2, hl, hf⟩
  · have := hb.mpr StrictLt.max_close
    cases this
  · rcases (objectiveTwist_ok d g x0 vref u m).mp hm with ⟨hfree, rfl⟩ | ⟨-, rfl⟩
    · refine ⟨hu, hfree, fun v hv hvf => ?_, l1, l2, hl, fun v hv hvf he => ?_⟩
      · obtain ⟨c, hc, hlt'⟩ := h1 v hv
        rcases (objectiveTwist_ok d g x0 vref v c).mp hc with ⟨-, rfl⟩ | ⟨hhit, -⟩
        · exact hlt'
        · exact absurd hvf (not_free_of_hit hhit)
      · exact hf v hv ((objectiveTwist_ok d g x0 vref v _).mpr (Or.inl ⟨hvf, he.symm⟩))
    · rw [StrictLt.irrefl] at hlt
      cases hlt

theorem twistErrSq_eq (a b : V3 ℝ) : (a.sub b).dot (a.sub b) = twistErrSq a b := by
  simp only [V3.sub, V3.dot, twistErrSq, real_add, real_mul, real_sub]; ring

/-- C56: the search looks at the requested number of velocities on each axis, and at one when none
is requested. -/
theorem C56_sample_count (c : Collision F)
    (dt horizon acc_dt ax ay ath maxx minx maxy miny maxr minr : F) (nx ny nth : UInt32)
    (d : DynamicWindow F)
    (h : DynamicWindow.new c dt horizon acc_dt ax ay ath maxx minx maxy miny maxr minr nx ny nth = .ok d)
    (vb : V3 F) :
    (visited d vb).length = max 1 nx.toNat * max 1 ny.toNat * max 1 nth.toNat := by
  have key : ∀ n : UInt32, (DynamicWindow.atLeastOne n).toNat = max 1 n.toNat := by
    intro n
    unfold DynamicWindow.atLeastOne
    by_cases h0 : n = 0
    · rw [if_pos h0, h0]; rfl
    · rw [if_neg h0]
      have : n.toNat ≠ 0 := fun hc => h0 (UInt32.toNat_inj.mp hc)
      omega
  obtain ⟨s, -, hd⟩ := Res.bind_eq_ok.mp h
  simp only [Res.ok.injEq] at hd
  subst hd
  simp only [visited, sampleList, List.length_flatMap, List.length_map, List.length_range, key,
    List.map_const', List.sum_replicate, smul_eq_mul]
  ring

/-- C56 over the reals: the returned twist is a closest collision-free sample to the
reference twist. -/
theorem C56_nearest (d : DynamicWindow ℝ) (g : GridMap ℝ) (x0 vb vref u : V3 ℝ)
    (h : d.controlTwist g x0 vb vref = .ok (true, u)) :
    FreeRollout d g x0 u ∧ IsSample d vb u ∧
    ∀ v, IsSample d vb v → FreeRollout d g x0 v → twistErrSq vref u ≤ twistErrSq vref v := by
  obtain ⟨h1, h2, h3, -⟩ := C56_optimal d g x0 vb vref u h
  refine ⟨h2, h1, fun v hv hf => ?_⟩
  have := h3 v hv hf
  rw [real_lt_false, twistErrSq_eq, twistErrSq_eq] at this
  exact this

/-- What the trajectory objective returns, over the reals: with every matched reference
column in range, the summed pose distance of a collision-free rollout, the sentinel
otherwise. -/
theorem objectiveTraj_ok (d : DynamicWindow ℝ) (hdt : 0 ≤ d.dt) (g : GridMap ℝ) (x0 u : V3 ℝ)
    (ref : List (V3 ℝ)) (hn : 1 ≤ ref.length) (hN : ref.length ≤ 2 ^ 32) {tf : ℝ} (htf : 0 < tf)
    (c : ℝ) :
    d.objectiveTraj g x0 u ref tf = .ok c ↔
      (FreeRollout d g x0 u ∧
        (∀ k < d.steps.toNat, refIndex ref.length (k * d.dt) tf < ref.length) ∧
        c = trackCost d.steps.toNat d.dt tf ref x0 u) ∨
      (c = Flt.maxFin ∧ ∃ k < d.steps.toNat,
        d.collision.collisionCheck g (poseAfter u d.dt x0 (k + 1)) = .ok true ∧
        ∀ l < k, d.collision.collisionCheck g (poseAfter u d.dt x0 (l + 1)) = .ok false ∧
          refIndex ref.length (l * d.dt) tf < ref.length) := by
  rw [DynamicWindow.objectiveTraj, real_lit, Int.cast_zero, zero_div]
  rw [trajLoop_ok d hdt g u ref hn hN htf d.steps.toNat x0 le_rfl 0 c]
  simp only [zero_add, FreeRollout, trackCost]

/-- C56 for a reference trajectory: the returned twist is collision-free and follows the
reference at least as closely as every collision-free sample. -/
theorem C56_tracks_best (d : DynamicWindow ℝ) (hdt : 0 ≤ d.dt) (g : GridMap ℝ) (x0 vb u : V3 ℝ)
    (ref : List (V3 ℝ)) (hn : 1 ≤ ref.length) (hN : ref.length ≤ 2 ^ 32) (dt_ref : ℝ)
    (hr : 0 < dt_ref) (h : d.controlTraj g x0 vb ref dt_ref = .ok (true, u)) :
    FreeRollout d g x0 u ∧ IsSample d vb u ∧
    ∀ v, IsSample d vb v → FreeRollout d g x0 v →
      trackCost d.steps.toNat d.dt (ref.length * dt_ref) ref x0 u ≤
        trackCost d.steps.toNat d.dt (ref.length * dt_ref) ref x0 v := by
  have htf : (0:ℝ) < (Flt.ofInt ref.length *. dt_ref : ℝ) := by
    simp only [real_mul, real_ofInt, Int.cast_natCast]
    have : (1:ℝ) ≤ ref.length := by exact_mod_cast hn
    positivity
  have e : (Flt.ofInt ref.length *. dt_ref : ℝ) = ref.length * dt_ref := by simp
  obtain ⟨m, h1, hb, h2⟩ := searchWindow_spec d vb _ true u h
  rcases h2 with ⟨rfl, rfl⟩ | ⟨hlt, hu, hm, -⟩
  · have := hb.mpr StrictLt.max_close
    cases this
  · rcases (objectiveTraj_ok d hdt g x0 u ref hn hN htf m).mp hm with ⟨hfree, -, rfl⟩ | ⟨rfl, -⟩
    · refine ⟨hfree, hu, fun v hv hvf => ?_⟩
      obtain ⟨c, hc, hlt'⟩ := h1 v hv
      rcases (objectiveTraj_ok d hdt g x0 v ref hn hN htf c).mp hc with
        ⟨-, -, rfl⟩ | ⟨-, k, hk, hit, -⟩
      · rw [real_lt_false, e] at hlt'
        exact hlt'
      · rw [hvf k hk] at hit
        simp at hit
    · rw [StrictLt.irrefl] at hlt
      cases hlt

/-! ## C57 failure of the search -/

/-- C57, in every arithmetic with a strict `<`: if every sampled twist collides the search
reports failure and returns the zero twist. -/
theorem C57_all_collide [StrictLt F] (d : DynamicWindow F) (g : GridMap F) (x0 vb vref : V3 F)
    (h : ∀ v, IsSample d vb v → HitRollout d g x0 v) :
    d.controlTwist g x0 vb vref = .ok (false, V3.zero) := by
  have hc : ∀ v, IsSample d vb v → d.objectiveTwist g x0 vref v = .ok Flt.maxFin := fun v hv =>
    (objectiveTwist_ok d g x0 vref v _).mpr (Or.inr ⟨h v hv, rfl⟩)
  obtain ⟨r, hr⟩ := foldlM_consider_total (visited d vb)
    (fun v hv => ⟨_, hc v ((mem_visited d vb v).mp hv)⟩) (Flt.maxFin, V3.zero)
  have hs : d.controlTwist g x0 vb vref =
      if almostEqual r.1 Flt.maxFin then .ok (false, r.2) else .ok (true, r.2) := by
    rw [DynamicWindow.controlTwist, searchWindow_eq, hr, Res.ok_bind]
  obtain ⟨-, h2⟩ := foldlM_consider _ _ _ hr
  rcases h2 with rfl | ⟨h2, l1, l2, h3, h4, -⟩
  · rw [hs, if_pos StrictLt.max_close]
  · have := hc r.2 ((mem_visited d vb _).mp (by rw [h3]; simp))
    rw [this] at h4
    simp only [Res.ok.injEq] at h4
    rw [← h4, StrictLt.irrefl] at h2
    cases h2

theorem maxFin_large : (2 : ℝ) ^ 1000 + 1 < 2 ^ 1024 - 2 ^ 971 := by
  have h1 : (2 : ℝ) ^ 1024 = 2 ^ 53 * 2 ^ 971 := by rw [← pow_add]
  have h2 : (2 : ℝ) ^ 1000 = 2 ^ 29 * 2 ^ 971 := by rw [← pow_add]
  have h3 : (1 : ℝ) ≤ 2 ^ 971 := one_le_pow₀ (by norm_num)
  rw [h1, h2]
  generalize (2 : ℝ) ^ 971 = x at h3
  norm_num
  linarith

theorem not_close_maxFin {m : ℝ} (h : m ≤ 2 ^ 1000) :
    ¬ almostEqual m (Flt.maxFin : ℝ) = true := by
  have h6 := maxFin_large
  rw [← real_maxFin] at h6
  simp only [almostEqual, real_fabs, real_sub, real_lit, real_lt]
  generalize (Flt.maxFin : ℝ) = M at h6
  generalize (2 : ℝ) ^ 1000 = B at h h6
  intro hc
  have h5 := (abs_lt.mp hc).1
  have h7 : ((1 : Int) : ℝ) / 10 ^ 12 ≤ 1 := by norm_num
  linarith

/-- C57 (missing: reference twists so large, or not numbers, that a squared error reaches the
sentinel, see `C57_refuted`): the search reports failure exactly when every sampled twist
collides, and then returns the zero twist. -/
theorem C57_false_iff_partial (d : DynamicWindow ℝ) (g : GridMap ℝ) (x0 vb vref : V3 ℝ)
    (hb : ∀ v, IsSample d vb v → twistErrSq vref v ≤ 2 ^ 1000) (b : Bool) (u : V3 ℝ)
    (h : d.controlTwist g x0 vb vref = .ok (b, u)) :
    (b = false ↔ ∀ v, IsSample d vb v → HitRollout d g x0 v) ∧ (b = false → u = V3.zero) := by
  have hiff : b = false ↔ ∀ v, IsSample d vb v → HitRollout d g x0 v := by
    constructor
    · rintro rfl v hv
      obtain ⟨m, h1, hm, -⟩ := searchWindow_spec d vb _ false u h
      obtain ⟨c, hc, hlt⟩ := h1 v hv
      rcases (objectiveTwist_ok d g x0 vref v c).mp hc with ⟨-, rfl⟩ | ⟨hhit, -⟩
      · have hm' := hm.mp rfl
        rw [real_lt_false, twistErrSq_eq] at hlt
        exact absurd hm' (not_close_maxFin (hlt.trans (hb v hv)))
      · exact hhit
    · intro hall
      rw [C57_all_collide d g x0 vb vref hall] at h
      simp only [Res.ok.injEq, Prod.mk.injEq] at h
      exact h.1.symm
  refine ⟨hiff, fun hbf => ?_⟩
  rw [C57_all_collide d g x0 vb vref (hiff.mp hbf)] at h
  simp only [Res.ok.injEq, Prod.mk.injEq] at h
  exact h.2.symm

/-- C57 for a reference trajectory, when every matched column is in range and the reference
is not absurdly far away. -/
theorem C57_traj_partial (d : DynamicWindow ℝ) (hdt : 0 ≤ d.dt) (g : GridMap ℝ) (x0 vb : V3 ℝ)
    (ref : List (V3 ℝ)) (hn : 1 ≤ ref.length) (hN : ref.length ≤ 2 ^ 32) (dt_ref : ℝ)
    (hr : 0 < dt_ref)
    (hb : ∀ v, IsSample d vb v →
      trackCost d.steps.toNat d.dt (ref.length * dt_ref) ref x0 v ≤ 2 ^ 1000)
    (b : Bool) (u : V3 ℝ) (h : d.controlTraj g x0 vb ref dt_ref = .ok (b, u)) :
    (b = false ↔ ∀ v, IsSample d vb v → HitRollout d g x0 v) ∧ (b = false → u = V3.zero) := by
  have htf : (0:ℝ) < (Flt.ofInt ref.length *. dt_ref : ℝ) := by
    simp only [real_mul, real_ofInt, Int.cast_natCast]
    have : (1:ℝ) ≤ ref.length := by exact_mod_cast hn
    positivity
  have e : (Flt.ofInt ref.length *. dt_ref : ℝ) = ref.length * dt_ref := by simp
  obtain ⟨m, h1, hm, h2⟩ := searchWindow_spec d vb _ b u h
  have hcost : ∀ v, IsSample d vb v → (HitRollout d g x0 v ∧ m ≤ Flt.maxFin) ∨
      (FreeRollout d g x0 v ∧ m ≤ trackCost d.steps.toNat d.dt (ref.length * dt_ref) ref x0 v) := by
    intro v hv
    obtain ⟨c, hc, hlt⟩ := h1 v hv
    rw [real_lt_false] at hlt
    rcases (objectiveTraj_ok d hdt g x0 v ref hn hN htf c).mp hc with
      ⟨hf, -, rfl⟩ | ⟨rfl, k, hk, hit, hl⟩
    · rw [e] at hlt
      exact Or.inr ⟨hf, hlt⟩
    · exact Or.inl ⟨⟨k, hk, hit, fun l hlk => (hl l hlk).1⟩, hlt⟩
  have big : m ≤ 2 ^ 1000 → b = true := by
    intro hle
    by_contra hcon
    exact not_close_maxFin hle (hm.mp (by simpa using hcon))
  have fwd : b = false → ∀ v, IsSample d vb v → HitRollout d g x0 v := by
    rintro rfl v hv
    rcases hcost v hv with ⟨hhit, -⟩ | ⟨-, hle⟩
    · exact hhit
    · have := big (hle.trans (hb v hv))
      cases this
  have bwd : (∀ v, IsSample d vb v → HitRollout d g x0 v) → b = false ∧ u = V3.zero := by
    intro hall
    rcases h2 with ⟨rfl, rfl⟩ | ⟨hlt, hu, hmu, -⟩
    · exact ⟨hm.mpr StrictLt.max_close, rfl⟩
    · exfalso
      rcases (objectiveTraj_ok d hdt g x0 u ref hn hN htf m).mp hmu with ⟨hf, -⟩ | ⟨rfl, -⟩
      · exact not_free_of_hit (hall u hu) hf
      · rw [StrictLt.irrefl] at hlt
        cases hlt
  exact ⟨⟨fwd, fun hall => (bwd hall).1⟩, fun hbf => (bwd (fwd hbf)).2⟩

/-- The full statement of C57 for numbers with special values. -/
def C57_statement : Prop :=
  ∀ (d : DynamicWindow Dbl) (g : GridMap Dbl) (x0 vb vref u : V3 Dbl),
    d.controlTwist g x0 vb vref = .ok (false, u) →
      ∀ v, IsSample d vb v → HitRollout d g x0 v

/-- C57, special values: with a reference twist that is not a number the search never
succeeds, whatever the map. -/
theorem C57_nan (d : DynamicWindow Dbl) (g : GridMap Dbl) (x0 vb vref : V3 Dbl)
    (hn : vref.c0 = Dbl.nan ∨ vref.c1 = Dbl.nan ∨ vref.c2 = Dbl.nan) (b : Bool) (u : V3 Dbl)
    (h : d.controlTwist g x0 vb vref = .ok (b, u)) : b = false ∧ u = V3.zero := by
  obtain ⟨m, h1, hm, h2⟩ := searchWindow_spec d vb _ b u h
  rcases h2 with ⟨rfl, rfl⟩ | ⟨hlt, hu, hmu, -⟩
  · exact ⟨hm.mpr StrictLt.max_close, rfl⟩
  · exfalso
    rcases (objectiveTwist_ok d g x0 vref u m).mp hmu with ⟨-, rfl⟩ | ⟨-, rfl⟩
    · have : (vref.sub u).dot (vref.sub u) = Dbl.nan := by
        rcases hn with hn | hn | hn <;> simp [V3.sub, V3.dot, hn]
      rw [this, Dbl.lt_nan_left] at hlt
      cases hlt
    · rw [StrictLt.irrefl] at hlt
      cases hlt

/-- A robot at rest on a map of unknown cells, one sample per axis. -/
noncomputable def restRobot : DynamicWindow Dbl :=
  { collision := ⟨.fin 0.7, .fin 1, .fin 0.2, .fin 0.8⟩, dt := .fin 0.1, horizon := .fin 0.5
    acc_dt := .fin 0, acc_lim_x := .fin 1, acc_lim_y := .fin 1, acc_lim_th := .fin 1
    max_vel_x := .fin 1, min_vel_x := .fin (-1), max_vel_y := .fin 1, min_vel_y := .fin (-1)
    max_rot_vel := .fin 2, min_rot_vel := .fin (-2)
    vx_samples := 1, vy_samples := 1, vth_samples := 1, steps := 5 }

@[inherit_doc restRobot]
noncomputable def restMap : GridMap Dbl :=
  { xmin := .fin 0, xmax := .fin 2, ymin := .fin 0, ymax := .fin 2, resolution := .fin 1
    xsize := 2, ysize := 2, data := List.replicate 4 (-1) }

@[inherit_doc restRobot]
noncomputable def restPose : V3 Dbl := ⟨.fin 0.5, .fin 0.5, .fin 0⟩

theorem rest_step : stepPose V3.zero (.fin 0.1) restPose = restPose := by
  have h1 : ⌊(0 + Real.pi) / (2 * Real.pi)⌋ = 0 := by
    rw [zero_add, Int.floor_eq_zero_iff]
    have := Real.pi_pos
    constructor
    · positivity
    · rw [div_lt_one (by positivity)]; linarith
  have hn : normalizeAnglePI (Dbl.fin 0) = Dbl.fin 0 := by
    have hp := Real.pi_pos
    simp only [normalizeAnglePI, Dbl.lit_eq, Dbl.pi_eq, Dbl.add_fin, Dbl.mul_fin]
    norm_num
    rw [Dbl.div_fin _ (by positivity), Dbl.floor_fin]
    have h1' : ⌊Real.pi / (2 * Real.pi)⌋ = 0 := by rwa [zero_add] at h1
    simp only [h1', Dbl.mul_fin, Dbl.sub_fin]
    rw [if_neg (by rw [Dbl.lt_fin]; simpa using hp.le)]
    simp
  have ha : almostEqual (Dbl.fin 0) (Dbl.fin 0) (Dbl.fin (((1 : Int) : ℝ) / 10 ^ 12)) = true := by
    simp only [almostEqual, Dbl.sub_fin, Dbl.fabs_fin, Dbl.lt_fin]
    norm_num
  have hi : integrateTwist restPose V3.zero (.fin 0.1) = restPose := by
    simp only [integrateTwist, V3.zero, Dbl.lit_eq, Int.cast_zero, zero_div, ha, if_true, restPose,
      Dbl.mul_fin, zero_mul, transform2dAngle, M3.mulVec, V3.dot, V3.add, Dbl.cos_fin, Dbl.sin_fin,
      Dbl.neg_fin, Dbl.add_fin, mul_zero, add_zero]
  simp only [stepPose, hi]
  rw [show restPose.c2 = Dbl.fin 0 from rfl, hn]
  rfl

theorem rest_clear : restRobot.collision.collisionCheck restMap restPose = .ok false := by
  have c0 : castU32 (Dbl.fin 0) = .ok 0 := by simp [castU32, realTrunc]
  have i0 : castI32 (Dbl.fin 0) = .ok 0 := by simp [castI32, realTrunc]
  have i1 : castI32 (Dbl.fin 1) = .ok 1 := by simp [castI32, realTrunc]
  have f1 : ⌊(0.5 : ℝ)⌋ = 0 := by rw [Int.floor_eq_zero_iff]; constructor <;> norm_num
  have f2 : ⌊(0.7 : ℝ)⌋ = 0 := by rw [Int.floor_eq_zero_iff]; constructor <;> norm_num
  have f3 : ⌊(0.7 + 0.2 : ℝ)⌋ = 0 := by rw [Int.floor_eq_zero_iff]; constructor <;> norm_num
  have hcfg : restRobot.collision.config restMap restPose =
      .ok { r_bnd := 0, r_col := 0, r_max := 1, cx := 0, cy := 0 } := by
    simp only [Collision.config, GridMap.world2Grid, restRobot, restMap, restPose, Dbl.sub_fin,
      sub_zero, Dbl.add_fin, Dbl.div_fin _ one_ne_zero, div_one, Dbl.floor_fin, f1, f2, f3,
      Int.floor_one, Int.cast_zero, Int.cast_one, c0, i0, i1, Res.ok_bind]
    rfl
  refine (C31_nothing_reported _ _ ?_ _ _ hcfg ?_ ?_).1
  · exact ⟨by simp [Fits, numCells, restMap], by simp [numCells, restMap]⟩
  · constructor <;> simp [restMap]
  · rintro i j ⟨-, -, -, -, v, hv, hlt⟩
    have hv' : v = -1 := List.eq_of_mem_replicate (List.mem_of_getElem? hv)
    subst hv'
    simp only [restRobot, Dbl.lit_eq, Dbl.ofInt_eq] at hlt
    rw [Dbl.div_fin _ (by norm_num), Dbl.lt_fin_false, show ((-1 : Int8).toInt) = -1 from by decide]
      at hlt
    norm_num at hlt

theorem rest_free : FreeRollout restRobot restMap restPose V3.zero := by
  intro k _
  have : poseAfter V3.zero restRobot.dt restPose (k + 1) = restPose := by
    generalize k + 1 = n
    induction n with
    | zero => rfl
    | succ n ih => rw [poseAfter_succ, show restRobot.dt = .fin 0.1 from rfl, rest_step]; exact ih
  rw [this]
  exact rest_clear

theorem rest_visited : visited restRobot V3.zero = [V3.zero] := by
  have h : (restRobot.window V3.zero).1 = V3.zero := by
    simp only [DynamicWindow.window, DynamicWindow.velLower, restRobot, V3.zero, Dbl.lit_eq,
      Dbl.mul_fin, Dbl.sub_fin, fmax]
    norm_num
  have h2 : visited restRobot V3.zero = [(restRobot.window V3.zero).1] := rfl
  rw [h2, h]

/-- C57 is false with special values: a reference twist that is not a number makes the search
fail although the only sample, standing still, is collision-free. -/
theorem C57_refuted : ¬ C57_statement := by
  intro h
  have hmem : IsSample restRobot V3.zero V3.zero := by
    rw [← mem_visited, rest_visited]; simp
  have hok : ∃ r, restRobot.controlTwist restMap restPose V3.zero ⟨.nan, .nan, .nan⟩ = .ok r := by
    rw [DynamicWindow.controlTwist, searchWindow_eq, rest_visited]
    have hc := (objectiveTwist_ok restRobot restMap restPose ⟨.nan, .nan, .nan⟩ V3.zero _).mpr
      (Or.inl ⟨rest_free, rfl⟩)
    obtain ⟨s, hs⟩ := foldlM_consider_total [V3.zero]
      (cost := restRobot.objectiveTwist restMap restPose ⟨.nan, .nan, .nan⟩)
      (by intro v hv; rw [List.mem_singleton.mp hv]; exact ⟨_, hc⟩) (Flt.maxFin, V3.zero)
    rw [hs, Res.ok_bind]
    by_cases hs : almostEqual s.1 (Flt.maxFin : Dbl) = true
    · exact ⟨_, if_pos hs⟩
    · exact ⟨_, if_neg hs⟩
  obtain ⟨⟨b, u⟩, hok⟩ := hok
  obtain ⟨rfl, rfl⟩ := C57_nan _ _ _ _ _ (Or.inl rfl) b u hok
  exact not_free_of_hit (h _ _ _ _ _ _ hok _ hmem) rest_free

/-- A rollout whose every collision check returns is free or hits. -/
theorem free_or_hit (d : DynamicWindow F) (g : GridMap F) (x0 u : V3 F)
    (h : ∀ k < d.steps.toNat, ∃ b, d.collision.collisionCheck g (poseAfter u d.dt x0 (k + 1)) = .ok b) :
    FreeRollout d g x0 u ∨ HitRollout d g x0 u := by
  by_cases hf : FreeRollout d g x0 u
  · exact Or.inl hf
  · right
    classical
    have hex : ∃ k, k < d.steps.toNat ∧
        d.collision.collisionCheck g (poseAfter u d.dt x0 (k + 1)) ≠ .ok false := by
      unfold FreeRollout at hf
      push Not at hf
      exact hf
    refine ⟨Nat.find hex, (Nat.find_spec hex).1, ?_, fun l hl => ?_⟩
    · obtain ⟨b, hb⟩ := h _ (Nat.find_spec hex).1
      cases b
      · exact absurd hb (Nat.find_spec hex).2
      · exact hb
    · by_contra hc
      exact Nat.find_min hex hl ⟨by have := (Nat.find_spec hex).1; omega, hc⟩

/-- C57: on a sensible set-up on which no sampled rollout leaves the map rectangle, the search
returns a value: it neither throws nor has undefined behaviour. -/
theorem C57_total (d : DynamicWindow ℝ) (g : GridMap ℝ) (hs : Sensible d.collision g)
    (x0 vb vref : V3 ℝ)
    (hin : ∀ v, IsSample d vb v → ∀ k < d.steps.toNat,
      InRect g (poseAfter v d.dt x0 (k + 1)).c0 (poseAfter v d.dt x0 (k + 1)).c1) :
    ∃ b u, d.controlTwist g x0 vb vref = .ok (b, u) := by
  have hc : ∀ v ∈ visited d vb, ∃ c, d.objectiveTwist g x0 vref v = .ok c := by
    intro v hv
    rcases free_or_hit d g x0 v (fun k hk => (C30_no_failure d.collision g hs _
      (hin v ((mem_visited d vb v).mp hv) k hk)).1) with hf | hh
    · exact ⟨_, (objectiveTwist_ok d g x0 vref v _).mpr (Or.inl ⟨hf, rfl⟩)⟩
    · exact ⟨_, (objectiveTwist_ok d g x0 vref v _).mpr (Or.inr ⟨hh, rfl⟩)⟩
  obtain ⟨r, hr⟩ := foldlM_consider_total _ hc (Flt.maxFin, V3.zero)
  rw [DynamicWindow.controlTwist, searchWindow_eq, hr, Res.ok_bind]
  by_cases ha : almostEqual r.1 (Flt.maxFin : ℝ) = true
  · exact ⟨false, r.2, if_pos ha⟩
  · exact ⟨true, r.2, if_neg ha⟩

/-- Straight motion along the heading 0. -/
theorem straight_poses (a b dt x y : ℝ) (k : Nat) :
    poseAfter ⟨a, b, 0⟩ dt ⟨x, y, 0⟩ k = ⟨x + k * (a * dt), y + k * (b * dt), 0⟩ := by
  induction k generalizing x y with
  | zero => simp [poseAfter]
  | succ k ih =>
    have hstep : stepPose ⟨a, b, 0⟩ dt ⟨x, y, 0⟩ = (⟨x + a * dt, y + b * dt, 0⟩ : V3 ℝ) := by
      have h0 : normalizeAnglePI (0 : ℝ) = 0 :=
        C13_fixed_point 0 (by have := Real.pi_pos; linarith) Real.pi_pos
      simp only [stepPose, C18_exact_translation _ _ dt (rfl : (⟨a, b, 0⟩ : V3 ℝ).c2 = 0), flow,
        if_true, Real.cos_zero, Real.sin_zero, h0]
      simp
    rw [poseAfter_succ, hstep, ih]
    push_cast
    congr 1 <;> ring

theorem dwa_sensible : Sensible dwaCollision unknownMap := by
  refine ⟨⟨?_, ?_⟩, ?_, by decide, by decide, by decide, by decide, ?_, ?_, ?_, ?_, ?_⟩
  · show 40 * 40 < _; norm_num
  · show (List.replicate 1600 (-1 : Int8)).length = 40 * 40; rw [List.length_replicate]
  all_goals norm_num [dwaCollision, unknownMap]

theorem dwa_visited : visited (dwaRobot 1 5 0.1) ⟨0.5, 0.2, 0.2⟩ = [⟨0.3, 0, 0⟩] := by
  have h : ((dwaRobot 1 5 0.1).window ⟨0.5, 0.2, 0.2⟩).1 = ⟨0.3, 0, 0⟩ := by
    simp only [DynamicWindow.window, DynamicWindow.velLower, dwaRobot, real_fmax, real_sub, real_mul]
    norm_num
  have h2 : visited (dwaRobot 1 5 0.1) ⟨0.5, 0.2, 0.2⟩ =
      [((dwaRobot 1 5 0.1).window ⟨0.5, 0.2, 0.2⟩).1] := rfl
  rw [h2, h]

theorem dwa_in_rect (k : Nat) (hk : k < (dwaRobot 1 5 0.1).steps.toNat) :
    InRect unknownMap (poseAfter ⟨0.3, 0, 0⟩ 0.1 ⟨0, 0, 0⟩ (k + 1)).c0
      (poseAfter ⟨0.3, 0, 0⟩ 0.1 ⟨0, 0, 0⟩ (k + 1)).c1 := by
  have hk5 : k < 5 := hk
  have hk' : (k : ℝ) < 5 := by exact_mod_cast hk5
  have hk0 : (0 : ℝ) ≤ k := Nat.cast_nonneg k
  rw [straight_poses]
  simp only [InRect, unknownMap, UInt32.toNat_ofNat]
  push_cast
  norm_num
  constructor <;> linarith

theorem dwa_free : FreeRollout (dwaRobot 1 5 0.1) unknownMap ⟨0, 0, 0⟩ ⟨0.3, 0, 0⟩ := by
  intro k hk
  exact (C31_unknown_map_clear dwaCollision unknownMap dwa_sensible _ (dwa_in_rect k hk)
    (by norm_num [dwaCollision]) (by
      intro v hv
      rw [List.eq_of_mem_replicate hv]; decide)).1

/-- A successful search: one sample, five steps over unknown cells.  The hypotheses of
`C56_optimal`, `C56_nearest`, `C57_false_iff_partial` and `C57_total` are met. -/
example : (dwaRobot 1 5 0.1).controlTwist unknownMap ⟨0, 0, 0⟩ ⟨0.5, 0.2, 0.2⟩ ⟨0.5, 0, 0⟩ =
    .ok (true, ⟨0.3, 0, 0⟩) := by
  have hmem : ∀ v, IsSample (dwaRobot 1 5 0.1) ⟨0.5, 0.2, 0.2⟩ v → v = ⟨0.3, 0, 0⟩ := by
    intro v hv
    rw [← mem_visited, dwa_visited] at hv
    simpa using hv
  obtain ⟨b, u, h⟩ := C57_total (dwaRobot 1 5 0.1) unknownMap dwa_sensible ⟨0, 0, 0⟩
    ⟨0.5, 0.2, 0.2⟩ ⟨0.5, 0, 0⟩ (by
      intro v hv k hk
      rw [hmem v hv]
      exact dwa_in_rect k hk)
  have hs : IsSample (dwaRobot 1 5 0.1) ⟨0.5, 0.2, 0.2⟩ ⟨0.3, 0, 0⟩ := by
    rw [← mem_visited, dwa_visited]; simp
  have hb : b = true := by
    by_contra hc
    have := (C57_false_iff_partial _ _ _ _ _ (by
      intro v hv
      rw [hmem v hv]
      have : (1 : ℝ) ≤ 2 ^ 1000 := one_le_pow₀ (by norm_num)
      refine le_trans ?_ this
      norm_num [twistErrSq]) b u h).1.mp (by simpa using hc) _ hs
    exact not_free_of_hit this dwa_free
  subst hb
  rw [h, hmem u (C56_nearest _ _ _ _ _ _ h).2.1]

/-- A failed search: the robot stands next to a wall and cannot move. -/
noncomputable def stuckRobot : DynamicWindow ℝ :=
  { dwaRobot 1 5 0.1 with collision := gapDetector, acc_dt := 0 }

/-- The hypothesis of `C57_all_collide` is met. -/
example : ∀ v, IsSample stuckRobot ⟨0, 0, 0⟩ v → HitRollout stuckRobot wallGrid ⟨1.5, 1.5, 0⟩ v := by
  intro v hv
  have h : (stuckRobot.window ⟨0, 0, 0⟩).1 = ⟨0, 0, 0⟩ := by
    simp only [DynamicWindow.window, DynamicWindow.velLower, stuckRobot, dwaRobot, real_fmax,
      real_sub, real_mul]
    norm_num
  have h2 : visited stuckRobot ⟨0, 0, 0⟩ = [(stuckRobot.window ⟨0, 0, 0⟩).1] := rfl
  rw [← mem_visited, h2, h, List.mem_singleton] at hv
  subst hv
  refine ⟨0, by simp [stuckRobot, dwaRobot], ?_, by omega⟩
  rw [straight_poses]
  norm_num
  have := wall_collides
  norm_num at this
  exact this

/-! ## C58 indexing the reference trajectory -/

/-- C58, exact condition: over `n` steps every matched column of an `N`-column reference
exists if and only if the last one does. -/
theorem C58_in_range_iff (N n : Nat) (hN : 1 ≤ N) (dt tf : ℝ) (hdt : 0 ≤ dt) (htf : 0 < tf) :
    (∀ k < n, refIndex N (k * dt) tf < N) ↔
      (n = 0 ∨ ((N : ℝ) - 1) * ((n : ℝ) - 1) * dt < ((N : ℝ) - 1 / 2) * tf) := by
  have hN' : (1 : ℝ) ≤ N := by exact_mod_cast hN
  have key : ∀ k : Nat, refIndex N (k * dt) tf < N ↔
      ((N : ℝ) - 1) * k * dt < ((N : ℝ) - 1 / 2) * tf := by
    intro k
    have hk : (0 : ℝ) ≤ k := Nat.cast_nonneg k
    unfold refIndex
    rw [Nat.floor_lt (by
      have : 0 ≤ ((N : ℝ) - 1) * (k * dt) / tf :=
        div_nonneg (mul_nonneg (by linarith) (mul_nonneg hk hdt)) htf.le
      linarith)]
    rw [← lt_sub_iff_add_lt, div_lt_iff₀ htf, mul_assoc]
  constructor
  · intro h
    rcases Nat.eq_zero_or_pos n with h0 | h0
    · exact Or.inl h0
    · right
      have := (key (n - 1)).mp (h (n - 1) (by omega))
      rwa [Nat.cast_sub h0, Nat.cast_one] at this
  · rintro (rfl | h) k hk
    · omega
    · rw [key]
      have hkn : (k : ℝ) ≤ n - 1 := by
        have : k + 1 ≤ n := hk
        have : (k : ℝ) + 1 ≤ n := by exact_mod_cast this
        linarith
      refine lt_of_le_of_lt ?_ h
      have : 0 ≤ ((N : ℝ) - 1) * dt := mul_nonneg (by linarith) hdt
      nlinarith

/-- The full statement of C58: as the nodes check, the dynamic window looks no further ahead
than the ergodic controller. -/
def C58_statement : Prop :=
  ∀ (ec_dt ec_horizon dwa_dt dwa_horizon : ℝ) (N n : Nat),
    0 < ec_dt → 0 < dwa_dt → dwa_horizon ≤ ec_horizon →
    N = ⌊ec_horizon / ec_dt⌋₊ → n = ⌊dwa_horizon / dwa_dt⌋₊ → 2 ≤ N →
    ∀ k < n, refIndex N (k * dwa_dt) (N * ec_dt) < N

/-- C58 (missing: dynamic window horizons more than half a column longer than the `N` columns
of the reference): every matched column exists.  The nodes' check `dwa_horizon ≤ ec_horizon`
implies this whenever `ec_horizon` is at most half a step past a multiple of `ec_dt`. -/
theorem C58_in_range_partial (ec_dt dwa_dt dwa_horizon : ℝ) (N n : Nat)
    (he : 0 < ec_dt) (hd : 0 < dwa_dt) (h : dwa_horizon ≤ (N + 1 / 2) * ec_dt)
    (hn : n = ⌊dwa_horizon / dwa_dt⌋₊) (hN : 1 ≤ N) :
    ∀ k < n, refIndex N (k * dwa_dt) (N * ec_dt) < N := by
  have hN' : (1 : ℝ) ≤ N := by exact_mod_cast hN
  rw [C58_in_range_iff N n hN dwa_dt (N * ec_dt) hd.le (by positivity)]
  rcases Nat.eq_zero_or_pos n with h0 | h0
  · exact Or.inl h0
  · right
    have h1 : (n : ℝ) ≤ dwa_horizon / dwa_dt := by
      rw [hn]
      refine Nat.floor_le ?_
      by_contra hc
      rw [hn, Nat.floor_of_nonpos (not_le.mp hc).le] at h0
      omega
    rw [le_div_iff₀ hd] at h1
    have h2 : ((n : ℝ) - 1) * dwa_dt ≤ (N + 1 / 2) * ec_dt := by nlinarith
    have h3 : ((N : ℝ) - 1) * (((n : ℝ) - 1) * dwa_dt) ≤ (N - 1) * ((N + 1 / 2) * ec_dt) :=
      mul_le_mul_of_nonneg_left h2 (by linarith)
    nlinarith

/-- C58 with the horizons as the nodes pass them: a whole number of reference steps is
enough. -/
theorem C58_whole_steps_partial (ec_dt ec_horizon dwa_dt dwa_horizon : ℝ) (N n : Nat)
    (he : 0 < ec_dt) (hd : 0 < dwa_dt) (h : dwa_horizon ≤ ec_horizon)
    (hw : ec_horizon = N * ec_dt) (hn : n = ⌊dwa_horizon / dwa_dt⌋₊) (hN : 1 ≤ N) :
    ∀ k < n, refIndex N (k * dwa_dt) (N * ec_dt) < N :=
  C58_in_range_partial ec_dt dwa_dt dwa_horizon N n he hd (by rw [hw] at h; nlinarith) hn hN

/-- The parameters of `config/explore_omni.yaml` meet the hypotheses. -/
example : (0.5 : ℝ) ≤ 2.0 ∧ (2.0 : ℝ) = (20 : Nat) * 0.1 := by norm_num

/-- C58: with the columns in range the objective never fails unless a collision check does:
on a map where every check returns, it returns a value. -/
theorem C58_total (d : DynamicWindow ℝ) (hdt : 0 ≤ d.dt) (g : GridMap ℝ) (x0 u : V3 ℝ)
    (ref : List (V3 ℝ)) (hn : 1 ≤ ref.length) (hN : ref.length ≤ 2 ^ 32) {tf : ℝ} (htf : 0 < tf)
    (hin : ∀ k < d.steps.toNat, refIndex ref.length (k * d.dt) tf < ref.length)
    (hc : FreeRollout d g x0 u ∨ HitRollout d g x0 u) :
    ∃ c, d.objectiveTraj g x0 u ref tf = .ok c := by
  rcases hc with hc | ⟨k, hk, hit, hl⟩
  · exact ⟨_, (objectiveTraj_ok d hdt g x0 u ref hn hN htf _).mpr (Or.inl ⟨hc, hin, rfl⟩)⟩
  · exact ⟨_, (objectiveTraj_ok d hdt g x0 u ref hn hN htf _).mpr
      (Or.inr ⟨rfl, k, hk, hit, fun l hlk => ⟨hl l hlk, hin l (by omega)⟩⟩)⟩

/-- C58, the failure in general: on a collision-free rollout with a matched column past the
end of the reference, the objective does not return a value. -/
theorem C58_no_value (d : DynamicWindow ℝ) (hdt : 0 ≤ d.dt) (g : GridMap ℝ) (x0 u : V3 ℝ)
    (ref : List (V3 ℝ)) (hn : 1 ≤ ref.length) (hN : ref.length ≤ 2 ^ 32) {tf : ℝ} (htf : 0 < tf)
    (hf : FreeRollout d g x0 u) (k : Nat) (hk : k < d.steps.toNat)
    (hout : ref.length ≤ refIndex ref.length (k * d.dt) tf) (c : ℝ) :
    d.objectiveTraj g x0 u ref tf ≠ .ok c := by
  intro h
  rcases (objectiveTraj_ok d hdt g x0 u ref hn hN htf c).mp h with ⟨-, hi, -⟩ | ⟨-, l, hl, hit, -⟩
  · have := hi k hk; omega
  · rw [hf l hl] at hit; simp at hit

/-- C58 is false: reference step 1 s over 3.9 s (three columns), dynamic window step 0.1 s
over the same 3.9 s; the last step matches column 3. -/
theorem C58_refuted : ¬ C58_statement := by
  intro h
  have h3 : ⌊(3.9 : ℝ) / 1⌋₊ = 3 := by
    rw [Nat.floor_eq_iff (by norm_num)]; norm_num
  have h39 : ⌊(3.9 : ℝ) / 0.1⌋₊ = 39 := by
    rw [Nat.floor_eq_iff (by norm_num)]; norm_num
  have := h 1 3.9 0.1 3.9 3 39 (by norm_num) (by norm_num) le_rfl h3.symm h39.symm (by norm_num)
  rw [C58_in_range_iff 3 39 (by norm_num) _ _ (by norm_num) (by norm_num)] at this
  rcases this with h0 | h0
  · omega
  · norm_num at h0

end Ergodic
