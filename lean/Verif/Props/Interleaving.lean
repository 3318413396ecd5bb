import Verif.Lemmas.Interleaving
import Verif.Props.ExplorationRefuted

/-!
# Property C71: map updates and the control loop

`Execution old msg gs`: the reader's accesses see, in this order, the maps `gs 0, gs 1, …` while a
callback writes `msg` over `old`.
-/

namespace Ergodic
variable {F : Type} [Flt F]

/-- At access `t` the reader sees the map after the first `σ t` assignments of the callback. -/
def Execution (old : GridMap F) (msg : OccupancyGrid F) (gs : Nat → GridMap F) : Prop :=
  ∃ σ : Nat → Nat, Monotone σ ∧ ∀ t, gs t = (stored msg (old, true) (σ t)).1

/-- C71 as listed: a check during an update gives the answer for the old map or for the new one,
both of which store a value for every cell. -/
def C71_statement (F : Type) [Flt F] : Prop :=
  ∀ (c : Collision F) (old : GridMap F) (msg : OccupancyGrid F) (gs : Nat → GridMap F) (pose : V3 F),
    WellFormed old → WellFormed (mapOf msg) → Execution old msg gs →
    c.collisionCheckI gs pose = c.collisionCheck old pose ∨
    c.collisionCheckI gs pose = c.collisionCheck (mapOf msg) pose

theorem stored_late (msg : OccupancyGrid F) (g : GridMap F) (b : Bool) (k : Nat) :
    (stored msg (g, b) (k + 9)) = (mapOf msg, true) := by
  induction k with
  | zero => rfl
  | succ k ih =>
    rw [show k + 1 + 9 = (k + 9) + 1 by omega, stored, ih]
    rfl

/-- The assignments together are `update` followed by setting the flag. -/
theorem C71_all_stored (msg : OccupancyGrid F) (g : GridMap F) (b : Bool) (k : Nat) (hk : 9 ≤ k) :
    stored msg (g, b) k = (g.update msg, true) := by
  obtain ⟨j, rfl⟩ := Nat.exists_eq_add_of_le' hk
  exact stored_late msg g b j

/-- C71 for the first map: the flag is set after the map is complete, so a loop that has seen the
flag checks against the complete map.  Missing: any later message, see `C71_refuted`. -/
theorem C71_first_map_partial (c : Collision F) (g : GridMap F) (msg : OccupancyGrid F) (pose : V3 F)
    (σ : Nat → Nat) (hσ : Monotone σ) (hflag : (stored msg (g, false) (σ 0)).2 = true) :
    c.collisionCheckI (fun t => (stored msg (g, false) (σ t)).1) pose =
      c.collisionCheck (mapOf msg) pose := by
  have h0 : 9 ≤ σ 0 := by
    by_contra hc
    have : σ 0 < 9 := by omega
    interval_cases h : σ 0 <;> simp [stored, store] at hflag
  have : (fun t => (stored msg (g, false) (σ t)).1) = fun _ => mapOf msg := by
    funext t
    rw [C71_all_stored msg g false (σ t) (h0.trans (hσ (Nat.zero_le t)))]
    rfl
  rw [this, collisionCheckI_const]

/-- C71 when the callback does not run during the check.  Missing: every execution in which it
does. -/
theorem C71_undisturbed_partial (c : Collision F) (old : GridMap F) (msg : OccupancyGrid F)
    (pose : V3 F) (gs : Nat → GridMap F)
    (h : (∀ t, gs t = (stored msg (old, true) 0).1) ∨ ∀ t, gs t = (stored msg (old, true) 8).1) :
    c.collisionCheckI gs pose = c.collisionCheck old pose ∨
    c.collisionCheckI gs pose = c.collisionCheck (mapOf msg) pose := by
  rcases h with h | h
  · left
    rw [show gs = fun _ => old from funext h, collisionCheckI_const]
  · right
    rw [show gs = fun _ => mapOf msg from funext h, collisionCheckI_const]

/-- C71 when the message changes cell values only, the cells being overwritten one by one in any
order while the check runs: the check does not fail, reports a collision only if the old or the new
map has one there, and reports one if some cell it looks at is occupied in both.  Missing: a
collision in both maps with different cells may go unreported, see `C71_refuted`. -/
theorem C71_cells_partial (c : Collision F) (old new : GridMap F) (gs : Nat → GridMap F) (pose : V3 F)
    (hold : WellFormed old) (hnew : SameFrame old new) (hgs : ∀ t, SameFrame old (gs t))
    (hmix : ∀ t i j, cellAt (gs t) i j = cellAt old i j ∨ cellAt (gs t) i j = cellAt new i j)
    (cfg : CollisionConfig) (hcfg : c.config old pose = .ok cfg) (hr : InRange old cfg) :
    ∃ b, c.collisionCheckI gs pose = .ok b ∧
      (b = true → c.collisionCheck old pose = .ok true ∨ c.collisionCheck new pose = .ok true) ∧
      ((∃ i j r, Occupied c.occupied_threshold old i j ∧ Occupied c.occupied_threshold new i j ∧
        1 ≤ r ∧ cfg.r_bnd ≤ r ∧ r ≤ cfg.r_max ∧ OnRing r (j - cfg.cx) (i - cfg.cy) ∧
        (j - cfg.cx) * (j - cfg.cx) + (i - cfg.cy) * (i - cfg.cy) ≤ cfg.r_col * cfg.r_col) →
        b = true) := by
  have hcfg' : c.config new pose = .ok cfg := by
    rw [hnew.geom]; exact hcfg
  have hr' := hr.frame hnew
  have hx : ∀ t, (gs t).xsize = old.xsize ∧ (gs t).ysize = old.ysize := fun t => by
    rw [(hgs t).geom]; exact ⟨rfl, rfl⟩
  have hxn : new.xsize = old.xsize ∧ new.ysize = old.ysize := by
    rw [hnew.geom]; exact ⟨rfl, rfl⟩
  have hocc : ∀ t i j, Occupied c.occupied_threshold (gs t) i j →
      Occupied c.occupied_threshold old i j ∨ Occupied c.occupied_threshold new i j := by
    rintro t i j ⟨h1, h2, h3, h4, v, hv, hlt⟩
    rw [(hx t).2] at h2
    rw [(hx t).1] at h4
    rcases hmix t i.toNat j.toNat with h | h
    · exact Or.inl ⟨h1, h2, h3, h4, v, by rw [← h]; exact hv, hlt⟩
    · exact Or.inr ⟨h1, by rw [hxn.2]; exact h2, h3, by rw [hxn.1]; exact h4, v,
        by rw [← h]; exact hv, hlt⟩
  have hboth : ∀ t i j, Occupied c.occupied_threshold old i j → Occupied c.occupied_threshold new i j →
      Occupied c.occupied_threshold (gs t) i j := by
    rintro t i j ⟨h1, h2, h3, h4, v, hv, hlt⟩ ⟨-, -, -, -, w, hw, hlt'⟩
    rcases hmix t i.toNat j.toNat with h | h
    · exact ⟨h1, by rw [(hx t).2]; exact h2, h3, by rw [(hx t).1]; exact h4, v, by rw [h]; exact hv, hlt⟩
    · exact ⟨h1, by rw [(hx t).2]; exact h2, h3, by rw [(hx t).1]; exact h4, w, by rw [h]; exact hw, hlt'⟩
  refine ⟨_, collisionCheckI_eq c hgs pose cfg hcfg hr, ?_, ?_⟩
  · intro hb
    obtain ⟨⟨dx, dy⟩, hp, t, ho, hd⟩ := scanI_hit _ _ _ _ hb
    obtain ⟨r, r1, r2, r3, r4⟩ := mem_sweep_cfg.mp hp
    rw [C26_exact_partial c old hold pose cfg hcfg hr, C26_exact_partial c new hnew.wf pose cfg hcfg' hr']
    have e1 : cfg.cx + dx - cfg.cx = dx := by ring
    have e2 : cfg.cy + dy - cfg.cy = dy := by ring
    rcases hocc t _ _ (by simpa [occB] using ho) with h | h
    · exact Or.inl ⟨_, _, r, h, r1, r2, r3, by rw [e1, e2]; exact r4, by rw [e1, e2]; exact hd⟩
    · exact Or.inr ⟨_, _, r, h, r1, r2, r3, by rw [e1, e2]; exact r4, by rw [e1, e2]; exact hd⟩
  · rintro ⟨i, j, r, h1, h2, r1, r2, r3, r4, hd⟩
    refine scanI_constant _ _ (j - cfg.cx, i - cfg.cy) _ _ (mem_sweep_cfg.mpr ⟨r, r1, r2, r3, r4⟩) ?_ hd
    intro t
    have e1 : cfg.cy + (i - cfg.cy) = i := by ring
    have e2 : cfg.cx + (j - cfg.cx) = j := by ring
    simp only [e1, e2, occB, decide_eq_true_eq]
    exact hboth t i j h1 h2

/-- with a message that changes cell values only, every intermediate map has the old or the new
cells -/
theorem stored_cells (old : GridMap F) (msg : OccupancyGrid F)
    (hg : mapOf msg = { old with data := msg.data }) (k : Nat) :
    (stored msg (old, true) k).1 = old ∨ (stored msg (old, true) k).1 = mapOf msg := by
  have hw : msg.width = old.xsize := congrArg GridMap.xsize hg
  have hh : msg.height = old.ysize := congrArg GridMap.ysize hg
  have hr : msg.resolution = old.resolution := congrArg GridMap.resolution hg
  have hx : msg.originX = old.xmin := congrArg GridMap.xmin hg
  have hy : msg.originY = old.ymin := congrArg GridMap.ymin hg
  have hX : axisUpper msg.originX msg.resolution msg.width = old.xmax := congrArg GridMap.xmax hg
  have hY : axisUpper msg.originY msg.resolution msg.height = old.ymax := congrArg GridMap.ymax hg
  rcases Nat.lt_or_ge k 9 with h | h
  · obtain ⟨a, b, c, d, e, f, g, i⟩ := old
    simp only at hw hh hr hx hy hX hY
    subst hw hh hr hx hy hX hY
    interval_cases k
    all_goals first
      | exact Or.inl rfl
      | exact Or.inr rfl
  · exact Or.inr (by rw [C71_all_stored msg old true k h]; rfl)

/-- C71 for a message that changes cell values only: a reported collision is one of the old or of
the new map, and with neither of them in collision none is reported.  Missing: as in
`C71_cells_partial`. -/
theorem C71_same_geometry_partial (c : Collision F) (old : GridMap F) (msg : OccupancyGrid F)
    (gs : Nat → GridMap F) (pose : V3 F) (hold : WellFormed old) (hnew : WellFormed (mapOf msg))
    (hg : mapOf msg = { old with data := msg.data }) (he : Execution old msg gs)
    (cfg : CollisionConfig) (hcfg : c.config old pose = .ok cfg) (hr : InRange old cfg) :
    ∃ b, c.collisionCheckI gs pose = .ok b ∧
      (b = true → c.collisionCheck old pose = .ok true ∨ c.collisionCheck (mapOf msg) pose = .ok true) := by
  obtain ⟨σ, -, hσ⟩ := he
  have hf : SameFrame old (mapOf msg) := ⟨hg, hnew⟩
  have hcases : ∀ t, gs t = old ∨ gs t = mapOf msg := fun t => by
    rw [hσ]; exact stored_cells old msg hg (σ t)
  obtain ⟨b, hb, h1, -⟩ := C71_cells_partial c old (mapOf msg) gs pose hold hf
    (fun t => by rcases hcases t with h | h <;> rw [h]; exacts [⟨rfl, hold⟩, hf])
    (fun t i j => by rcases hcases t with h | h <;> rw [h] <;> simp) cfg hcfg hr
  exact ⟨b, hb, h1⟩

/-! ## Refutations -/

/-- the map before: the cell to the left of the middle is occupied -/
def leftMsg : OccupancyGrid ℝ := ⟨3, 3, 1, 0, 0, [0, 0, 0, 100, 0, 0, 0, 0, 0]⟩

theorem left_wf : WellFormed (mapOf leftMsg) := ⟨by decide, by decide⟩

theorem left_occupied (i j : Int) : Occupied (4/5 : ℝ) (mapOf leftMsg) i j ↔ i = 1 ∧ j = 0 := by
  constructor
  · rintro ⟨h1, h2, h3, h4, v, hv, hlt⟩
    have h2' : i < 3 := h2
    have h4' : j < 3 := h4
    by_contra hc
    have hv0 : v = 0 := by
      obtain rfl | rfl | rfl : i = 0 ∨ i = 1 ∨ i = 2 := by omega
      all_goals obtain rfl | rfl | rfl : j = 0 ∨ j = 1 ∨ j = 2 := by omega
      all_goals first
        | exact absurd ⟨rfl, rfl⟩ hc
        | (simpa [cellAt, mapOf, leftMsg] using hv.symm)
    subst hv0
    rw [real_lt_false, show ((0 : Int8).toInt) = 0 from by decide] at hlt
    norm_num at hlt
  · rintro ⟨rfl, rfl⟩
    refine ⟨by norm_num, by decide, by norm_num, by decide, 100, rfl, ?_⟩
    rw [real_lt_false]
    have : ((100 : Int8).toInt) = 100 := by decide
    norm_num [this]

/-- C71 is false: an obstacle on the left in the old map, on the right in the new one.  The check
looks to the right before the data is replaced and to the left afterwards, and reports no collision,
although both maps have one. -/
theorem C71_refuted_missed : ∃ (c : Collision ℝ) (old : GridMap ℝ) (msg : OccupancyGrid ℝ)
    (gs : Nat → GridMap ℝ) (pose : V3 ℝ), WellFormed old ∧ WellFormed (mapOf msg) ∧
    Execution old msg gs ∧ c.collisionCheckI gs pose = .ok false ∧
    c.collisionCheck old pose = .ok true ∧ c.collisionCheck (mapOf msg) pose = .ok true := by
  have hg : mapOf sideMsg = { mapOf leftMsg with data := sideMsg.data } := rfl
  have hcfg : nearDetector.config (mapOf leftMsg) midPose =
      .ok { r_bnd := 0, r_col := 1, r_max := 1, cx := (1 : UInt32).toNat, cy := (1 : UInt32).toNat } :=
    near_config midPose 1 1 (by decide) (by decide) (by
      simp only [InHalfOpenCell, mapOf, sideMsg, UInt32.toNat_one, midPose]
      refine ⟨?_, ?_, ?_, ?_⟩ <;> norm_num)
  have hr : InRange (mapOf leftMsg)
      { r_bnd := 0, r_col := 1, r_max := 1, cx := (1 : UInt32).toNat, cy := (1 : UInt32).toNat } := by
    constructor <;> decide
  refine ⟨nearDetector, mapOf leftMsg, sideMsg, fun t => (stored sideMsg (mapOf leftMsg, true)
    (if t ≤ 5 then 0 else 8)).1, midPose, left_wf, side_wf, ⟨fun t => if t ≤ 5 then 0 else 8, ?_, fun _ => rfl⟩, ?_,
    ?_, ?_⟩
  · intro a b hab
    dsimp only
    split_ifs <;> omega
  · have hcases : ∀ t, (stored sideMsg (mapOf leftMsg, true) (if t ≤ 5 then 0 else 8)).1 =
        if t ≤ 5 then mapOf leftMsg else mapOf sideMsg := by
      intro t
      split_ifs <;> rfl
    simp only [hcases]
    rw [collisionCheckI_eq nearDetector (g := mapOf leftMsg) (fun t => by
      split_ifs
      · exact ⟨rfl, left_wf⟩
      · exact ⟨hg, side_wf⟩) midPose _ hcfg hr, Res.ok.injEq]
    have hsweep : sweep (((1:Int) - 0 + 1).toNat) 0 = [(1, 0), (0, 1), (-1, 0), (0, -1)] := by decide
    have hl : ∀ i j, occB nearDetector.occupied_threshold (mapOf leftMsg) i j = decide (i = 1 ∧ j = 0) := by
      intro i j
      simp only [occB, show nearDetector.occupied_threshold = (4/5 : ℝ) from rfl, left_occupied]
    have hs : ∀ i j, occB nearDetector.occupied_threshold (mapOf sideMsg) i j = decide (i = 1 ∧ j = 2) := by
      intro i j
      simp only [occB, show nearDetector.occupied_threshold = (4/5 : ℝ) from rfl, side_occupied]
    dsimp only
    rw [hsweep]
    simp [scanI, hl, hs]
  · refine C26_axis_partial _ _ left_wf _ _ hcfg hr 1 (by decide) (by decide)
      (by decide) (by decide) ?_
    rw [show nearDetector.occupied_threshold = (4/5 : ℝ) from rfl]
    simp only [left_occupied]
    decide
  · exact middle_collides midPose (by norm_num [midPose]) (by norm_num [midPose]) (by norm_num [midPose])
      (by norm_num [midPose])

/-- C71 is false. -/
theorem C71_refuted : ¬ C71_statement ℝ := by
  intro h
  obtain ⟨c, old, msg, gs, pose, h1, h2, h3, h4, h5, h6⟩ := C71_refuted_missed
  rcases h c old msg gs pose h1 h2 h3 with h | h
  · rw [h4, h5] at h; simp at h
  · rw [h4, h6] at h; simp at h

/-- a map that has grown upwards by two rows, all free -/
def tallMsg : OccupancyGrid ℝ := ⟨3, 5, 1, 0, 0, [0, 0, 0, 0, 0, 0, 0, 0, 0, 0, 0, 0, 0, 0, 0]⟩

/-- C71 is false in a second way: with the new size and the old data the check reads past the data
and throws, although neither map has a collision. -/
theorem C71_refuted_throws : ∃ (c : Collision ℝ) (old : GridMap ℝ) (msg : OccupancyGrid ℝ)
    (gs : Nat → GridMap ℝ) (pose : V3 ℝ), WellFormed old ∧ WellFormed (mapOf msg) ∧
    Execution old msg gs ∧ c.collisionCheckI gs pose = .throw .outOfRange ∧
    c.collisionCheck old pose = .ok false ∧ c.collisionCheck (mapOf msg) pose = .ok false := by
  have hwt : WellFormed (mapOf tallMsg) := ⟨by decide, by decide⟩
  -- the configuration depends on the geometry only
  have hcfg : ∀ data, nearDetector.config { mapOf tallMsg with data := data } ⟨1.5, 2.5, 0⟩ =
      .ok { r_bnd := 0, r_col := 1, r_max := 1, cx := (1 : UInt32).toNat, cy := (2 : UInt32).toNat } := by
    intro data
    have hw := C08_half_open_exact ({ mapOf tallMsg with data := data } : GridMap ℝ)
      (by norm_num [mapOf, tallMsg]) 1.5 2.5 2 1
      ⟨show (2 : UInt32).toNat < (5 : UInt32).toNat by decide,
        show (1 : UInt32).toNat < (3 : UInt32).toNat by decide⟩ (by
        simp only [InHalfOpenCell, mapOf, tallMsg, UInt32.toNat_ofNat]
        refine ⟨?_, ?_, ?_, ?_⟩ <;> norm_num)
    have e1 := castI32_floor (x := (0:ℝ)/1) (by norm_num) (by norm_num)
    have e2 := castI32_floor (x := ((0:ℝ)+1)/1) (by norm_num) (by norm_num)
    have e3 := castI32_floor (x := (1:ℝ)/1) (by norm_num) (by norm_num)
    simp only [Collision.config, hw, Res.ok_bind]
    have hui : u2i 1 = 1 ∧ u2i 2 = 2 := by decide
    simp only [nearDetector, mapOf, tallMsg, real_div, real_add, e1, e2, e3, Res.ok_bind, hui]
    norm_num
    decide
  refine ⟨nearDetector, mapOf sideMsg, tallMsg, fun _ => (stored tallMsg (mapOf sideMsg, true) 7).1,
    ⟨1.5, 2.5, 0⟩, side_wf, hwt, ⟨fun _ => 7, fun _ _ _ => le_rfl, fun _ => rfl⟩, ?_, top_clear 0, ?_⟩
  · rw [collisionCheckI_const,
      show (stored tallMsg (mapOf sideMsg, true) 7).1 = { mapOf tallMsg with data := sideMsg.data } from rfl]
    generalize hgt : ({ mapOf tallMsg with data := sideMsg.data } : GridMap ℝ) = gt
    have hc := hcfg sideMsg.data
    rw [hgt] at hc
    have h1 : gt.gridBounds 2 2 = true := by rw [← hgt]; rfl
    have h2 : gt.getCell 2 2 = .ok 0 := by
      rw [← hgt]
      show (.ok (Flt.ofInt (0 : Int8).toInt /. lit 100 0) : Res ℝ) = _
      rw [show ((0 : Int8).toInt) = 0 from by decide]
      simp
    have h3 : gt.gridBounds 3 1 = true := by rw [← hgt]; rfl
    have h4 : gt.getCell 3 1 = .throw .outOfRange := by rw [← hgt]; rfl
    have hlt : Flt.lt (0:ℝ) nearDetector.occupied_threshold = true := by
      rw [real_lt]; norm_num [nearDetector]
    have q1 : ∀ cfg, nearDetector.checkCell gt cfg 2 2 = .ok (false, cfg) := by
      intro cfg
      unfold Collision.checkCell
      rw [if_pos h1, h2, Res.ok_bind, if_neg (by rw [hlt]; simp)]
    have q2 : ∀ cfg, nearDetector.checkCell gt cfg 1 3 = .throw .outOfRange := by
      intro cfg
      unfold Collision.checkCell
      rw [if_pos h3, h4]
      rfl
    simp only [Collision.collisionCheck, hc, Res.ok_bind]
    have hs : nearDetector.search gt { r_bnd := 0, r_col := 1, r_max := 1, cx := (1 : UInt32).toNat, cy := (2 : UInt32).toNat } =
        .throw .outOfRange := by
      unfold Collision.search
      show nearDetector.searchLoop gt 3 0 _ = _
      rw [Collision.searchLoop, if_pos (by decide), Collision.bresenhamCircle, Collision.circleLoop,
        if_neg (by decide)]
      simp only [Res.ok_bind, Bool.false_eq_true, if_false]
      rw [Collision.searchLoop, if_pos (by decide), Collision.bresenhamCircle]
      show (nearDetector.circleLoop gt 4 (-1) 0 0 _ >>= _) = _
      rw [Collision.circleLoop, if_pos (by decide)]
      have e1 : i2u (((1 : UInt32).toNat : Int) - -1) = 2 ∧ i2u (((2 : UInt32).toNat : Int) + 0) = 2 ∧
          i2u (((1 : UInt32).toNat : Int) - 0) = 1 ∧ i2u (((2 : UInt32).toNat : Int) - -1) = 3 := by decide
      simp only [e1, q1, q2, Res.ok_bind, Bool.false_eq_true, if_false, Res.throw_bind]
    rw [hs]
    rfl
  · have hc := hcfg tallMsg.data
    have hr : InRange (mapOf tallMsg)
        { r_bnd := 0, r_col := 1, r_max := 1, cx := (1 : UInt32).toNat, cy := (2 : UInt32).toNat } := by
      constructor <;> decide
    obtain ⟨b, hb, -⟩ := collisionCheck_iff nearDetector (mapOf tallMsg) hwt _ _ hc hr
    cases b with
    | false => exact hb
    | true =>
      obtain ⟨i, j, ⟨h1, h2, h3, h4, v, hv, hlt⟩, -⟩ := C25_sound nearDetector _ hwt _ _ hc hr hb
      have hv0 : v = 0 := by
        have hm : v ∈ tallMsg.data := by
          unfold cellAt at hv
          exact List.mem_of_getElem? hv
        simpa [tallMsg] using hm
      subst hv0
      rw [show ((0 : Int8).toInt) = 0 from by decide, real_lt_false] at hlt
      norm_num [nearDetector] at hlt

/-! ## Cases meeting the hypotheses -/

/-- `C71_first_map_partial`: the loop looks after the last assignment -/
example : (stored sideMsg ((GridMap.empty : GridMap ℝ), false) 9).2 = true ∧
    (stored sideMsg ((GridMap.empty : GridMap ℝ), false) 8).2 = false := ⟨rfl, rfl⟩

/-- `C71_cells_partial` and `C71_same_geometry_partial`: the two maps of `C71_refuted_missed` -/
example : mapOf sideMsg = { mapOf leftMsg with data := sideMsg.data } ∧
    SameFrame (mapOf leftMsg) (mapOf sideMsg) ∧
    Execution (mapOf leftMsg) sideMsg (fun t => (stored sideMsg (mapOf leftMsg, true) t).1) ∧
    nearDetector.config (mapOf leftMsg) midPose =
      .ok { r_bnd := 0, r_col := 1, r_max := 1, cx := (1 : UInt32).toNat, cy := (1 : UInt32).toNat } :=
  ⟨rfl, ⟨rfl, side_wf⟩, ⟨fun t => t, monotone_id, fun _ => rfl⟩,
    near_config midPose 1 1 (by decide) (by decide) (by
      simp only [InHalfOpenCell, mapOf, sideMsg, UInt32.toNat_one, midPose]
      refine ⟨?_, ?_, ?_, ?_⟩ <;> norm_num)⟩

end Ergodic
