import Verif.Lemmas.Session
import Verif.Props.ExplorationLimits
import Verif.Props.ExplorationRefuted

/-!
# Property C111: of a cell only matters whether it is occupied

For every arithmetic.  Two histories whose maps have the same geometry and the same obstacles make a node
publish exactly the same.
-/

namespace Ergodic
variable {F : Type} [Flt F]

/-- grids with the same geometry and the same obstacles -/
structure GridSame (thr : F) (g g' : GridMap F) : Prop where
  geometry : g' = { g with data := g'.data }
  cells : g'.data.map (cellFree thr) = g.data.map (cellFree thr)

theorem checkCell_alike {c : Collision F} {g g' : GridMap F} (h : GridSame c.occupied_threshold g g')
    (cfg : CollisionConfig) (cj ci : UInt32) : c.checkCell g' cfg cj ci = c.checkCell g cfg cj ci := by
  obtain ⟨geometry, cells⟩ := h
  generalize g'.data = data at geometry cells
  subst geometry
  unfold Collision.checkCell GridMap.getCell GridMap.getCellIdx
  have e1 : GridMap.gridBounds { g with data } ci cj = g.gridBounds ci cj := rfl
  have e2 : GridMap.grid2RowMajor { g with data } ci cj = g.grid2RowMajor ci cj := rfl
  have e3 : ∀ k, GridMap.gridBoundsIdx { g with data } k = g.gridBoundsIdx k := fun _ => rfl
  rw [e1, e2, e3]
  dsimp only
  have hk := congrArg (fun l => l[(g.grid2RowMajor ci cj).toNat]?) cells
  simp only [List.getElem?_map] at hk
  split
  · split
    · rfl
    · cases h1 : g.data[(g.grid2RowMajor ci cj).toNat]? with
      | none =>
        cases h2 : data[(g.grid2RowMajor ci cj).toNat]? with
        | none => rfl
        | some w => rw [h1, h2] at hk; exact nomatch hk
      | some v =>
        cases h2 : data[(g.grid2RowMajor ci cj).toNat]? with
        | none => rw [h1, h2] at hk; exact nomatch hk
        | some w =>
          rw [h1, h2] at hk
          simp only [Option.map_some, Option.some.injEq, cellFree] at hk
          simp only [Res.ok_bind, hk]
  · rfl

theorem circleLoop_same {c : Collision F} {g g' : GridMap F} (h : GridSame c.occupied_threshold g g') (fuel : Nat) :
    ∀ x y err cfg, c.circleLoop g' fuel x y err cfg = c.circleLoop g fuel x y err cfg := by
  induction fuel with
  | zero => intros; rfl
  | succ fuel ih =>
    intro x y err cfg
    rw [Collision.circleLoop, Collision.circleLoop]
    simp only [checkCell_alike h, ih]

theorem searchLoop_same {c : Collision F} {g g' : GridMap F} (h : GridSame c.occupied_threshold g g') (fuel : Nat) :
    ∀ r cfg, c.searchLoop g' fuel r cfg = c.searchLoop g fuel r cfg := by
  induction fuel with
  | zero => intros; rfl
  | succ fuel ih =>
    intro r cfg
    rw [Collision.searchLoop, Collision.searchLoop]
    simp only [Collision.bresenhamCircle, circleLoop_same h, ih]

theorem config_alike {thr : F} {g g' : GridMap F} (h : GridSame thr g g') (c : Collision F) (x : V3 F) :
    c.config g' x = c.config g x := by
  obtain ⟨geometry, -⟩ := h
  rw [geometry]
  rfl

/-- C111: the three collision queries see only which cells are occupied. -/
theorem C111_queries {c : Collision F} {g g' : GridMap F} (h : GridSame c.occupied_threshold g g') (x : V3 F) :
    c.collisionCheck g' x = c.collisionCheck g x ∧ c.minDistance g' x = c.minDistance g x ∧
    c.minDirection g' x = c.minDirection g x := by
  have hr : g'.resolution = g.resolution := by rw [h.geometry]
  refine ⟨?_, ?_, ?_⟩
  · simp only [Collision.collisionCheck, config_alike h, Collision.search, searchLoop_same h]
  · simp only [Collision.minDistance, config_alike h, Collision.search, searchLoop_same h, hr]
  · simp only [Collision.minDirection, config_alike h, Collision.search, searchLoop_same h, hr]

theorem validate_same {c : Collision F} {g g' : GridMap F} (h : GridSame c.occupied_threshold g g')
    (x u : V3 F) (dt horizon : F) :
    validateControl c g' x u dt horizon = validateControl c g x u dt horizon := by
  have hl : ∀ n x, validateLoop c g' u dt n x = validateLoop c g u dt n x := by
    intro n
    induction n with
    | zero => intro x; rfl
    | succ n ih =>
      intro x
      rw [validateLoop, validateLoop]
      simp only [(C111_queries h _).1, ih]
  simp only [validateControl, hl]

theorem window_same {w : DynamicWindow F} {g g' : GridMap F} (h : GridSame w.collision.occupied_threshold g g')
    (x vb vref : V3 F) (ref : List (V3 F)) (dt_ref : F) :
    w.controlTwist g' x vb vref = w.controlTwist g x vb vref ∧
    w.controlTraj g' x vb ref dt_ref = w.controlTraj g x vb ref dt_ref := by
  have h1 : ∀ u n x, w.rollout g' u n x = w.rollout g u n x := by
    intro u n
    induction n with
    | zero => intro x; rfl
    | succ n ih =>
      intro x
      rw [DynamicWindow.rollout, DynamicWindow.rollout]
      simp only [(C111_queries h _).1, ih]
  have h2 : ∀ u tf n x t cost, w.trajLoop g' u ref tf n x t cost = w.trajLoop g u ref tf n x t cost := by
    intro u tf n
    induction n with
    | zero => intros; rfl
    | succ n ih =>
      intro x t cost
      rw [DynamicWindow.trajLoop, DynamicWindow.trajLoop]
      simp only [(C111_queries h _).1, ih]
  constructor
  · simp only [DynamicWindow.controlTwist, DynamicWindow.objectiveTwist, h1]
  · simp only [DynamicWindow.controlTraj, DynamicWindow.objectiveTraj, h2]

/-- C111: the ergodic controller sees nothing but the extent of the map: not the cells, nor how many
there are, nor their size. -/
theorem C111_control (e : ErgodicControl F) {g g' : GridMap F}
    (h : g'.xmin = g.xmin ∧ g'.ymin = g.ymin ∧ g'.xmax = g.xmax ∧ g'.ymax = g.ymax) (x : V3 F) (draws : List Nat) :
    e.control g' x draws = e.control g x draws := by
  obtain ⟨h1, h2, h3, h4⟩ := h
  unfold ErgodicControl.control ErgodicControl.configTarget
  rw [h1, h2, h3, h4]

/-- nodes that differ in the values of cells only -/
structure NodeSame (thr : F) (s s' : Expl F) : Prop where
  rest : s' = { s with grid := s'.grid }
  grid : GridSame thr s.grid s'.grid
  coll : s.collision.occupied_threshold = thr
  dwa : s.dwa.collision.occupied_threshold = thr

/-- reactions that differ in the values of remembered cells only -/
def ReactionSame (thr : F) (r r' : Expl F × List (Out F)) : Prop := NodeSame thr r.1 r'.1 ∧ r'.2 = r.2

variable {thr : F} {s s' : Expl F}

theorem NodeSame.localize (h : NodeSame thr s s') (tf : Option (TransformMsg F)) :
    NodeSame thr (s.localize tf) (s'.localize tf) := by
  obtain ⟨rest, grid, coll, dwa⟩ := h
  generalize s'.grid = g' at rest grid
  subst rest
  cases tf <;> exact ⟨rfl, grid, coll, dwa⟩

theorem NodeSame.advanceDwa (h : NodeSame thr s s') : NodeSame thr s.advanceDwa s'.advanceDwa := by
  obtain ⟨rest, grid, coll, dwa⟩ := h
  generalize s'.grid = g' at rest grid
  subst rest
  unfold Expl.advanceDwa
  dsimp only
  split <;> exact ⟨rfl, grid, coll, dwa⟩

theorem NodeSame.replan (h : NodeSame thr s s') (draws : List Nat) :
    SameOutcome (ReactionSame thr) (s.replan draws) (s'.replan draws) := by
  obtain ⟨rest, grid, coll, dwa⟩ := h
  generalize s'.grid = g' at rest grid
  subst rest
  unfold Expl.replan
  dsimp only
  split
  · exact .ok ⟨⟨rfl, grid, coll, dwa⟩, rfl⟩
  · rw [C111_control s.ec (g := s.grid) (g' := g') (by rw [grid.geometry]; exact ⟨rfl, rfl, rfl, rfl⟩)]
    refine SameOutcome.bind (.of_eq rfl) ?_
    rintro _ ⟨ec, u⟩ rfl
    refine SameOutcome.bind (.of_eq rfl) ?_
    rintro _ p rfl
    exact .ok ⟨⟨rfl, grid, coll, dwa⟩, rfl⟩

theorem NodeSame.avoid (h : NodeSame thr s s') : SameOutcome (ReactionSame thr) s.avoid s'.avoid := by
  obtain ⟨rest, grid, coll, dwa⟩ := h
  generalize s'.grid = g' at rest grid
  subst rest
  unfold Expl.avoid
  dsimp only
  rw [validate_same (c := s.collision) (g := s.grid) (g' := g') (coll.symm ▸ grid)]
  refine SameOutcome.bind (.of_eq rfl) ?_
  rintro _ valid rfl
  split
  · exact .ok ⟨⟨rfl, grid, coll, dwa⟩, rfl⟩
  · split
    · rw [(window_same (w := s.dwa) (g := s.grid) (g' := g') (dwa.symm ▸ grid) s.pose s.vb s.u [] s.val_dt).1]
      refine SameOutcome.bind (.of_eq rfl) ?_
      rintro _ r rfl
      exact .ok ⟨⟨rfl, grid, coll, dwa⟩, rfl⟩
    · refine SameOutcome.bind (.of_eq rfl) ?_
      rintro _ xt rfl
      rw [(window_same (w := s.dwa) (g := s.grid) (g' := g') (dwa.symm ▸ grid) s.pose s.vb s.u xt s.ec.timeStep).2]
      refine SameOutcome.bind (.of_eq rfl) ?_
      rintro _ r rfl
      split
      · refine SameOutcome.bind (.of_eq rfl) ?_
        rintro _ p rfl
        exact .ok ⟨⟨rfl, grid, coll, dwa⟩, rfl⟩
      · exact .ok ⟨⟨rfl, grid, coll, dwa⟩, rfl⟩

theorem NodeSame.step (h : NodeSame thr s s') {e e' : Event F} (he : SameEvent thr e e') :
    SameOutcome (ReactionSame thr) (s.step e) (s'.step e') := by
  cases he with
  | map hm =>
    obtain ⟨rest, grid, coll, dwa⟩ := h
    generalize s'.grid = g' at rest grid
    subst rest
    refine .ok ⟨⟨rfl, ⟨?_, hm.cells⟩, coll, dwa⟩, rfl⟩
    show GridMap.assign _ = _
    rw [hm.geometry]
    rfl
  | odom v =>
    obtain ⟨rest, grid, coll, dwa⟩ := h
    generalize s'.grid = g' at rest grid
    subst rest
    exact .ok ⟨⟨rfl, grid, coll, dwa⟩, rfl⟩
  | tick tf draws =>
    have h1 := h.localize tf
    show SameOutcome _ (s.iteration tf draws) (s'.iteration tf draws)
    unfold Expl.iteration
    generalize s.localize tf = a at h1
    generalize s'.localize tf = a' at h1
    have e1 : a'.map_received = a.map_received := by rw [h1.rest]
    have e2 : a'.pose_known = a.pose_known := by rw [h1.rest]
    dsimp only
    rw [e1, e2]
    split
    · refine SameOutcome.bind (h1.advanceDwa.replan draws) ?_
      rintro ⟨b, o⟩ ⟨b', o'⟩ ⟨hb, ho⟩
      refine SameOutcome.bind hb.avoid ?_
      rintro ⟨c, q⟩ ⟨c', q'⟩ ⟨hc, hq⟩
      refine .ok ⟨hc, ?_⟩
      dsimp only at ho hq hc ⊢
      have hu : c'.u = c.u := by rw [hc.rest]
      rw [ho, hq, hu]
    · exact .ok ⟨h1, rfl⟩

theorem NodeSame.node_run {n n' : Node F} (hu : n'.up = n.up) (h : NodeSame thr n.expl n'.expl)
    {es es' : List (Event F)} (he : List.Forall₂ (SameEvent thr) es es') :
    SameOutcome (fun r r' => r'.2 = r.2) (n.run es) (n'.run es') := by
  induction he generalizing n n' with
  | nil => exact .ok rfl
  | @cons e e' es es' he _ ih =>
    have hs : SameOutcome (fun r r' => r'.1.up = r.1.up ∧ NodeSame thr r.1.expl r'.1.expl ∧
        r'.2 = r.2) (n.step e) (n'.step e') := by
      unfold Node.step
      rw [hu]
      split
      · refine SameOutcome.bind (h.step he) ?_
        rintro ⟨b, o⟩ ⟨b', o'⟩ ⟨hb, ho⟩
        exact .ok ⟨rfl, hb, ho⟩
      · exact .ok ⟨hu, h, rfl⟩
    refine SameOutcome.bind hs ?_
    rintro ⟨b, o⟩ ⟨b', o'⟩ ⟨hub, hb, ho⟩
    refine SameOutcome.bind (ih hub hb) ?_
    rintro ⟨c, q⟩ ⟨c', q'⟩ hq
    refine .ok ?_
    dsimp only at ho hq ⊢
    rw [ho, hq]

theorem session_same {start : Res (Node F × List (Out F))}
    (h : ∀ r, start = .ok r → r.1.expl.collision.occupied_threshold = thr ∧
      r.1.expl.dwa.collision.occupied_threshold = thr)
    {es es' : List (Event F)} (he : List.Forall₂ (SameEvent thr) es es') : session start es' = session start es := by
  cases start with
  | throw e => rfl
  | ub => rfl
  | timeout => rfl
  | ok r =>
    obtain ⟨h1, h2⟩ := h r rfl
    have := NodeSame.node_run (n := r.1) rfl ⟨rfl, ⟨rfl, rfl⟩, h1, h2⟩ he
    simp only [session, Res.ok_bind]
    generalize r.1.run es = x at this
    generalize r.1.run es' = y at this
    cases this with
    | throw e => rfl
    | ub => rfl
    | timeout => rfl
    | ok h => simp only [Res.ok_bind, h]

theorem collision_threshold {a b t w : F} {c : Collision F} (h : Collision.new a b t w = .ok c) :
    c.occupied_threshold = w := by
  unfold Collision.new at h
  split at h
  · exact nomatch h
  · split at h
    · exact nomatch h
    · cases h
      rfl

theorem window_collision {c : Collision F} {dt horizon acc_dt a b t u v w x y z : F} {k l m : UInt32}
    {d : DynamicWindow F} (h : DynamicWindow.new c dt horizon acc_dt a b t u v w x y z k l m = .ok d) :
    d.collision = c := by
  unfold DynamicWindow.new at h
  obtain ⟨s, -, h⟩ := Res.bind_eq_ok.mp h
  cases h
  rfl

/-- C111: the omni-directional robot publishes exactly the same for maps with the same obstacles. -/
theorem C111_omni (p : Params F) {es es' : List (Event F)}
    (he : List.Forall₂ (SameEvent p.occupied_threshold) es es') :
    session (Node.omni p) es' = session (Node.omni p) es := by
  refine session_same ?_ he
  rintro ⟨n, o⟩ h
  obtain ⟨_, _, _, gs, c, ec, w, ⟨-, -, -, -, hc⟩, -, hw, he, -⟩ := omni_parts h
  have h1 := congrArg (fun r => r.1.collision) he
  have h2 := congrArg (fun r => r.1.dwa) he
  dsimp only [Expl.start] at h1 h2 ⊢
  rw [h1, h2, window_collision hw, collision_threshold hc]
  exact ⟨rfl, rfl⟩

/-- C111: and so does the cart. -/
theorem C111_cart (p : Params F) {es es' : List (Event F)}
    (he : List.Forall₂ (SameEvent p.occupied_threshold) es es') :
    session (Node.cart p) es' = session (Node.cart p) es := by
  refine session_same ?_ he
  rintro ⟨n, o⟩ h
  obtain ⟨_, _, gs, c, ec, w, ⟨-, -, -, hc⟩, -, hw, he, -⟩ := cart_parts h
  have h1 := congrArg (fun r => r.1.collision) he
  have h2 := congrArg (fun r => r.1.dwa) he
  dsimp only [Expl.start] at h1 h2 ⊢
  rw [h1, h2, window_collision hw, collision_threshold hc]
  exact ⟨rfl, rfl⟩

/-! ## Free and occupied cells suffice -/

theorem binary_same {thr : F} (h0 : cellFree thr 0 = true) (h1 : cellFree thr 100 = false) (e : Event F) :
    SameEvent thr e (e.binary thr) := by
  cases e with
  | odom v => exact .odom v
  | tick tf draws => exact .tick tf draws
  | map m =>
    refine .map ⟨rfl, ?_⟩
    simp only [OccupancyGrid.binary, List.map_map]
    refine List.map_congr_left fun v _ => ?_
    simp only [Function.comp]
    by_cases h : cellFree thr v = true
    · rw [if_pos h, h0, h]
    · rw [if_neg h, h1, Bool.eq_false_iff.mpr h]

/-- C111: provided that an empty cell is free and a full one is not, maps reduced to these two values
make no difference to what is published. -/
theorem C111_binary (p : Params F) (h0 : cellFree p.occupied_threshold 0 = true)
    (h1 : cellFree p.occupied_threshold 100 = false) (es : List (Event F)) :
    session (Node.omni p) (es.map (Event.binary p.occupied_threshold)) = session (Node.omni p) es ∧
    session (Node.cart p) (es.map (Event.binary p.occupied_threshold)) = session (Node.cart p) es := by
  have h : List.Forall₂ (SameEvent p.occupied_threshold) es (es.map (Event.binary p.occupied_threshold)) := by
    induction es with
    | nil => exact .nil
    | cons e es ih => exact .cons (binary_same h0 h1 e) ih
  exact ⟨C111_omni p h, C111_cart p h⟩

/-- C111: in exact arithmetic that is so for every threshold above zero and at most one, and then an
unknown cell (-1) is as good as an empty one. -/
theorem C111_threshold (thr : ℝ) (h0 : 0 < thr) (h1 : thr ≤ 1) :
    cellFree thr 0 = true ∧ cellFree thr 100 = false ∧ cellFree thr (-1) = true := by
  simp only [cellFree, real_lt, real_lt_false, real_div, real_ofInt, real_lit]
  refine ⟨?_, ?_, ?_⟩
  · rw [show (0 : Int8).toInt = 0 from rfl]
    norm_num
    exact h0
  · rw [show (100 : Int8).toInt = 100 from rfl]
    norm_num
    exact h1
  · rw [show (-1 : Int8).toInt = -1 from rfl]
    norm_num
    linarith

/-- Two maps of four cells with the same obstacles. -/
example : SameObstacles (1/2 : ℝ) ⟨2, 2, 1, 0, 0, [0, 100, -1, 50]⟩ ⟨2, 2, 1, 0, 0, [49, 50, 0, 127]⟩ := by
  refine ⟨rfl, ?_⟩
  have e : ∀ v : Int8, cellFree (1/2 : ℝ) v = decide (v.toInt < 50) := by
    intro v
    rw [Bool.eq_iff_iff]
    simp only [cellFree, real_lt, real_div, real_ofInt, real_lit, decide_eq_true_iff]
    rw [div_lt_iff₀ (by norm_num)]
    norm_num
    rw [show (50 : ℝ) = ((50 : ℤ) : ℝ) by norm_num, Int.cast_lt]
  rw [funext e]
  rfl

/-- The hypotheses of `C111_binary` are met by a cart that publishes a twist. -/
example : ∃ (p : Params ℝ) (es : List (Event ℝ)) (out : List (Out ℝ)),
    cellFree p.occupied_threshold 0 = true ∧ cellFree p.occupied_threshold 100 = false ∧
    session (Node.cart p) (es.map (Event.binary p.occupied_threshold)) = .ok out ∧ ⟨0, 1, 0⟩ ∈ twists out := by
  obtain ⟨target, ec, Rinv, o, hec, hn⟩ := side_cart 1 1 (by norm_num) (by norm_num) 0
  obtain ⟨t, out, hr, ho, -⟩ := side_run target 1 1 0 0 0 (by norm_num) (by norm_num) (by norm_num)
    le_rfl (by norm_num) (Or.inr ⟨rfl, rfl, rfl⟩) hec
  have hr' := node_run_of_expl ⟨_, !Flt.lt (2:ℝ) 1⟩ lt_two_one _ _ _ hr
  obtain ⟨h0, h1, -⟩ := C111_threshold (4/5) (by norm_num) (by norm_num)
  refine ⟨sideParams 1 0 0 0, [.map sideMsg, .odom ⟨1, 1 + 0, 1⟩, .tick (some midTf) []], o ++ out, h0, h1, ?_, ?_⟩
  · rw [(C111_binary (sideParams 1 0 0 0) h0 h1 _).2, session, hn, Res.ok_bind, hr']
    rfl
  · simp only [twists, List.filterMap_append, List.mem_append]
    refine Or.inr ?_
    have : (⟨0, 1, 0⟩ : V3 ℝ) ∈ twists out := by rw [ho]; simp
    exact this

end Ergodic
