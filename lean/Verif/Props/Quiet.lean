import Verif.Spec.Quiet
import Verif.Props.Caution
import Verif.Props.Occupied
import Verif.Props.MirrorTakeover
import Verif.Props.ExplorationLimits

/-!
# Property C137: unless it is needed, the safety layer has no influence
-/

namespace Ergodic
variable {F : Type} [Flt F]

/-! ## The planner's copy of the detector -/

theorem alike_same {α : Type} {a b : Res α} (h : b = a) : Alike (fun x y => y = x) a b := by
  subst h
  cases b with
  | ok x => exact rfl
  | throw e => exact rfl
  | ub => trivial
  | timeout => trivial

theorem updateLoop_detector (e : ErgodicControl F) (c : Collision F) (xs : List (V3 F)) : ∀ rs : List (V3 F),
    ({ e with collision := c } : ErgodicControl F).updateLoop xs rs = e.updateLoop xs rs := by
  induction xs with
  | nil => exact fun _ => rfl
  | cons x xs ih =>
    intro rs
    cases rs with
    | nil => rfl
    | cons r rs =>
      unfold ErgodicControl.updateLoop
      rw [ih]
      rfl

theorem configTarget_detector (e : ErgodicControl F) (c : Collision F) (g : GridMap F) :
    Alike (fun a b => b = { a with collision := c }) (e.configTarget g)
      (({ e with collision := c } : ErgodicControl F).configTarget g) := by
  unfold ErgodicControl.configTarget
  dsimp only
  split
  · exact rfl
  · exact Alike.same fun _ _ => Alike.same fun _ _ => rfl

/-- Planning does not look at it. -/
theorem control_detector (e : ErgodicControl F) (c : Collision F) (g : GridMap F) (x : V3 F) (draws : List Nat) :
    Alike (fun a b => b = ({ a.1 with collision := c }, a.2)) (e.control g x draws)
      (({ e with collision := c } : ErgodicControl F).control g x draws) := by
  unfold ErgodicControl.control
  refine (configTarget_detector { e with pose := x } c g).bind ?_
  rintro e1 _ rfl
  dsimp only
  refine Alike.same fun ut _ => Alike.same fun traj _ => Alike.same fun total _ => ?_
  split
  · exact rfl
  · refine Alike.same fun rhot _ => ?_
    refine Alike.bind (R := fun a b => b = a) (alike_same (updateLoop_detector { e1 with ut := ut } c _ rhot)) ?_
    rintro ut' _ rfl
    exact Alike.same fun u _ => rfl

theorem control_planner {e e' : ErgodicControl F} (h : e' = { e with collision := e'.collision }) (g : GridMap F)
    (x : V3 F) (draws : List Nat) :
    Alike (fun a b => b.1 = { a.1 with collision := b.1.collision } ∧ b.2 = a.2) (e.control g x draws)
      (e'.control g x draws) := by
  rw [h]
  refine (control_detector e e'.collision g x draws).mono ?_
  rintro a b rfl
  exact ⟨rfl, rfl⟩

/-! ## Undisturbed iterations and runs -/

/-- An iteration whose twist passes the validation. -/
theorem passed_iteration {s : Expl F} (hf : s.follow_dwa = false) {tf : Option (TransformMsg F)} {draws : List Nat}
    (h : Passed s tf draws) : s.iteration tf draws =
      if (s.localize tf).map_received && (s.localize tf).pose_known then do
        let r ← (s.localize tf).ec.control (s.localize tf).grid (s.localize tf).pose draws
        let p ← r.1.path (s.localize tf).map_frame_id
        .ok ({ s.localize tf with ec := r.1, u := r.2 }, [.trajectory p, .twist r.2])
      else .ok (s.localize tf, []) := by
  have hf' : (s.localize tf).follow_dwa = false := by cases tf <;> exact hf
  unfold Passed at h
  unfold Expl.iteration
  generalize s.localize tf = t at *
  dsimp only
  by_cases hc : (t.map_received && t.pose_known) = true
  · rw [if_pos hc, if_pos hc]
    rw [Bool.and_eq_true] at hc
    have ha : t.advanceDwa = t := by unfold Expl.advanceDwa; rw [if_neg (by simp [hf'])]
    rw [ha]
    unfold Expl.replan
    rw [if_neg (by simp [hf'])]
    cases hr : t.ec.control t.grid t.pose draws with
    | ok r =>
      obtain ⟨ec, u⟩ := r
      have hv := h ec u hc.1 hc.2 hr
      simp only [Res.ok_bind]
      cases hp : ec.path t.map_frame_id with
      | ok p => simp [Res.ok_bind, Expl.avoid, hv]
      | throw e => rfl
      | ub => rfl
      | timeout => rfl
    | throw e => rfl
    | ub => rfl
    | timeout => rfl
  · rw [if_neg hc, if_neg hc]

theorem SamePlan.localize {s s' : Expl F} (h : SamePlan s s') (tf : Option (TransformMsg F)) :
    SamePlan (s.localize tf) (s'.localize tf) := by
  cases tf with
  | none => exact h
  | some t =>
    obtain ⟨h1, h2, h3, h4, h5, h6, h7, h8⟩ := h
    exact ⟨by simp only [Expl.localize]; rw [h1]; rfl, h2, h3, rfl, rfl, h6, h7, h8⟩

/-- What stays the same over an iteration of an undisturbed node. -/
def Unaltered (s t : Expl F) : Prop :=
  t.collision = s.collision ∧ t.val_dt = s.val_dt ∧ t.val_horizon = s.val_horizon ∧ t.grid = s.grid

/-- C137, in every arithmetic: two iterations whose planned twists pass the validation publish the same, or fail in
the same way, whatever the detectors, the cells of the maps, the windows, the horizons of the validation and the
measured velocities are. -/
theorem C137_tick {s s' : Expl F} (h : SamePlan s s') {tf : Option (TransformMsg F)} {draws : List Nat}
    (hp : Passed s tf draws) (hp' : Passed s' tf draws) :
    Alike (fun a b => b.2 = a.2 ∧ SamePlan a.1 b.1 ∧ Unaltered s a.1 ∧ Unaltered s' b.1) (s.iteration tf draws)
      (s'.iteration tf draws) := by
  rw [passed_iteration h.plans hp, passed_iteration h.plans' hp']
  have hl := h.localize tf
  have k1 : Unaltered s (s.localize tf) := by cases tf <;> exact ⟨rfl, rfl, rfl, rfl⟩
  have k2 : Unaltered s' (s'.localize tf) := by cases tf <;> exact ⟨rfl, rfl, rfl, rfl⟩
  generalize s.localize tf = t at *
  generalize s'.localize tf = t' at *
  rw [hl.map, hl.known]
  by_cases hc : (t.map_received && t.pose_known) = true
  · rw [if_pos hc, if_pos hc, hl.pose, C111_control t'.ec hl.extent, hl.frame]
    refine (control_planner hl.ec t.grid t.pose draws).bind ?_
    rintro ⟨a, u⟩ ⟨b, v⟩ ⟨hab, huv⟩
    simp only at hab huv
    subst huv
    dsimp only
    rw [show b.path t.map_frame_id = a.path t.map_frame_id by rw [hab]; rfl]
    refine Alike.same fun p _ => ⟨rfl, ?_, k1, k2⟩
    exact ⟨hab, hl.map, hl.frame, hl.pose, hl.known, hl.extent, hl.plans, hl.plans'⟩
  · rw [if_neg hc, if_neg hc]
    exact ⟨rfl, hl, k1, k2⟩

/-- C137, in every arithmetic, for whole runs: as long as the twists pass the validation, what is published does not
depend on the detector, the cells of the maps, the window, the validation and the measured velocities. -/
theorem C137_run {es es' : List (Event F)} (he : List.Forall₂ SameExtent es es') : ∀ {s s' : Expl F}, SamePlan s s' →
    AtTicks Passed s es → AtTicks Passed s' es' →
    Alike (fun a b => b.2 = a.2 ∧ SamePlan a.1 b.1) (s.run es) (s'.run es') := by
  induction he with
  | nil => exact fun h _ _ => ⟨rfl, h⟩
  | @cons e e' es es' hee _ ih =>
    intro s s' h hp hp'
    have hstep : Alike (fun a b => (b.2 = a.2 ∧ SamePlan a.1 b.1) ∧ s.step e = .ok a ∧ s'.step e' = .ok b)
        (s.step e) (s'.step e') := by
      have : Alike (fun a b => b.2 = a.2 ∧ SamePlan a.1 b.1) (s.step e) (s'.step e') := by
        cases hee with
        | map m m' hm => exact ⟨rfl, h.ec, rfl, h.frame, h.pose, h.known, hm, h.plans, h.plans'⟩
        | odom v v' => exact ⟨rfl, h.ec, h.map, h.frame, h.pose, h.known, h.extent, h.plans, h.plans'⟩
        | tick tf draws =>
          exact (C137_tick h (hp.1 tf draws rfl) (hp'.1 tf draws rfl)).mono fun _ _ q => ⟨q.1, q.2.1⟩
      revert this
      cases s.step e <;> cases s'.step e' <;> intro q <;> first
        | exact ⟨q, rfl, rfl⟩
        | exact q
    unfold Expl.run
    refine hstep.bind ?_
    rintro ⟨t, o⟩ ⟨t', o'⟩ ⟨⟨ho, ht⟩, q, q'⟩
    refine (ih ht (hp.2 t o q) (hp'.2 t' o' q')).bind ?_
    rintro ⟨r, w⟩ ⟨r', w'⟩ ⟨hw, hr⟩
    simp only at ho hw
    exact ⟨by simp only [ho, hw], hr⟩

/-! ## The executables -/

theorem node_run_eq {n : Node F} (hup : n.up = true) (es : List (Event F)) :
    n.run es = (do let r ← n.expl.run es; .ok ({ n with expl := r.1 }, r.2)) := by
  induction es generalizing n with
  | nil => rfl
  | cons e es ih =>
    unfold Node.run Expl.run Node.step
    rw [if_pos hup]
    cases n.expl.step e with
    | ok r =>
      obtain ⟨s, o⟩ := r
      simp only [Res.ok_bind]
      rw [ih (n := { n with expl := s }) hup]
      dsimp only
      cases s.run es <;> rfl
    | throw => rfl
    | ub => rfl
    | timeout => rfl

theorem quiet_node {n n' : Node F} (hu : n.up = true) (hu' : n'.up = true) (h : SamePlan n.expl n'.expl)
    {es es' : List (Event F)} (he : List.Forall₂ SameExtent es es') (hp : AtTicks Passed n.expl es)
    (hp' : AtTicks Passed n'.expl es') : Alike (fun a b => b.2 = a.2) (n.run es) (n'.run es') := by
  rw [node_run_eq hu, node_run_eq hu']
  exact (C137_run he h hp hp').bind fun _ _ q => q.1

theorem planner_new {M : TwistModel F} {c c' : Collision F} {dt H res w : F} {nb bs bt : Nat} {R : M3 F}
    {lo hi : V3 F} {e e' : ErgodicControl F} (h : ErgodicControl.new M c dt H res w nb bs bt R lo hi = .ok e)
    (h' : ErgodicControl.new M c' dt H res w nb bs bt R lo hi = .ok e') :
    e' = { e with collision := e'.collision } := by
  unfold ErgodicControl.new at h h'
  obtain ⟨n, hn, h⟩ := Res.bind_eq_ok.mp h
  obtain ⟨n', hn', h'⟩ := Res.bind_eq_ok.mp h'
  rw [hn] at hn'
  cases hn'
  by_cases h1 : n = 1
  · rw [if_pos h1] at h; cases h
  · rw [if_neg h1] at h h'
    cases h
    cases h'
    rfl

/-- C137 for the omni-directional robot, in every arithmetic: two executables whose parameters differ only in the
detector, the window and the validation, both with a planning horizon not shorter than that of the window, announce
the same target and publish the same as long as the planned twists pass. -/
theorem C137_omni {p p' : Params F} (h : SamePlanner p p') (hl : Flt.lt p.ec_horizon p.dwa_horizon = false)
    (hl' : Flt.lt p'.ec_horizon p'.dwa_horizon = false) {n n' : Node F} {o o' : List (Out F)}
    (hn : Node.omni p = .ok (n, o)) (hn' : Node.omni p' = .ok (n', o')) {es es' : List (Event F)}
    (he : List.Forall₂ SameExtent es es') (hp : AtTicks Passed n.expl es) (hp' : AtTicks Passed n'.expl es') :
    o' = o ∧ Alike (fun a b => b.2 = a.2) (n.run es) (n'.run es') := by
  obtain ⟨w0, w1, w2, gs, c, ec, d, ⟨a0, a1, a2, a3, -⟩, a4, -, a5, a6⟩ := omni_parts hn
  obtain ⟨w0', w1', w2', gs', c', ec', d', ⟨b0, b1, b2, b3, -⟩, b4, -, b5, b6⟩ := omni_parts hn'
  rw [hl] at a6
  rw [hl'] at b6
  rw [h] at b0 b1 b2 b3 b4 b5
  simp only at b0 b1 b2 b3 b4 b5
  rw [a0] at b0
  rw [a1] at b1
  rw [a2] at b2
  rw [a3] at b3
  cases b0; cases b1; cases b2; cases b3
  have hec := planner_new a4 b4
  rw [Prod.mk.injEq] at a5 b5
  refine ⟨by rw [a5.2, b5.2]; rfl, quiet_node a6 b6 ?_ he hp hp'⟩
  rw [a5.1, b5.1]
  exact ⟨by rw [hec]; rfl, rfl, rfl, rfl, rfl, ⟨rfl, rfl, rfl, rfl⟩, rfl, rfl⟩

/-- C137 for the cart. -/
theorem C137_cart {p p' : Params F} (h : SamePlanner p p') (hl : Flt.lt p.ec_horizon p.dwa_horizon = false)
    (hl' : Flt.lt p'.ec_horizon p'.dwa_horizon = false) {n n' : Node F} {o o' : List (Out F)}
    (hn : Node.cart p = .ok (n, o)) (hn' : Node.cart p' = .ok (n', o')) {es es' : List (Event F)}
    (he : List.Forall₂ SameExtent es es') (hp : AtTicks Passed n.expl es) (hp' : AtTicks Passed n'.expl es') :
    o' = o ∧ Alike (fun a b => b.2 = a.2) (n.run es) (n'.run es') := by
  obtain ⟨w0, w1, gs, c, ec, d, ⟨a0, a1, a3, -⟩, a4, -, a5, a6⟩ := cart_parts hn
  obtain ⟨w0', w1', gs', c', ec', d', ⟨b0, b1, b3, -⟩, b4, -, b5, b6⟩ := cart_parts hn'
  rw [hl] at a6
  rw [hl'] at b6
  rw [h] at b0 b1 b3 b4 b5
  simp only at b0 b1 b3 b4 b5
  rw [a0] at b0
  rw [a1] at b1
  rw [a3] at b3
  cases b0; cases b1; cases b3
  have hec := planner_new a4 b4
  rw [Prod.mk.injEq] at a5 b5
  refine ⟨by rw [a5.2, b5.2]; rfl, quiet_node a6 b6 ?_ he hp hp'⟩
  rw [a5.1, b5.1]
  exact ⟨by rw [hec]; rfl, rfl, rfl, rfl, rfl, ⟨rfl, rfl, rfl, rfl⟩, rfl, rfl⟩

/-! ## Caution and obstacles that make no difference -/

/-- A detector and a map made less cautious stay sensible. -/
theorem eased_sensible {c c' : Collision ℝ} (h : Warier c c') (h0 : 0 ≤ c.obstacle_threshold)
    (h1 : c.boundary_radius ≤ c.search_radius) {g g' : GridMap ℝ} (hg : g' = { g with data := g'.data })
    (hd : Raised g.data g'.data) (hs : Sensible c' g') : Sensible c g ∧ Sensible c g' ∧ Sensible c' g' := by
  have wf := hs.wf
  obtain ⟨w1, w2, w3, w4, w5, w6, w7, w8, w9, w10, w11⟩ := hs
  have a : Sensible c g' := ⟨w1, w2, w3, w4, w5, w6, le_trans w7 h.inner, h0, h1, lt_of_le_of_lt h.search w10,
    lt_of_le_of_lt h.outer w11⟩
  refine ⟨?_, a, w1, w2, w3, w4, w5, w6, w7, w8, w9, w10, w11⟩
  have hl : g.data.length = g'.data.length := List.Forall₂.length_eq hd
  generalize g'.data = dd at hg hl
  subst hg
  exact ⟨⟨w1.1, hl.trans w1.2⟩, w2, w3, w4, w5, w6, a.bnd, h0, h1, a.search, a.col⟩

/-- C137: with the obstacles of a fuller map and more caution, a twist that passes passes without them. -/
theorem C137_passed {s s' : Expl ℝ} (h : Eased s s') {tf : Option (TransformMsg ℝ)} {draws : List Nat}
    (hp : Passed s' tf draws) (hr : Spacious s' tf draws) : Passed s tf draws := by
  have hl := h.plan.localize tf
  have e1 : (s.localize tf).collision = s.collision ∧ (s.localize tf).grid = s.grid ∧
      (s.localize tf).val_dt = s.val_dt ∧ (s.localize tf).val_horizon = s.val_horizon := by
    cases tf <;> exact ⟨rfl, rfl, rfl, rfl⟩
  have e2 : (s'.localize tf).collision = s'.collision ∧ (s'.localize tf).grid = s'.grid ∧
      (s'.localize tf).val_dt = s'.val_dt ∧ (s'.localize tf).val_horizon = s'.val_horizon := by
    cases tf <;> exact ⟨rfl, rfl, rfl, rfl⟩
  unfold Passed Spacious at *
  obtain ⟨a1, a2, a3, a4⟩ := e1
  obtain ⟨b1, b2, b3, b4⟩ := e2
  rw [a1, a2, a3, a4]
  rw [b1, b2, b3, b4, hl.map, hl.known, hl.pose] at hp hr
  intro ec u hm hk hc
  have hx := h.plan.extent
  obtain ⟨⟨ec', u'⟩, hc', -, huu⟩ := (control_planner hl.ec s.grid (s.localize tf).pose draws).result hc
  simp only at huu
  subst huu
  rw [← C111_control _ hx] at hc'
  have hv := hp ec' u' hm hk hc'
  obtain ⟨hs, hin⟩ := hr ec' u' hm hk hc'
  obtain ⟨k, n, hk', hn', hle⟩ := h.steps
  obtain ⟨sa, sb, sc⟩ := eased_sensible h.warier h.obs h.order h.geometry h.cells hs
  rw [C20_accepts_iff _ _ _ _ _ _ n hn'] at hv
  rw [C20_accepts_iff _ _ _ _ _ _ k hk']
  intro i hi
  have q := hin n hn' i (lt_of_lt_of_le hi hle)
  have v := hv i (lt_of_lt_of_le hi hle)
  rw [h.dt] at q v
  have v1 := C136_clear h.warier sb sc q v
  have qg : InRect s.grid (poseAfter u' s.val_dt (s.localize tf).pose (i + 1)).c0
      (poseAfter u' s.val_dt (s.localize tf).pose (i + 1)).c1 := by
    rw [h.geometry] at q; exact q
  obtain ⟨b, hb⟩ := (C30_no_failure _ _ sa _ qg).1
  cases b with
  | false => exact hb
  | true =>
    have := C29_raise s.collision s.collision.occupied_threshold s.grid s'.grid.data sa _ qg le_rfl h.cells hb
    rw [← h.geometry] at this
    have this : s.collision.collisionCheck s'.grid _ = .ok true := this
    rw [v1] at this
    cases this

/-- C137: on a map without obstacles nothing is in the way. -/
theorem C137_empty {s : Expl ℝ} {tf : Option (TransformMsg ℝ)} {draws : List Nat} (hr : Spacious s tf draws)
    (hn : ∃ n, numSteps s.val_horizon s.val_dt = .ok n)
    (hg : ∀ i j, ¬ Occupied s.collision.occupied_threshold s.grid i j) : Passed s tf draws := by
  have e1 : (s.localize tf).collision = s.collision ∧ (s.localize tf).grid = s.grid ∧
      (s.localize tf).val_dt = s.val_dt ∧ (s.localize tf).val_horizon = s.val_horizon := by
    cases tf <;> exact ⟨rfl, rfl, rfl, rfl⟩
  unfold Passed Spacious at *
  obtain ⟨a1, a2, a3, a4⟩ := e1
  rw [a1, a2, a3, a4] at hr ⊢
  obtain ⟨n, hn⟩ := hn
  intro ec u hm hk hc
  obtain ⟨hs, hin⟩ := hr ec u hm hk hc
  rw [C20_accepts_iff _ _ _ _ _ _ n hn]
  intro k hk
  obtain ⟨i, j, -, -, hcfg, hrange⟩ := config_real _ _ hs _ (hin n hn k hk)
  obtain ⟨b, hb⟩ := (C30_no_failure _ _ hs _ (hin n hn k hk)).1
  cases b with
  | false => exact hb
  | true =>
    obtain ⟨i, j, r, ho, -⟩ := (C26_exact_partial _ _ hs.wf _ _ hcfg hrange).mp hb
    exact (hg i j ho).elim

theorem Fuller.extent {e e' : Event ℝ} (h : Fuller e e') : SameExtent e e' := by
  cases h with
  | map m data h => exact .map _ _ ⟨rfl, rfl, rfl, rfl⟩
  | odom v v' => exact .odom _ _
  | tick tf draws => exact .tick _ _

/-- C137: if nothing disturbs a run with a cautious detector, a long validation and full maps, nothing disturbs it
with less caution, a shorter validation and some of the obstacles removed, and what is published is the same. -/
theorem C137_cautious {es es' : List (Event ℝ)} (he : List.Forall₂ Fuller es es') {s s' : Expl ℝ} (h : Eased s s')
    (hp : AtTicks Passed s' es') (hr : AtTicks Spacious s' es') :
    AtTicks Passed s es ∧ Alike (fun a b => b.2 = a.2) (s.run es) (s'.run es') := by
  have key : AtTicks Passed s es := by
    induction he generalizing s s' with
    | nil => trivial
    | @cons e e' es es' hee _ ih =>
      refine ⟨?_, ?_⟩
      · rintro tf draws rfl
        cases hee
        exact C137_passed h (hp.1 _ _ rfl) (hr.1 _ _ rfl)
      · intro t o ht
        cases hee with
        | map m data hd =>
          cases ht
          refine ih ?_ (hp.2 _ _ rfl) (hr.2 _ _ rfl)
          exact ⟨⟨h.plan.ec, rfl, h.plan.frame, h.plan.pose, h.plan.known, ⟨rfl, rfl, rfl, rfl⟩, h.plan.plans,
            h.plan.plans'⟩, h.warier, h.obs, h.order, h.dt, h.steps, rfl, hd⟩
        | odom v v' =>
          cases ht
          refine ih ?_ (hp.2 _ _ rfl) (hr.2 _ _ rfl)
          exact ⟨⟨h.plan.ec, h.plan.map, h.plan.frame, h.plan.pose, h.plan.known, h.plan.extent, h.plan.plans,
            h.plan.plans'⟩, h.warier, h.obs, h.order, h.dt, h.steps, h.geometry, h.cells⟩
        | tick tf draws =>
          have p := hp.1 tf draws rfl
          obtain ⟨⟨t', o'⟩, ht', -, q, ⟨k1, k2, k3, k4⟩, l1, l2, l3, l4⟩ :=
            (C137_tick h.plan (C137_passed h p (hr.1 tf draws rfl)) p).result ht
          refine ih ?_ (hp.2 _ _ ht') (hr.2 _ _ ht')
          simp only at q k1 k2 k3 k4 l1 l2 l3 l4
          exact ⟨q, by rw [k1, l1]; exact h.warier, by rw [k1]; exact h.obs, by rw [k1]; exact h.order,
            by rw [k2, l2]; exact h.dt, by rw [k2, k3, l2, l3]; exact h.steps, by rw [k4, l4]; exact h.geometry,
            by rw [k4, l4]; exact h.cells⟩
  refine ⟨key, (C137_run (he.imp fun _ _ q => q.extent) h.plan key hp).mono fun _ _ q => q.1⟩

end Ergodic
