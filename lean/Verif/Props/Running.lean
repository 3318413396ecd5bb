import Verif.Spec.Running
import Verif.Props.ExplorationRefuted

/-!
# Property C77: the node keeps running

Exact arithmetic.
-/

namespace Ergodic

/-! ## Collision queries around a pose with room -/

theorem room_notBelow {g : GridMap ℝ} {x p : V3 ℝ} {D : ℝ} (h : Room g x D) (hp : planar p x ≤ D) :
    NotBelow g p.c0 p.c1 := by
  obtain ⟨h1, h2, h3, h4⟩ := h
  obtain ⟨ha, hb⟩ := planar_le hp
  have ha := abs_le.mp ha
  have hb := abs_le.mp hb
  refine ⟨?_, ?_, ?_, ?_⟩ <;> linarith [ha.1, ha.2, hb.1, hb.2]

theorem validateLoop_total {F : Type} [Flt F] (c : Collision F) (g : GridMap F) (u : V3 F) (dt : F) :
    ∀ (n : Nat) (x : V3 F),
    (∀ k < n, ∃ b, c.collisionCheck g (poseAfter u dt x (k + 1)) = .ok b) →
    ∃ b, validateLoop c g u dt n x = .ok b := by
  intro n
  induction n with
  | zero => intro x _; exact ⟨true, rfl⟩
  | succ n ih =>
    intro x h
    obtain ⟨b, hb⟩ := h 0 (by omega)
    obtain ⟨b', hb'⟩ := ih (stepPose u dt x) (fun k hk => h (k + 1) (by omega))
    have hb : c.collisionCheck g (stepPose u dt x) = .ok b := hb
    have e : validateLoop c g u dt (n + 1) x =
        (c.collisionCheck g (stepPose u dt x) >>= fun hit =>
          if hit then .ok false else validateLoop c g u dt n (stepPose u dt x)) := rfl
    rw [e, hb, Res.ok_bind, hb']
    cases b
    · exact ⟨b', rfl⟩
    · exact ⟨false, rfl⟩

theorem numSteps_floor {horizon dt : ℝ} (hdt : 0 < dt) (hh : 0 ≤ horizon) (hf : horizon < 2 ^ 32 * dt) :
    ∃ n : UInt32, numSteps horizon dt = .ok n ∧ n.toNat = ⌊horizon / dt⌋₊ := by
  have h0 : 0 ≤ horizon / dt := by positivity
  have h1 : ⌊horizon / dt⌋₊ < 2 ^ 32 := by
    rw [Nat.floor_lt h0, div_lt_iff₀ hdt]
    exact_mod_cast hf
  refine ⟨UInt32.ofNat ⌊horizon / dt⌋₊, ?_, UInt32.toNat_ofNat_of_lt' (by unfold UInt32.size; omega)⟩
  unfold numSteps
  rw [real_div, real_fabs, abs_of_nonneg h0]
  exact castU32_real_of (Nat.floor_le h0) (Nat.lt_floor_add_one _) h1

/-- The validation returns a value if the robot has room for its horizon. -/
theorem C77_validate {c : Collision ℝ} {g : GridMap ℝ} (hs : Sensible c g) {x u : V3 ℝ}
    {dt horizon D : ℝ} (hdt : 0 < dt) (hh : 0 ≤ horizon) (hf : horizon < 2 ^ 32 * dt)
    (hD : speed u * horizon ≤ D) (hroom : Room g x D) :
    ∃ b, validateControl c g x u dt horizon = .ok b := by
  obtain ⟨n, hn, -⟩ := numSteps_floor hdt hh hf
  unfold validateControl
  rw [hn, Res.ok_bind]
  refine validateLoop_total c g u dt _ x fun k hk => ?_
  have h1 := (C76_validation u dt horizon hdt hh x n hn (k + 1) hk).trans hD
  exact (C30_no_failure_not_below c g hs _ (room_notBelow hroom h1)).1

/-- No pose simulated by the dynamic window is below the lower edges. -/
theorem dwa_checks {d : DynamicWindow ℝ} {g : GridMap ℝ} (hs : Sensible d.collision g)
    (hsteps : numSteps d.horizon d.dt = .ok d.steps) (hdt : 0 < d.dt) (hh : 0 ≤ d.horizon)
    {x v : V3 ℝ} {D : ℝ} (hD : speed v * d.horizon ≤ D) (hroom : Room g x D) :
    FreeRollout d g x v ∨ HitRollout d g x v :=
  free_or_hit d g x v fun k hk => (C30_no_failure_not_below d.collision g hs _ (room_notBelow hroom
    ((C76_validation v d.dt d.horizon hdt hh x d.steps hsteps (k + 1) hk).trans hD))).1

theorem search_total {F : Type} [Flt F] (d : DynamicWindow F) (vb : V3 F) (cost : V3 F → Res F)
    (hc : ∀ v ∈ visited d vb, ∃ c, cost v = .ok c) : ∃ b u, d.searchWindow vb cost = .ok (b, u) := by
  obtain ⟨r, hr⟩ := foldlM_consider_total _ hc (Flt.maxFin, V3.zero)
  rw [searchWindow_eq, hr, Res.ok_bind]
  by_cases ha : almostEqual r.1 (Flt.maxFin : F) = true
  · exact ⟨false, r.2, if_pos ha⟩
  · exact ⟨true, r.2, if_neg ha⟩

/-- The search for a twist near a reference twist returns a value if the robot has room. -/
theorem C77_controlTwist {d : DynamicWindow ℝ} {g : GridMap ℝ} (hs : Sensible d.collision g)
    (hsteps : numSteps d.horizon d.dt = .ok d.steps) (hdt : 0 < d.dt) (hh : 0 ≤ d.horizon)
    {x vb : V3 ℝ} (vref : V3 ℝ) {D : ℝ} (hD : ∀ v, IsSample d vb v → speed v * d.horizon ≤ D)
    (hroom : Room g x D) : ∃ b u, d.controlTwist g x vb vref = .ok (b, u) := by
  refine search_total d vb _ fun v hv => ?_
  rcases dwa_checks hs hsteps hdt hh (hD v ((mem_visited d vb v).mp hv)) hroom with hf | hh
  · exact ⟨_, (objectiveTwist_ok d g x vref v _).mpr (Or.inl ⟨hf, rfl⟩)⟩
  · exact ⟨_, (objectiveTwist_ok d g x vref v _).mpr (Or.inr ⟨hh, rfl⟩)⟩

/-- The search along a reference trajectory returns a value if the robot has room and the window
horizon ends within the columns of the reference. -/
theorem C77_controlTraj {d : DynamicWindow ℝ} {g : GridMap ℝ} (hs : Sensible d.collision g)
    (hsteps : numSteps d.horizon d.dt = .ok d.steps) (hdt : 0 < d.dt) (hh : 0 ≤ d.horizon)
    {x vb : V3 ℝ} (ref : List (V3 ℝ)) {dt_ref : ℝ} (hr : 0 < dt_ref) (h1 : 1 ≤ ref.length)
    (h2 : ref.length ≤ 2 ^ 32) (hcol : d.horizon ≤ (ref.length + 1 / 2) * dt_ref)
    {D : ℝ} (hD : ∀ v, IsSample d vb v → speed v * d.horizon ≤ D)
    (hroom : Room g x D) : ∃ b u, d.controlTraj g x vb ref dt_ref = .ok (b, u) := by
  have hn : d.steps.toNat = ⌊d.horizon / d.dt⌋₊ := by
    unfold numSteps at hsteps
    rw [real_div, real_fabs, abs_of_nonneg (by positivity)] at hsteps
    have := castU32_real_eq_ok hsteps
    rw [realTrunc_of_nonneg (by positivity)] at this
    have h3 : (⌊d.horizon / d.dt⌋₊ : Int) = d.steps.toNat := by
      rw [Int.natCast_floor_eq_floor (by positivity), this]
    exact_mod_cast h3.symm
  refine search_total d vb _ fun v hv => ?_
  simp only [real_mul, real_ofInt, Int.cast_natCast]
  have hl : (0:ℝ) < ref.length := by exact_mod_cast h1
  exact C58_total d hdt.le g x v ref h1 h2 (by positivity)
    (C58_in_range_partial dt_ref d.dt d.horizon ref.length d.steps.toNat hr hdt hcol hn h1)
    (dwa_checks hs hsteps hdt hh (hD v ((mem_visited d vb v).mp hv)) hroom)

/-! ## One iteration -/

section
variable {model : TwistModel ℝ} {collision : Collision ℝ} {dt horizon resolution weight : ℝ}
  {num_basis buffer_size batch_size : Nat} {Rinv : M3 ℝ} {umin umax : V3 ℝ} {e e' : ErgodicControl ℝ}

/-- The columns stored by a controller of either robot do not make the model throw. -/
theorem columns_accepted (hm : model = omniModel ∨ (model = cartModel ∧ umin.c1 = 0 ∧ umax.c1 = 0))
    (hb : EcBuilt model collision dt horizon resolution weight num_basis buffer_size batch_size Rinv
      umin umax e) : ∀ y, ∀ v ∈ V3.zero :: e.ut, ∃ d, model.f y v = .ok d := by
  intro y v hv
  rcases hm with rfl | ⟨rfl, a, b⟩
  · exact ⟨_, rfl⟩
  · have hz : v.c1 = 0 := by
      rw [List.mem_cons] at hv
      rcases hv with rfl | hv
      · simp [V3.zero]
      · rcases columns_always hb v hv with rfl | hv
        · simp [V3.zero]
        · simp only [NotOutside, real_lt_false, a, b] at hv
          exact le_antisymm hv.2.1.2 hv.2.1.1
    refine ⟨⟨v.c0 *. Flt.cos y.c2, v.c0 *. Flt.sin y.c2, v.c2⟩, ?_⟩
    show SimpleCart.f y v = _
    unfold SimpleCart.f
    rw [if_neg]
    rw [not_not, hz]
    norm_num [almostEqual, real_fabs]

/-- Replanning succeeds. -/
theorem C77_replan (hm : model = omniModel ∨ (model = cartModel ∧ umin.c1 = 0 ∧ umax.c1 = 0))
    (s : Expl ℝ) (hb : EcBuilt model collision dt horizon resolution weight num_basis buffer_size
      batch_size Rinv umin umax s.ec) (hn : 2 ≤ s.ec.steps.toNat) (hres : 0 < resolution)
    (hx : s.grid.xmin ≤ s.grid.xmax) (hy : s.grid.ymin ≤ s.grid.ymax)
    (hfit : TargetGridFits s.grid resolution) {draws : List Nat} (hd : draws.length = batch_size)
    (hr : ∀ r ∈ draws, r < s.ec.buffer.memory.length)
    (h0 : umin.c0 ≤ umax.c0) (h1 : umin.c1 ≤ umax.c1) (h2 : umin.c2 ≤ umax.c2) :
    ∃ r o, s.replan draws = .ok (r, o) := by
  unfold Expl.replan
  split
  · exact ⟨_, _, rfl⟩
  · have hi := hb.inv
    have hcfg := configTarget_total s.ec s.grid (by rw [hi.resolution_eq]; exact hres) hx hy
      (by rw [hi.resolution_eq]; exact hfit)
    obtain ⟨e', u, hc⟩ := C60_total (x := s.pose) (draws := draws) hb hn (columns_accepted hm hb) hcfg hd hr
      (by rwa [real_lt_false]) (by rwa [real_lt_false]) (by rwa [real_lt_false])
    have hb' := hb.control hc
    obtain ⟨-, p, hp⟩ := (C60_replay hb hc).2.2 (fun y v hv => columns_accepted hm hb' y v
      (List.mem_cons_of_mem _ hv)) s.map_frame_id
    rw [hc]
    simp only [Res.ok_bind, hp]
    exact ⟨_, _, rfl⟩

/-- Avoiding succeeds. -/
theorem C77_avoid (hm : model = omniModel ∨ (model = cartModel ∧ umin.c1 = 0 ∧ umax.c1 = 0))
    (s : Expl ℝ) (hb : EcBuilt model collision dt horizon resolution weight num_basis buffer_size
      batch_size Rinv umin umax s.ec) (hn : 2 ≤ s.ec.steps.toNat) (hdt : 0 < dt)
    (hs : Sensible s.collision s.grid) (hs' : Sensible s.dwa.collision s.grid)
    (hsteps : numSteps s.dwa.horizon s.dwa.dt = .ok s.dwa.steps) (hddt : 0 < s.dwa.dt)
    (hdh : 0 ≤ s.dwa.horizon) (hvdt : 0 < s.val_dt) (hvh : 0 ≤ s.val_horizon)
    (hvf : s.val_horizon < 2 ^ 32 * s.val_dt)
    (hcol : s.dwa.horizon ≤ (s.ec.steps.toNat + 1 / 2) * dt) {D : ℝ}
    (hu : speed s.u * s.val_horizon ≤ D)
    (hD : ∀ v, IsSample s.dwa s.vb v → speed v * s.dwa.horizon ≤ D) (hroom : Room s.grid s.pose D) :
    ∃ r o, s.avoid = .ok (r, o) := by
  have hi := hb.inv
  obtain ⟨valid, hv⟩ := C77_validate hs hvdt hvh hvf hu hroom
  unfold Expl.avoid
  rw [hv, Res.ok_bind]
  cases valid with
  | true => exact ⟨_, _, rfl⟩
  | false =>
    rw [if_neg (by simp)]
    split
    · obtain ⟨b, u, hc⟩ := C77_controlTwist hs' hsteps hddt hdh (vb := s.vb) s.u hD hroom
      rw [hc, Res.ok_bind]
      exact ⟨_, _, rfl⟩
    · obtain ⟨xs, hxs⟩ := (C51_total s.ec.dt s.ec.horizon s.ec.model.f s.ec.pose s.ec.ut
        (fun y v hv => by
          rw [hi.model_eq]; exact columns_accepted hm hb y v (List.mem_cons_of_mem _ hv))
        s.ec.steps hi.steps).1.mpr hi.ut_length.ge
      have hlen : xs.length = s.ec.steps.toNat := by
        obtain ⟨n, hn', hl, -⟩ := C51_structure _ _ _ _ _ _ hxs
        rw [hi.steps, Res.ok.injEq] at hn'
        rw [hn', hl]
      have hts : s.ec.timeStep = dt := hi.dt_eq
      obtain ⟨b, u, hc⟩ := C77_controlTraj hs' hsteps hddt hdh (vb := s.vb) xs hdt
        (by omega) (by rw [hlen]; exact s.ec.steps.toNat_lt.le) (by rw [hlen]; exact hcol) hD hroom
      have hxs' : s.ec.optTraj = .ok xs := hxs
      rw [hxs', Res.ok_bind, hts, hc, Res.ok_bind]
      cases b with
      | false => exact ⟨_, _, rfl⟩
      | true =>
        dsimp only
        rw [if_pos rfl]
        unfold constTwistPath
        rw [hsteps, Res.ok_bind, Res.ok_bind]
        exact ⟨_, _, rfl⟩

/-- A trace exists for every history whose iterations are supplied and leave room. -/
theorem C77_trace (hm : model = omniModel ∨ (model = cartModel ∧ umin.c1 = 0 ∧ umax.c1 = 0))
    {ec : ErgodicControl ℝ} (hec : ErgodicControl.new model collision dt horizon resolution weight
      num_basis buffer_size batch_size Rinv umin umax = .ok ec) (hn : 2 ≤ ec.steps.toNat)
    (hres : 0 < resolution) (hdt : 0 < dt) (h0 : umin.c0 ≤ umax.c0) (h1 : umin.c1 ≤ umax.c1)
    (h2 : umin.c2 ≤ umax.c2) {dwa : DynamicWindow ℝ} (hcoll : dwa.collision = collision)
    (hsteps : numSteps dwa.horizon dwa.dt = .ok dwa.steps) (hddt : 0 < dwa.dt) (hdh : 0 ≤ dwa.horizon)
    {val_dt val_horizon : ℝ} (hvdt : 0 < val_dt) (hvh : 0 ≤ val_horizon)
    (hvf : val_horizon < 2 ^ 32 * val_dt) (hcol : dwa.horizon ≤ (ec.steps.toNat + 1 / 2) * dt)
    (target : Target ℝ) (frame : String) {vmax D : ℝ} (hz : 0 ≤ vmax)
    (hbox : ∀ u : V3 ℝ, (umin.c0 ≤ u.c0 ∧ u.c0 ≤ umax.c0) → (umin.c1 ≤ u.c1 ∧ u.c1 ≤ umax.c1) →
      speed u ≤ vmax) (hDv : vmax * val_horizon ≤ D) (hDd : vmax * dwa.horizon ≤ D)
    (es : List (Event ℝ))
    (hsamp : ∀ vb, vb = V3.zero ∨ vb ∈ odoms es → ∀ u, IsSample dwa vb u → speed u ≤ vmax)
    (hsup : AllSupplied collision resolution buffer_size batch_size es) (hroom : AlwaysRoom D es) :
    ∃ os t, Trace (Expl.start ec collision dwa target frame val_dt val_horizon).1 es os t := by
  induction es using List.reverseRecOn with
  | nil => exact ⟨[], _, .nil⟩
  | append_singleton es e ih =>
    obtain ⟨os, s, ht⟩ := ih
      (fun vb hvb => hsamp vb (by
        rcases hvb with h | h
        · exact Or.inl h
        · right; simp only [odoms, List.filterMap_append, List.mem_append] at h ⊢; exact Or.inl h))
      (fun pre tf draws post h => hsup pre tf draws (post ++ [e]) (by rw [h]; simp))
      (fun pre tf draws post m x h => hroom pre tf draws (post ++ [e]) m x (by rw [h]; simp))
    suffices h : ∃ t o, s.step e = .ok (t, o) by
      obtain ⟨t, o, h⟩ := h
      exact ⟨_, _, .snoc ht h⟩
    cases e with
    | map m => exact ⟨_, _, rfl⟩
    | odom v => exact ⟨_, _, rfl⟩
    | tick tf draws =>
      have hsp := hsup es tf draws [] rfl
      have hrm := fun m x => hroom es tf draws [] m x rfl
      have hi1 := ht.inv.localize tf draws
      have hi := hi1.advance
      have hpub := published_in (fun u => speed u ≤ vmax) (by simpa [speed, V3.zero] using hz)
        (fun e e' g x u draws hre hc => by
          obtain ⟨a, b, -⟩ := ec_in_box hec hre hc
          exact hbox u a b) (fun vb hvb => hsamp vb (by
        rcases hvb with h | h
        · exact Or.inl h
        · right; simp only [odoms, List.filterMap_append, List.mem_append] at h ⊢; exact Or.inl h)) ht
      show ∃ t o, s.iteration tf draws = .ok (t, o)
      unfold Expl.iteration
      dsimp only
      by_cases hact : ((s.localize tf).map_received && (s.localize tf).pose_known) = true
      · rw [if_pos hact]
        rw [Bool.and_eq_true] at hact
        -- the current map and pose
        have hmaps : maps (es ++ [Event.tick tf draws]) = maps es := by simp [maps, Event.map?]
        have hmap : ∃ m, (maps es).getLast? = some m := by
          have := hi1.map_received_eq
          rw [hact.1, hmaps] at this
          cases hl : (maps es).getLast? with
          | none => rw [List.getLast?_eq_none_iff] at hl; rw [hl] at this; simp at this
          | some m => exact ⟨m, rfl⟩
        have hpose : ∃ x, (poses (es ++ [Event.tick tf draws])).getLast? = some x := by
          have := hi1.pose_known_eq
          rw [hact.2] at this
          cases hl : (poses (es ++ [Event.tick tf draws])).getLast? with
          | none => rw [List.getLast?_eq_none_iff] at hl; rw [hl] at this; simp at this
          | some m => exact ⟨m, rfl⟩
        obtain ⟨m, hm'⟩ := hmap
        obtain ⟨x, hx⟩ := hpose
        obtain ⟨hsens, hfit⟩ := hsp.map m hm'
        have hroom' := hrm m x hm' hx
        set a := (s.localize tf).advanceDwa with ha
        have hgrid : a.grid = mapOf m := hi.grid_eq m (by rw [hmaps]; exact hm')
        have hpose : a.pose = x := hi.pose_eq x hx
        have hb : EcBuilt model collision dt horizon resolution weight num_basis buffer_size batch_size
          Rinv umin umax a.ec := ⟨ec, hec, hi.ec_reach⟩
        have hst : ∀ b : ErgodicControl ℝ, EcBuilt model collision dt horizon resolution weight num_basis
            buffer_size batch_size Rinv umin umax b → b.steps = ec.steps := by
          intro b hb
          have h1 := hb.inv.steps_eq
          have h2 := (EcBuilt.inv ⟨ec, hec, .start⟩).steps_eq
          rw [h1, Res.ok.injEq] at h2
          exact h2
        have hmem : a.ec.buffer.memory.length =
            min (poses (es ++ [Event.tick tf draws])).length buffer_size := by
          have hb0 : ec.buffer = { buffer_size, batch_size } := by
            have h := hec
            simp only [ErgodicControl.new, Res.bind_eq_ok] at h
            obtain ⟨steps, -, h⟩ := h
            split at h
            · simp at h
            · simp only [Res.ok.injEq] at h
              rw [← h]
          rw [hi.buffer_eq, hb0]
          exact (C22_first_states_kept buffer_size batch_size _).1
        have hw : (0:ℝ) ≤ ((mapOf m).xsize.toNat : ℝ) * (mapOf m).resolution :=
          mul_nonneg (Nat.cast_nonneg _) hsens.res.le
        have hh : (0:ℝ) ≤ ((mapOf m).ysize.toNat : ℝ) * (mapOf m).resolution :=
          mul_nonneg (Nat.cast_nonneg _) hsens.res.le
        obtain ⟨r, o1, hr⟩ := C77_replan hm a hb (by rw [hst _ hb]; exact hn) hres
          (by
            rw [hgrid]
            simp only [mapOf, real_add, real_mul, real_ofInt, Int.cast_natCast] at hw ⊢
            linarith)
          (by
            rw [hgrid]
            simp only [mapOf, real_add, real_mul, real_ofInt, Int.cast_natCast] at hh ⊢
            linarith)
          (by rw [hgrid]; exact hfit) hsp.count (fun q hq => by rw [hmem]; exact hsp.range q hq) h0 h1 h2
        have hir := hi.replan hr
        have hbr : EcBuilt model collision dt horizon resolution weight num_basis buffer_size batch_size
          Rinv umin umax r.ec := ⟨ec, hec, hir.ec_reach⟩
        have hru : speed r.u ≤ vmax := by
          rcases Expl.replan_ok hr with ⟨-, rfl, -⟩ | ⟨-, ec', u, p, hc', -, rfl, -⟩
          · obtain ⟨i, f, e⟩ := (s.localize tf).advanceDwa_frame
            rw [ha, e]
            obtain ⟨-, -, -, -, -, -, -, -, f9, -, -⟩ := s.localize_frame tf
            show speed (s.localize tf).u ≤ vmax
            rw [f9]; exact hpub.1
          · obtain ⟨p, q, -⟩ := ec_in_box hec hi.ec_reach hc'
            exact hbox u p q
        have hvb : r.vb = V3.zero ∨ r.vb ∈ odoms (es ++ [Event.tick tf draws]) := by
          rw [hir.vb_eq]
          unfold lastOdom
          cases hl : (odoms (es ++ [Event.tick tf draws])).getLast? with
          | none => exact Or.inl rfl
          | some v => exact Or.inr (List.mem_of_getLast? hl)
        have hgr : r.grid = mapOf m := hir.grid_eq m (by rw [hmaps]; exact hm')
        have hpr : r.pose = x := hir.pose_eq x hx
        obtain ⟨t, o2, ha⟩ := C77_avoid (D := D) hm r hbr (by rw [hst _ hbr]; exact hn) hdt
          (by rw [hir.collision_eq, hgr]; exact hsens)
          (by rw [hir.dwa_eq, hcoll, hgr]; exact hsens) (by rw [hir.dwa_eq]; exact hsteps)
          (by rw [hir.dwa_eq]; exact hddt) (by rw [hir.dwa_eq]; exact hdh)
          (by rw [hir.val_dt_eq]; exact hvdt) (by rw [hir.val_horizon_eq]; exact hvh)
          (by rw [hir.val_horizon_eq, hir.val_dt_eq]; exact hvf)
          (by rw [hir.dwa_eq, hst _ hbr]; exact hcol)
          (by rw [hir.val_horizon_eq]; exact (mul_le_mul_of_nonneg_right hru hvh).trans hDv)
          (by
            rw [hir.dwa_eq]
            exact fun v hv => (mul_le_mul_of_nonneg_right (hsamp r.vb hvb v hv) hdh).trans hDd)
          (by rw [hgr, hpr]; exact hroom')
        rw [hr, Res.ok_bind]
        dsimp only
        rw [ha, Res.ok_bind]
        exact ⟨_, _, rfl⟩
      · rw [if_neg hact]
        exact ⟨_, _, rfl⟩

end

/-! ## The two executables -/

/-- Full statement of C77: with sane parameters, recoverable odometry and supplied iterations, a
robot that is always inside the map never makes the node stop. -/
def C77_statement : Prop :=
  ∀ (p : Params ℝ) (n : Node ℝ) (o : List (Out ℝ)) (c : Collision ℝ) (es : List (Event ℝ)), Sane p →
    Collision.new p.boundary_radius p.search_radius p.obstacle_threshold p.occupied_threshold = .ok c →
    RecoverableAll p ⟨0, 0, 0⟩ → (∀ v ∈ odoms es, RecoverableAll p v) → Node.omni p = .ok (n, o) →
    AllSupplied c p.target_resolution p.buffer_size p.batch_size es → AlwaysInside es →
    ∃ n' out, n.run es = .ok (n', out)

theorem node_total {n : Node ℝ} {es : List (Event ℝ)} {s t : Expl ℝ} {os : List (List (Out ℝ))}
    (hs : n.expl = s) (h : Trace s es os t) : ∃ n' out, n.run es = .ok (n', out) := by
  cases hu : n.up with
  | true =>
    subst hs
    exact ⟨_, _, node_run_of_expl n hu es t os.flatten ((run_iff_trace _ _ _ _).mpr ⟨os, h, rfl⟩)⟩
  | false => exact ⟨_, _, node_run_down n hu es⟩

/-- C77 for the omni-directional robot: when at every iteration the robot has room for its fastest
motion over the longer of the two look-ahead horizons, the node handles every history: it neither
throws nor has undefined behaviour.  Missing: robots closer to the lower edges of the map, see
`C77_refuted`. -/
theorem C77_omni_partial (p : Params ℝ) (n : Node ℝ) (o : List (Out ℝ)) (c : Collision ℝ)
    (es : List (Event ℝ)) (hp : Sane p)
    (hc : Collision.new p.boundary_radius p.search_radius p.obstacle_threshold p.occupied_threshold = .ok c)
    (hz : RecoverableAll p ⟨0, 0, 0⟩) (ho : ∀ v ∈ odoms es, RecoverableAll p v)
    (hn : Node.omni p = .ok (n, o)) (vmax : ℝ) (hv : ∀ u, WithinParams p u → speed u ≤ vmax)
    (hs : AllSupplied c p.target_resolution p.buffer_size p.batch_size es)
    (hr : AlwaysRoom (vmax * max p.val_horizon p.dwa_horizon) es) :
    ∃ n' out, n.run es = .ok (n', out) := by
  obtain ⟨w0, w1, w2, gs, collision, ec, dwa, ⟨-, -, -, -, hcol⟩, hec, hdwa, hst, -⟩ := omni_parts hn
  rw [hc, Res.ok.injEq] at hcol
  subst hcol
  have hzero : (V3.zero : V3 ℝ) = ⟨0, 0, 0⟩ := by simp [V3.zero]
  have hl : WithinParams p ⟨0, 0, 0⟩ := ⟨⟨hp.min_x, hp.max_x⟩, ⟨hp.min_y, hp.max_y⟩, hp.min_rot, hp.max_rot⟩
  have hvm : 0 ≤ vmax := (speed_nonneg _).trans (hv _ hl)
  obtain ⟨N, hN, hNf⟩ := numSteps_floor hp.ec_dt (by linarith [hp.ec_two, hp.ec_dt]) hp.ec_fits
  have hecs : ec.steps = N := by
    have := (EcBuilt.inv ⟨ec, hec, .start⟩).steps_eq
    rw [hN, Res.ok.injEq] at this
    exact this.symm
  have h2 : 2 ≤ ec.steps.toNat := by
    rw [hecs, hNf]
    refine Nat.le_floor ?_
    rw [le_div_iff₀ hp.ec_dt]
    exact_mod_cast hp.ec_two
  simp only [DynamicWindow.new, Res.bind_eq_ok, Res.ok.injEq] at hdwa
  obtain ⟨steps, hsteps, hd⟩ := hdwa
  obtain ⟨os, t, ht⟩ := C77_trace (Or.inl rfl) hec h2 hp.resolution hp.ec_dt
    (hp.min_x.trans hp.max_x) (hp.min_y.trans hp.max_y) (hp.min_rot.trans hp.max_rot) (dwa := dwa) (by rw [← hd])
    (by rw [← hd]; exact hsteps) (by rw [← hd]; exact hp.dwa_dt) (by rw [← hd]; exact hp.dwa_horizon) hp.val_dt hp.val_horizon hp.val_fits
    (by rw [hecs, hNf, ← hd]; exact hp.columns) ⟨gs⟩ p.map_frame_id hvm
    (fun u a b => by
      have := hv ⟨u.c0, u.c1, 0⟩ ⟨a, b, hp.min_rot, hp.max_rot⟩
      exact this)
    (mul_le_mul_of_nonneg_left (le_max_left p.val_horizon p.dwa_horizon) hvm)
    (by rw [← hd]; exact mul_le_mul_of_nonneg_left (le_max_right p.val_horizon p.dwa_horizon) hvm) es
    (fun vb hvb u hu => by
      subst hd
      have hvr : RecoverableAll p vb := by
        rcases hvb with rfl | hvb
        · rw [hzero]; exact hz
        · exact ho vb hvb
      exact hv u (C55_within_partial _ vb u (by obtain ⟨a, b, c⟩ := hvr; exact ⟨a, b, c⟩) hu).1) hs hr
  exact node_total (congrArg Prod.fst hst) ht

/-- C77 for the cart: the same, the fastest motion being the larger forward speed together with the
largest measured lateral velocity `lat` (a positive measured lateral velocity is simulated, see
`C70_refuted_cart`). -/
theorem C77_cart_partial (p : Params ℝ) (n : Node ℝ) (o : List (Out ℝ)) (c : Collision ℝ)
    (es : List (Event ℝ)) (hp : Sane p)
    (hc : Collision.new p.boundary_radius p.search_radius p.obstacle_threshold p.occupied_threshold = .ok c)
    (hz : RecoverableAll p ⟨0, 0, 0⟩) (lat : ℝ) (hlat : 0 ≤ lat) (ho : ∀ v ∈ odoms es,
      Recoverable v.c0 (p.acc_lim_x * p.acc_dt) p.min_vel_x p.max_vel_x ∧ v.c1 ≤ lat ∧
      Recoverable v.c2 (p.acc_lim_th * p.acc_dt) p.min_rot_vel p.max_rot_vel)
    (hn : Node.cart p = .ok (n, o)) (vmax : ℝ)
    (hv : ∀ u : V3 ℝ, p.min_vel_x ≤ u.c0 → u.c0 ≤ p.max_vel_x → 0 ≤ u.c1 → u.c1 ≤ lat → speed u ≤ vmax)
    (hs : AllSupplied c p.target_resolution p.buffer_size p.batch_size es)
    (hr : AlwaysRoom (vmax * max p.val_horizon p.dwa_horizon) es) :
    ∃ n' out, n.run es = .ok (n', out) := by
  obtain ⟨w0, w1, gs, collision, ec, dwa, ⟨-, -, -, hcol⟩, hec, hdwa, hst, -⟩ := cart_parts hn
  rw [hc, Res.ok.injEq] at hcol
  subst hcol
  have hzero : (V3.zero : V3 ℝ) = ⟨0, 0, 0⟩ := by simp [V3.zero]
  have hvm : 0 ≤ vmax := (speed_nonneg _).trans (hv ⟨0, 0, 0⟩ hp.min_x hp.max_x le_rfl hlat)
  obtain ⟨N, hN, hNf⟩ := numSteps_floor hp.ec_dt (by linarith [hp.ec_two, hp.ec_dt]) hp.ec_fits
  have hecs : ec.steps = N := by
    have := (EcBuilt.inv ⟨ec, hec, .start⟩).steps_eq
    rw [hN, Res.ok.injEq] at this
    exact this.symm
  have h2 : 2 ≤ ec.steps.toNat := by
    rw [hecs, hNf]
    refine Nat.le_floor ?_
    rw [le_div_iff₀ hp.ec_dt]
    exact_mod_cast hp.ec_two
  have hl0 : (lit 0 0 : ℝ) = 0 := by simp
  simp only [DynamicWindow.new, Res.bind_eq_ok, Res.ok.injEq] at hdwa
  obtain ⟨steps, hsteps, hd⟩ := hdwa
  obtain ⟨os, t, ht⟩ := C77_trace (Or.inr ⟨rfl, hl0, hl0⟩) hec h2 hp.resolution hp.ec_dt
    (hp.min_x.trans hp.max_x) le_rfl (hp.min_rot.trans hp.max_rot) (dwa := dwa) (by rw [← hd])
    (by rw [← hd]; exact hsteps) (by rw [← hd]; exact hp.dwa_dt) (by rw [← hd]; exact hp.dwa_horizon) hp.val_dt hp.val_horizon hp.val_fits
    (by rw [hecs, hNf, ← hd]; exact hp.columns) ⟨gs⟩ p.map_frame_id hvm
    (fun u a b => by
      rw [hl0] at b
      exact hv u a.1 a.2 b.1 (b.2.trans hlat))
    (mul_le_mul_of_nonneg_left (le_max_left p.val_horizon p.dwa_horizon) hvm)
    (by rw [← hd]; exact mul_le_mul_of_nonneg_left (le_max_right p.val_horizon p.dwa_horizon) hvm) es
    (fun vb hvb u hu => by
      subst hd
      have hvr : Recoverable vb.c0 (p.acc_lim_x * p.acc_dt) p.min_vel_x p.max_vel_x ∧ vb.c1 ≤ lat := by
        rcases hvb with rfl | hvb
        · rw [hzero]; exact ⟨hz.1, hlat⟩
        · exact ⟨(ho vb hvb).1, (ho vb hvb).2.1⟩
      obtain ⟨i, hi, j, hj, k, hk, e0, e1, e2⟩ := (C55_grid _ vb u).mp hu
      have hx := (axis_in_window hvr.1 hi e0).1
      have hj0 : j = 0 := by
        have : (DynamicWindow.atLeastOne 0).toNat = 1 := by decide
        simp only [this] at hj; omega
      subst hj0
      simp only [real_lit] at e1
      norm_num at e1
      exact hv u hx.1 hx.2 (by rw [e1]; exact le_max_right _ _) (by rw [e1]; exact max_le hvr.2 hlat)) hs hr
  exact node_total (congrArg Prod.fst hst) ht

/-! ## The full statement is false -/

theorem three_events {F : Type} {m : OccupancyGrid F} {v : V3 F} {tf tf' : Option (TransformMsg F)}
    {d d' : List Nat} {pre post : List (Event F)}
    (h : [.map m, .odom v, .tick tf d] = pre ++ .tick tf' d' :: post) :
    pre = [.map m, .odom v] ∧ tf' = tf ∧ d' = d := by
  rcases pre with _ | ⟨a, _ | ⟨b, _ | ⟨c, r⟩⟩⟩ <;> simp_all

/-- the robot in the lower right cell, below the obstacle -/
noncomputable def lowTf (x y : ℝ) : TransformMsg ℝ := ⟨x, y, 0, 0, 0, 1⟩

theorem low_pose (x y : ℝ) (draws : List Nat) : poses ([.map sideMsg, .odom ⟨1, 0, 1⟩] ++
    [Event.tick (some (lowTf x y)) draws]) = [⟨x, y, 0⟩] := by
  show [(⟨x, y, getYaw (0:ℝ) 0 0 1⟩ : V3 ℝ)] = _
  rw [midTf_yaw]

theorem low_maps : maps ([.map sideMsg, .odom ⟨1, 0, 1⟩] : List (Event ℝ)) = [sideMsg] := by
  simp [maps, Event.map?]

theorem side_sensible : Sensible nearDetector (mapOf sideMsg) := by
  refine ⟨side_wf, ?_, by decide, by decide, by decide, by decide, ?_, ?_, ?_, ?_, ?_⟩ <;>
    norm_num [nearDetector, mapOf, sideMsg]

theorem side_fits : TargetGridFits (mapOf sideMsg) 1 := by
  have hf : ⌊(3:ℝ) + 1 / 2⌋₊ = 3 := by
    rw [Nat.floor_eq_iff (by norm_num)]; constructor <;> norm_num
  simp only [TargetGridFits, mapOf, sideMsg, real_mul, real_add, real_ofInt, UInt32.toNat_ofNat]
  norm_num
  rw [show (7:ℝ)/2 = 3 + 1/2 by norm_num, hf]
  norm_num

theorem side_supplied (x y : ℝ) : AllSupplied nearDetector 1 10 0
    [.map sideMsg, .odom ⟨1, 0, 1⟩, .tick (some (lowTf x y)) []] := by
  intro pre tf draws post h
  obtain ⟨rfl, rfl, rfl⟩ := three_events h
  refine ⟨rfl, by simp, ?_⟩
  intro m hm
  rw [low_maps, List.getLast?_singleton, Option.some.injEq] at hm
  subst hm
  exact ⟨side_sensible, side_fits⟩

theorem side_sane : Sane (sideParams 1 1 (-1) 1) := by
  constructor <;> simp only [sideParams] <;> norm_num

theorem side_recoverable (v : V3 ℝ) (h0 : |v.c0| ≤ 1) (h1 : |v.c1| ≤ 1) (h2 : |v.c2| ≤ 1) :
    RecoverableAll (sideParams 1 1 (-1) 1) v := by
  have h0 := abs_le.mp h0
  have h1 := abs_le.mp h1
  have h2 := abs_le.mp h2
  simp only [RecoverableAll, Recoverable, sideParams]
  refine ⟨?_, ?_, ?_⟩ <;> norm_num <;> constructor <;> linarith

/-- below the obstacle every pose collides -/
theorem low_collides (pose : V3 ℝ) (h0 : 2 ≤ pose.c0) (h1 : pose.c0 < 3) (h2 : 0 ≤ pose.c1)
    (h3 : pose.c1 < 1) : nearDetector.collisionCheck (mapOf sideMsg) pose = .ok true := by
  have hc := near_config pose 0 2 (by decide) (by decide) (by
    simp only [InHalfOpenCell, mapOf, sideMsg, UInt32.toNat_ofNat]
    refine ⟨?_, ?_, ?_, ?_⟩ <;> norm_num <;> linarith)
  exact C26_axis_partial _ _ side_wf _ _ hc (by constructor <;> decide) 1 (by decide) (by decide)
    (by decide) (by decide) (Or.inr (Or.inr (Or.inl ((side_occupied _ _).mpr (by decide)))))

theorem low_invalid (u : V3 ℝ) (h0 : |u.c0| ≤ 1) (h1 : |u.c1| ≤ 1) :
    validateControl nearDetector (mapOf sideMsg) ⟨2.5, 0.5, 0⟩ u 0.1 0.1 = .ok false := by
  rw [C20_rejects_iff _ _ _ _ _ _ 1 steps_val]
  refine ⟨0, by decide, ?_, by omega⟩
  have hp := planar_le (C76_poseAfter u 0.1 (by norm_num) ⟨2.5, 0.5, 0⟩ 1)
  have hs : speed u ≤ 2 := by
    unfold speed
    rw [Real.sqrt_le_left (by norm_num)]
    have := sq_abs u.c0
    have := sq_abs u.c1
    nlinarith [abs_nonneg u.c0, abs_nonneg u.c1]
  have hr : speed u * (((1 : ℕ) : ℝ) * |(0.1:ℝ)|) ≤ 0.2 := by
    rw [abs_of_pos (by norm_num)]
    push_cast
    linarith
  obtain ⟨ha, hb⟩ := hp
  have ha := abs_le.mp (ha.trans hr)
  have hb := abs_le.mp (hb.trans hr)
  dsimp only at ha hb
  rw [Nat.zero_add]
  apply low_collides
  · linarith [ha.1]
  · linarith [ha.2]
  · linarith [hb.1]
  · linarith [hb.2]

/-- beyond the lower edge the query has undefined behaviour -/
theorem low_undefined : nearDetector.collisionCheck (mapOf sideMsg) ⟨2.5, -0.5, 0⟩ = .ub := by
  have hu := strip_ub (res := (1:ℝ)) (lo := 0) (x := -0.5) (by norm_num) (by norm_num)
  have ho : ∃ n, castU32 (Flt.floor (((2.5:ℝ) - 0) / 1)) = .ok n :=
    ⟨_, castU32_real_of (n := 2) (by norm_num) (by norm_num) (by norm_num)⟩
  obtain ⟨n, ho⟩ := ho
  have hw : (mapOf sideMsg).world2Grid (2.5:ℝ) (-0.5) = .ub := by
    simp only [GridMap.world2Grid, mapOf, sideMsg, real_sub, real_div, ho, hu, Res.ok_bind, Res.ub_bind]
  simp [Collision.collisionCheck, Collision.config, hw]

/-- C77 is false: the robot is inside the map, within its limits, below an obstacle.  Its control is
rejected and the dynamic window simulates driving off the lower edge of the map, where the collision
query converts a negative number to unsigned. -/
theorem C77_refuted : ¬ C77_statement := by
  intro hc
  obtain ⟨target, ec, Rinv, o, hec, hn⟩ := side_omni 1 1 (by norm_num) (by norm_num) 1 (-1) 1
  obtain ⟨n', out, hr⟩ := hc _ _ _ _ [.map sideMsg, .odom ⟨1, 0, 1⟩, .tick (some (lowTf 2.5 0.5)) []]
    side_sane side_collision (side_recoverable _ (by norm_num) (by norm_num) (by norm_num))
    (by
      intro v hv
      simp only [odoms, List.filterMap_cons, Event.odom?, List.filterMap_nil, List.mem_singleton] at hv
      subst hv
      exact side_recoverable _ (by norm_num) (by norm_num) (by norm_num)) hn (side_supplied _ _) (by
      intro pre tf draws post m x h hm hx
      obtain ⟨rfl, rfl, rfl⟩ := three_events h
      rw [low_maps, List.getLast?_singleton, Option.some.injEq] at hm
      rw [low_pose, List.getLast?_singleton, Option.some.injEq] at hx
      subst hm hx
      simp only [InRect, mapOf, sideMsg, UInt32.toNat_ofNat]
      norm_num)
  have hr := (node_run_up _ _ lt_two_one _ _ hr).1
  simp only [Expl.run, Res.bind_eq_ok] at hr
  obtain ⟨⟨s1, o1⟩, hs1, ⟨r1, p1⟩, ⟨⟨s2, o2⟩, hs2, ⟨r2, p2⟩, ⟨⟨s3, o3⟩, hs3, -⟩, -⟩, -⟩ := hr
  simp only [Expl.step, Res.ok.injEq, Prod.mk.injEq] at hs1 hs2
  obtain ⟨rfl, -⟩ := hs1
  obtain ⟨rfl, -⟩ := hs2
  have hs3 : (((Expl.start ec nearDetector (sideDwa 1 (UInt32.ofNat 1) 1 (-1) 1) target "map" 0.1
    0.1).1.mapCallback sideMsg).odomCallback ⟨1, 0, 1⟩).iteration (some (lowTf 2.5 0.5)) [] =
    .ok (s3, o3) := hs3
  rcases Expl.iteration_ok hs3 with ⟨h, -⟩ | ⟨-, r, q1, q2, hrep, hav, -⟩
  · revert h; simp [Expl.localize, lowTf, Expl.mapCallback, Expl.odomCallback]
  · have hb : EcBuilt omniModel nearDetector 1 2 1 1 2 10 0 Rinv ⟨-1, -1, -1⟩ ⟨1, 1, 1⟩
        ((ec.setTarget target).addStateMemory ⟨2.5, 0.5, 0⟩) :=
      ⟨ec, hec, .addStateMemory _ (.setTarget _ .start)⟩
    rcases Expl.replan_ok hrep with ⟨h, -⟩ | ⟨-, ec', u, p, hctl, -, rfl, -⟩
    · revert h
      simp [Expl.localize, lowTf, Expl.mapCallback, Expl.odomCallback, Expl.advanceDwa, Expl.start]
    · have hadv : ∀ s : Expl ℝ, s.follow_dwa = false → s.advanceDwa = s := by
        intro s hs
        unfold Expl.advanceDwa
        rw [if_neg (by rw [hs]; simp)]
      rw [hadv _ rfl] at hctl hav
      have hloc : ∀ s : Expl ℝ, s.localize (some (lowTf 2.5 0.5)) = { s with
          pose := ⟨2.5, 0.5, 0⟩, ec := s.ec.addStateMemory ⟨2.5, 0.5, 0⟩, pose_known := true } := by
        intro s
        simp only [Expl.localize, lowTf, midTf_yaw]
      rw [hloc] at hctl hav
      have hctl : ((ec.setTarget target).addStateMemory ⟨2.5, 0.5, 0⟩).control (mapOf sideMsg)
        ⟨2.5, 0.5, 0⟩ [] = .ok (ec', u) := hctl
      have hlim := (C59_not_outside hb hctl).1
      simp only [NotOutside, real_lt_false] at hlim
      have hinv := low_invalid u (abs_le.mpr ⟨hlim.1.1, hlim.1.2⟩) (abs_le.mpr ⟨hlim.2.1.1, hlim.2.1.2⟩)
      rcases Expl.avoid_ok hav with ⟨h, -⟩ | ⟨-, ⟨h, -⟩ | ⟨-, ref, b, u', href, hsearch, -⟩⟩
      · have h : validateControl nearDetector (mapOf sideMsg) ⟨2.5, 0.5, 0⟩ u 0.1 0.1 = .ok true := h
        rw [hinv] at h
        simp at h
      · exact absurd h (by simp [Expl.mapCallback, Expl.odomCallback, Expl.start])
      · have hb2 := hb.control hctl
        have hi2 := hb2.inv
        have href : ec'.optTraj = .ok ref := href
        have hlen : ref.length = 2 := by
          unfold ErgodicControl.optTraj at href
          rw [C51_count _ _ _ _ _ _ href, hi2.dt_eq, hi2.horizon_eq]
          norm_num
        have hsearch : (sideDwa 1 1 1 (-1) 1).controlTraj (mapOf sideMsg) ⟨2.5, 0.5, 0⟩ ⟨1, 0, 1⟩ ref ec'.dt =
          .ok (b, u') := hsearch
        have e : visited (sideDwa 1 1 1 (-1) 1) ⟨1, 0, 1⟩ = [⟨0, -1, 0⟩] := by
          have e : ((sideDwa 1 1 1 (-1) 1).window ⟨1, 0, 1⟩).1 = ⟨0, -1, 0⟩ := by
            simp only [DynamicWindow.window, DynamicWindow.velLower, sideDwa, real_fmax, real_sub, real_mul]
            norm_num
          have h2 : visited (sideDwa 1 1 1 (-1) 1) ⟨1, 0, 1⟩ =
            [((sideDwa 1 1 1 (-1) 1).window ⟨1, 0, 1⟩).1] := rfl
          rw [h2, e]
        unfold DynamicWindow.controlTraj at hsearch
        rw [searchWindow_eq, e] at hsearch
        simp only [List.foldlM_cons, consider, Res.bind_eq_ok] at hsearch
        obtain ⟨s, ⟨s', ⟨c, hcost, -⟩, -⟩, -⟩ := hsearch
        have hpos : (sideDwa 1 1 1 (-1) 1).collision.collisionCheck (mapOf sideMsg)
            (poseAfter ⟨0, -1, 0⟩ (sideDwa 1 1 1 (-1) 1).dt ⟨2.5, 0.5, 0⟩ (0 + 1)) = .ub := by
          rw [show (sideDwa 1 1 1 (-1) 1).collision = nearDetector from rfl,
            show (sideDwa 1 1 1 (-1) 1).dt = 1 from rfl, straight_poses, ← low_undefined]
          norm_num
        rcases (objectiveTraj_ok _ (by show (0:ℝ) ≤ 1; norm_num) _ _ _ _ (by omega) (by omega)
          (by rw [hlen, hi2.dt_eq]; norm_num [real_mul, real_ofInt]) _).mp hcost with
          ⟨hfree, -⟩ | ⟨-, k, hk, hit, -⟩
        · have := hfree 0 (by decide)
          rw [hpos] at this
          simp at this
        · have hk : k < 1 := hk
          obtain rfl : k = 0 := by omega
          rw [hpos] at hit
          simp at hit

/-- The hypotheses of `C77_omni_partial` hold in a run that reaches the dynamic window's map: the
robot near the upper right corner. -/
example : ∃ (p : Params ℝ) (n : Node ℝ) (o : List (Out ℝ)) (c : Collision ℝ) (es : List (Event ℝ))
    (vmax : ℝ), Sane p ∧
    Collision.new p.boundary_radius p.search_radius p.obstacle_threshold p.occupied_threshold = .ok c ∧
    RecoverableAll p ⟨0, 0, 0⟩ ∧ (∀ v ∈ odoms es, RecoverableAll p v) ∧ Node.omni p = .ok (n, o) ∧
    n.up = true ∧ (∀ u, WithinParams p u → speed u ≤ vmax) ∧
    AllSupplied c p.target_resolution p.buffer_size p.batch_size es ∧
    AlwaysRoom (vmax * max p.val_horizon p.dwa_horizon) es ∧ maps es ≠ [] ∧ poses es ≠ [] := by
  obtain ⟨target, ec, Rinv, o, hec, hn⟩ := side_omni 1 1 (by norm_num) (by norm_num) 1 (-1) 1
  refine ⟨sideParams 1 1 (-1) 1, _, _, nearDetector,
    [.map sideMsg, .odom ⟨1, 0, 1⟩, .tick (some (lowTf 2.5 2.5)) []], 2, side_sane, side_collision,
    side_recoverable _ (by norm_num) (by norm_num) (by norm_num), ?_, hn, lt_two_one, ?_,
    side_supplied _ _, ?_, by simp [maps, Event.map?], by simp [poses, Event.pose?, lowTf]⟩
  · intro v hv
    simp only [odoms, List.filterMap_cons, Event.odom?, List.filterMap_nil, List.mem_singleton] at hv
    subst hv
    exact side_recoverable _ (by norm_num) (by norm_num) (by norm_num)
  · rintro u ⟨⟨a, b⟩, ⟨c, d⟩, -⟩
    simp only [sideParams] at a b c d
    unfold speed
    rw [Real.sqrt_le_left (by norm_num)]
    nlinarith
  · intro pre tf draws post m x h hm hx
    obtain ⟨rfl, rfl, rfl⟩ := three_events h
    rw [low_maps, List.getLast?_singleton, Option.some.injEq] at hm
    rw [low_pose, List.getLast?_singleton, Option.some.injEq] at hx
    subst hm hx
    simp only [Room, mapOf, sideMsg, sideParams]
    norm_num

/-- The hypotheses of `C77_cart_partial` hold as well. -/
example : ∃ (p : Params ℝ) (n : Node ℝ) (o : List (Out ℝ)) (c : Collision ℝ) (es : List (Event ℝ))
    (vmax : ℝ), Sane p ∧
    Collision.new p.boundary_radius p.search_radius p.obstacle_threshold p.occupied_threshold = .ok c ∧
    RecoverableAll p ⟨0, 0, 0⟩ ∧ (∀ v ∈ odoms es,
      Recoverable v.c0 (p.acc_lim_x * p.acc_dt) p.min_vel_x p.max_vel_x ∧ v.c1 ≤ 0 ∧
      Recoverable v.c2 (p.acc_lim_th * p.acc_dt) p.min_rot_vel p.max_rot_vel) ∧
    Node.cart p = .ok (n, o) ∧ n.up = true ∧
    (∀ u : V3 ℝ, p.min_vel_x ≤ u.c0 → u.c0 ≤ p.max_vel_x → 0 ≤ u.c1 → u.c1 ≤ 0 → speed u ≤ vmax) ∧
    AllSupplied c p.target_resolution p.buffer_size p.batch_size es ∧
    AlwaysRoom (vmax * max p.val_horizon p.dwa_horizon) es ∧ maps es ≠ [] ∧ poses es ≠ [] := by
  obtain ⟨target, ec, Rinv, o, hec, hn⟩ := side_cart 1 1 (by norm_num) (by norm_num) 1
  refine ⟨sideParams 1 1 0 0, _, _, nearDetector,
    [.map sideMsg, .odom ⟨1, 0, 1⟩, .tick (some (lowTf 2.5 2.5)) []], 2, ?_, side_collision,
    ?_, ?_, hn, lt_two_one, ?_, side_supplied _ _, ?_, by simp [maps, Event.map?],
    by simp [poses, Event.pose?, lowTf]⟩
  · constructor <;> simp only [sideParams] <;> norm_num
  · simp only [RecoverableAll, Recoverable, sideParams]
    norm_num
  · intro v hv
    simp only [odoms, List.filterMap_cons, Event.odom?, List.filterMap_nil, List.mem_singleton] at hv
    subst hv
    simp only [Recoverable, sideParams]
    norm_num
  · intro u a b c d
    simp only [sideParams] at a b
    unfold speed
    rw [Real.sqrt_le_left (by norm_num)]
    nlinarith
  · intro pre tf draws post m x h hm hx
    obtain ⟨rfl, rfl, rfl⟩ := three_events h
    rw [low_maps, List.getLast?_singleton, Option.some.injEq] at hm
    rw [low_pose, List.getLast?_singleton, Option.some.injEq] at hx
    subst hm hx
    simp only [Room, mapOf, sideMsg, sideParams]
    norm_num

end Ergodic
