import Verif.Spec.Returns
import Verif.Props.Failure

/-!
# Property C129, continued: when an iteration returns, in every arithmetic

No law of arithmetic is used: what is needed is stated about the values the node computes, so the theorems hold for IEEE
doubles with their roundings, overflows and NaNs.
-/

namespace Ergodic
variable {F : Type} [Flt F]

/-- The controller of the node is one constructed with the model and the limits, with any history of calls since, and has at least two
columns. -/
def Built (model : TwistModel F) (umin umax : V3 F) (s : Expl F) : Prop :=
  2 ≤ s.ec.steps.toNat ∧ ∃ collision dt horizon resolution weight num_basis buffer_size batch_size Rinv,
    EcBuilt model collision dt horizon resolution weight num_basis buffer_size batch_size Rinv umin umax s.ec

/-- The model accepts the stored columns. -/
def TakesPlan (model : TwistModel F) (e : ErgodicControl F) : Prop := ∀ y, ∀ v ∈ V3.zero :: e.ut, ∃ d, model.f y v = .ok d

theorem takesPlan_omni (e : ErgodicControl F) : TakesPlan omniModel e := fun _ _ _ => ⟨_, rfl⟩

/-! ## Queries -/

theorem InRange32.i32 {x : F} (h : InRange32 x (-32768) 32768) : ∃ n : Int, castI32 x = .ok n ∧ n ≤ 32767 := by
  obtain ⟨n, hn, h1, h2⟩ := h
  refine ⟨n, ?_, by omega⟩
  unfold castI32
  rw [hn]
  dsimp only
  rw [if_pos (by omega)]

theorem InRange32.small {x : F} {b : Nat} (h : InRange32 x 0 b) (hb : b ≤ 4294967296) :
    ∃ n : UInt32, castU32 x = .ok n ∧ n.toNat < b := by
  obtain ⟨n, hn, ht⟩ := (h.weaken le_rfl (by exact_mod_cast hb)).u32
  obtain ⟨m, hm, -, h2⟩ := h
  rw [ht, Option.some.injEq] at hm
  exact ⟨n, hn, by omega⟩

/-- C129: a collision query that is served is answered. -/
theorem C129_answered {c : Collision F} {g : GridMap F} {p : V3 F} (h : QueryServed c g p) :
    ∃ b, c.collisionCheck g p = .ok b := by
  obtain ⟨j, hj, hjb⟩ := InRange32.small (b := 2 ^ 30 + 1) (by exact_mod_cast h.column) (by norm_num)
  obtain ⟨i, hi, hib⟩ := InRange32.small (b := 2 ^ 30 + 1) (by exact_mod_cast h.row) (by norm_num)
  obtain ⟨rb, hrb, -⟩ := h.boundary.i32
  obtain ⟨rc, hrc, -⟩ := h.collision.i32
  obtain ⟨rm, hrm, hm⟩ := h.search.i32
  have hdec : ∀ a n : UInt32, 0 < n.toNat → a.toNat < 2 ^ 30 + 1 →
      0 ≤ u2i (if a = n then a - 1 else a) ∧ u2i (if a = n then a - 1 else a) ≤ 2 ^ 30 := by
    intro a n hn ha
    have : (if a = n then a - 1 else a).toNat < 2 ^ 30 + 1 := by
      split
      · rename_i e
        rw [UInt32.toNat_sub_of_le _ _ (by
          rw [UInt32.le_iff_toNat_le, show (1 : UInt32).toNat = 1 from rfl, e]; omega)]
        omega
      · exact ha
    generalize (if a = n then a - 1 else a) = d at this
    unfold u2i
    have : ¬ (2 ^ 31 ≤ d.toNat) := by omega
    split <;> omega
  have h1 := hdec j g.xsize h.width.1 hjb
  have h2 := hdec i g.ysize h.height.1 hib
  have hcfg : c.config g p = .ok (CollisionConfig.mk rb rc rm (u2i (if j = g.xsize then j - 1 else j))
      (u2i (if i = g.ysize then i - 1 else i)) 0 0 (-1)) := by
    unfold Collision.config GridMap.world2Grid
    rw [hj, Res.ok_bind, hi, Res.ok_bind, Res.ok_bind, hrb, Res.ok_bind, hrc, Res.ok_bind, hrm, Res.ok_bind]
  have hs := search_eq c g h.stored (CollisionConfig.mk rb rc rm (u2i (if j = g.xsize then j - 1 else j))
      (u2i (if i = g.ysize then i - 1 else i)) 0 0 (-1))
    ⟨h1.1, h2.1, h1.2, h2.2, h.width.1, h.height.1, h.width.2, h.height.2, hm⟩
  unfold Collision.collisionCheck
  rw [hcfg, Res.ok_bind, hs, Res.ok_bind]
  exact ⟨_, rfl⟩

/-! ## Driving ahead -/

theorem DriveServed.tail {c : Collision F} {g : GridMap F} {u : V3 F} {dt : F} {x : V3 F} {n : Nat}
    (h : DriveServed c g u dt x (n + 1)) (h0 : c.collisionCheck g (stepPose u dt x) = .ok false) :
    DriveServed c g u dt (stepPose u dt x) n := by
  intro k hk hl
  have := h (k + 1) (by omega) fun l hl' => by
    cases l with
    | zero => exact h0
    | succ l => exact hl l (by omega)
  exact this

theorem DriveServed.head {c : Collision F} {g : GridMap F} {u : V3 F} {dt : F} {x : V3 F} {n : Nat}
    (h : DriveServed c g u dt x (n + 1)) : ∃ b, c.collisionCheck g (stepPose u dt x) = .ok b :=
  C129_answered (h 0 (by omega) fun l hl => by omega)

theorem validateLoop_served (c : Collision F) (g : GridMap F) (u : V3 F) (dt : F) (n : Nat) :
    ∀ x, DriveServed c g u dt x n → ∃ b, validateLoop c g u dt n x = .ok b := by
  induction n with
  | zero => intro x _; exact ⟨_, rfl⟩
  | succ n ih =>
    intro x h
    obtain ⟨b, hb⟩ := h.head
    have e : validateLoop c g u dt (n + 1) x = (c.collisionCheck g (stepPose u dt x) >>= fun hit =>
          if hit then .ok false else validateLoop c g u dt n (stepPose u dt x)) := rfl
    rw [e, hb, Res.ok_bind]
    cases b
    · exact ih _ (h.tail hb)
    · exact ⟨_, rfl⟩

theorem rollout_served (d : DynamicWindow F) (g : GridMap F) (u : V3 F) (n : Nat) :
    ∀ x, DriveServed d.collision g u d.dt x n → ∃ r, d.rollout g u n x = .ok r := by
  induction n with
  | zero => intro x _; exact ⟨_, rfl⟩
  | succ n ih =>
    intro x h
    obtain ⟨b, hb⟩ := h.head
    have e : d.rollout g u (n + 1) x = (d.collision.collisionCheck g (stepPose u d.dt x) >>= fun hit =>
          if hit then .ok (some Flt.maxFin) else d.rollout g u n (stepPose u d.dt x)) := rfl
    rw [e, hb, Res.ok_bind]
    cases b
    · exact ih _ (h.tail hb)
    · exact ⟨_, rfl⟩

theorem trajLoop_served (d : DynamicWindow F) (g : GridMap F) (u : V3 F) (ref : List (V3 F)) (tf : F)
    (hl : ref.length ≤ 4294967296) (n : Nat) : ∀ x t cost, DriveServed d.collision g u d.dt x n →
      (∀ k < n, InRange32 (Flt.round (Flt.ofInt (DynamicWindow.lastCol ref.length) *. stride t d.dt k /. tf)) 0
        ref.length) → ∃ r, d.trajLoop g u ref tf n x t cost = .ok r := by
  induction n with
  | zero => intro x t cost _ _; exact ⟨_, rfl⟩
  | succ n ih =>
    intro x t cost h hc
    obtain ⟨b, hb⟩ := h.head
    unfold stepPose at hb
    rw [DynamicWindow.trajLoop]
    dsimp only
    rw [hb, Res.ok_bind]
    cases b
    · obtain ⟨j, hj, hjl⟩ := (hc 0 (by omega)).small hl
      have hj : castU32 (Flt.round (Flt.ofInt (DynamicWindow.lastCol ref.length) *. t /. tf)) = .ok j := hj
      have hcol : col ref j.toNat = .ok (ref[j.toNat]'hjl) := by
        rw [col_eq_ok, List.getElem?_eq_getElem]
      rw [if_neg (by simp), hj, Res.ok_bind, hcol, Res.ok_bind]
      exact ih _ _ _ (h.tail hb) fun k hk => hc (k + 1) (by omega)
    · exact ⟨_, rfl⟩

/-! ## One iteration -/

theorem configTarget_served {s : Expl F} (h : TargetServed s) : ∃ ec, s.ec.configTarget s.grid = .ok ec := by
  unfold ErgodicControl.configTarget
  dsimp only
  split
  · exact ⟨_, rfl⟩
  · rename_i hn
    rcases h with ⟨h1, h2⟩ | ⟨m, n, hm, hn', hp⟩
    · exact absurd (by rw [h1, h2]; rfl) hn
    have hmp : m + 1 ≤ (m + 1) * (n + 1) := Nat.le_mul_of_pos_right _ (by omega)
    have hnp : n + 1 ≤ (m + 1) * (n + 1) := Nat.le_mul_of_pos_left _ (by omega)
    obtain ⟨a, ha, hta⟩ := InRange32.u32 (x := Flt.round ((s.grid.xmax -. s.grid.xmin -. lit 0 0) /. s.ec.resolution))
      ⟨m, hm, by omega, by omega⟩
    obtain ⟨b, hb, htb⟩ := InRange32.u32 (x := Flt.round ((s.grid.ymax -. s.grid.ymin -. lit 0 0) /. s.ec.resolution))
      ⟨n, hn', by omega, by omega⟩
    have ea : a.toNat = m := by rw [hm, Option.some.injEq] at hta; omega
    have eb : b.toNat = n := by rw [hn', Option.some.injEq] at htb; omega
    have t1 : (a + 1).toNat = m + 1 := by
      rw [UInt32.toNat_add, show UInt32.toNat 1 = 1 from rfl, Nat.mod_eq_of_lt (by omega), ea]
    have t2 : (b + 1).toNat = n + 1 := by
      rw [UInt32.toNat_add, show UInt32.toNat 1 = 1 from rfl, Nat.mod_eq_of_lt (by omega), eb]
    have hg : ∃ pts, ErgodicControl.phiGrid (s.grid.xmax -. s.grid.xmin) (s.grid.ymax -. s.grid.ymin)
        s.ec.resolution = .ok pts := by
      unfold ErgodicControl.phiGrid axisLength
      rw [ha, Res.ok_bind, hb, Res.ok_bind]
      dsimp only
      rw [if_neg (by rw [UInt32.toNat_mul, t1, t2, Nat.mod_eq_of_lt hp]; omega)]
      exact ⟨_, rfl⟩
    obtain ⟨pts, hg⟩ := hg
    rw [hg, Res.ok_bind]
    unfold Basis.spatialCoeff
    rw [if_neg (by simp [Target.fill]), Res.ok_bind]
    exact ⟨_, rfl⟩

theorem optTraj_served {model : TwistModel F} {lo hi : V3 F} {s : Expl F} (hb : Built model lo hi s)
    (ha : TakesPlan model s.ec) : ∃ l, s.ec.optTraj = .ok l := by
  obtain ⟨-, c, dt, h, r, w, k, n, b, R, hb⟩ := hb
  have hi := hb.inv
  refine ((C51_total s.ec.dt s.ec.horizon s.ec.model.f s.ec.pose s.ec.ut (fun x u hu => ?_) _ hi.steps).1).mpr
    hi.ut_length.ge
  rw [hi.model_eq]
  exact ha x u (List.mem_cons_of_mem _ hu)

theorem Built.control {model : TwistModel F} {lo hi : V3 F} {s : Expl F} (hb : Built model lo hi s)
    {e : ErgodicControl F} {u : V3 F} {draws : List Nat} (hc : s.ec.control s.grid s.pose draws = .ok (e, u)) :
    Built model lo hi { s with ec := e, u } := by
  obtain ⟨h2, c, dt, h, r, w, k, n, b, R, hb⟩ := hb
  have hb' := hb.control hc
  refine ⟨?_, c, dt, h, r, w, k, n, b, R, hb'⟩
  have e1 := hb.inv.steps_eq
  rw [hb'.inv.steps_eq, Res.ok.injEq] at e1
  show 2 ≤ e.steps.toNat
  rw [e1]
  exact h2

theorem Built.localize {model : TwistModel F} {lo hi : V3 F} {s : Expl F} (hb : Built model lo hi s)
    (tf : Option (TransformMsg F)) : Built model lo hi (s.localize tf) := by
  cases tf with
  | none => exact hb
  | some t =>
    obtain ⟨h2, c, dt, h, r, w, k, n, b, R, e0, h0, hr⟩ := hb
    exact ⟨h2, c, dt, h, r, w, k, n, b, R, e0, h0, .addStateMemory _ hr⟩

theorem Built.advance {model : TwistModel F} {lo hi : V3 F} {s : Expl F} (hb : Built model lo hi s) :
    Built model lo hi s.advanceDwa := by
  obtain ⟨i, f, e⟩ := s.advanceDwa_frame
  rw [e]
  exact hb

theorem Built.replan {model : TwistModel F} {lo hi : V3 F} {s r : Expl F} (hb : Built model lo hi s)
    {draws : List Nat} {o : List (Out F)} (hr : s.replan draws = .ok (r, o)) : Built model lo hi r := by
  rcases Expl.replan_ok hr with ⟨-, rfl, -⟩ | ⟨-, ec', u, p, hc, -, rfl, -⟩
  · exact hb
  · exact hb.control hc

theorem Built.avoid {model : TwistModel F} {lo hi : V3 F} {s r : Expl F} (hb : Built model lo hi s)
    {o : List (Out F)} (hr : s.avoid = .ok (r, o)) : Built model lo hi r := by
  rcases Expl.avoid_ok hr with ⟨-, rfl, -⟩ | ⟨-, ⟨-, b, u, -, rfl, -⟩ |
    ⟨-, ref, b, u, -, -, ⟨-, rfl, -⟩ | ⟨-, p, -, rfl, -⟩⟩⟩
  all_goals exact hb

omit [Flt F] in
theorem bufferAfter_batch (n b : Nat) (hist : List (V3 F)) : (bufferAfter n b hist).batch_size = b := by
  have : ∀ (l : List (V3 F)) (r : ReplayBuffer (V3 F)), (l.foldl ReplayBuffer.append r).batch_size = r.batch_size := by
    intro l
    induction l with
    | nil => intro r; rfl
    | cons x l ih =>
      intro r
      rw [List.foldl_cons, ih]
      unfold ReplayBuffer.append
      split <;> rfl
  exact this hist _

theorem replan_served {model : TwistModel F} {lo hi : V3 F} {s : Expl F} (hs : Settled s) (hb : Built model lo hi s)
    (ha : TakesPlan model s.ec) {draws : List Nat}
    (ha' : s.follow_dwa = false → ∀ e u, s.ec.control s.grid s.pose draws = .ok (e, u) → TakesPlan model e)
    (h : s.follow_dwa = false → TargetServed s ∧ DrawsServed s draws) : ∃ r o, s.replan draws = .ok (r, o) := by
  unfold Expl.replan
  split
  · exact ⟨_, _, rfl⟩
  · rename_i hf
    obtain ⟨ht, hd1, hd2⟩ := h (by simpa using hf)
    have hb0 := hb
    obtain ⟨h2, c, dt, h, r, w, k, n, b, R, hb⟩ := hb
    have inv := hb.inv
    obtain ⟨hist, hbuf⟩ := inv.buffer_eq
    have hbs : s.ec.buffer.batch_size = b := by
      rw [hbuf]
      exact bufferAfter_batch n b hist
    have l0 := hs.lim0
    have l1 := hs.lim1
    have l2 := hs.lim2
    rw [inv.umin_eq, inv.umax_eq] at l0 l1 l2
    obtain ⟨e', u, hc⟩ := C60_total (x := s.pose) (draws := draws) hb h2 ha
      (configTarget_served ht) (hd1.trans hbs) hd2 l0 l1 l2
    obtain ⟨l, hl⟩ := optTraj_served (hb0.control hc) (ha' (by simpa using hf) _ _ hc)
    rw [hc, Res.ok_bind]
    dsimp only
    have : ∃ p, e'.path s.map_frame_id = .ok p := by
      unfold ErgodicControl.path
      have hl : RungeKutta.solve e'.dt e'.model.f e'.pose e'.ut e'.horizon = .ok l := hl
      rw [hl, Res.ok_bind]
      exact ⟨_, rfl⟩
    obtain ⟨p, hp⟩ := this
    rw [hp, Res.ok_bind]
    exact ⟨_, _, rfl⟩

theorem avoid_served {model : TwistModel F} {lo hi : V3 F} {s : Expl F} (hs : Settled s) (hb : Built model lo hi s)
    (hacc : TakesPlan model s.ec) (ha : AvoidServed s) :
    ∃ r o, s.avoid = .ok (r, o) := by
  have hv : ∃ b, validateControl s.collision s.grid s.pose s.u s.val_dt s.val_horizon = .ok b := by
    obtain ⟨n, hn, ht⟩ := InRange32.u32 hs.val_count
    unfold validateControl numSteps
    rw [hn, Res.ok_bind]
    exact validateLoop_served _ _ _ _ _ _ (ha.ahead _ ht)
  obtain ⟨b, hv⟩ := hv
  unfold Expl.avoid
  rw [hv, Res.ok_bind]
  cases b
  · rw [if_neg (by simp)]
    split
    · obtain ⟨q, u, hq⟩ := search_total s.dwa s.vb (s.dwa.objectiveTwist s.grid s.pose s.u) fun v hv' => by
        obtain ⟨r, hr⟩ := rollout_served s.dwa s.grid v _ _ (ha.window hv v ((mem_visited _ _ _).mp hv'))
        unfold DynamicWindow.objectiveTwist
        rw [hr, Res.ok_bind]
        cases r <;> exact ⟨_, rfl⟩
      unfold DynamicWindow.controlTwist
      rw [hq, Res.ok_bind]
      exact ⟨_, _, rfl⟩
    · rename_i hf
      obtain ⟨l, hl⟩ := optTraj_served hb hacc
      have hlen := solve_len hs.model hs.ec_count hl
      have hle : l.length ≤ 4294967296 := by
        obtain ⟨m, hm, -, h2⟩ := hs.ec_count
        rw [hlen, Option.some.injEq] at hm
        omega
      obtain ⟨q, u, hq⟩ := search_total s.dwa s.vb (fun v => s.dwa.objectiveTraj s.grid s.pose v l
          (Flt.ofInt l.length *. s.ec.timeStep)) fun v hv' =>
        trajLoop_served s.dwa s.grid v l _ hle _ _ _ _ (ha.window hv v ((mem_visited _ _ _).mp hv'))
          (ha.columns hv (by simpa using hf) _ hlen)
      rw [hl, Res.ok_bind]
      unfold DynamicWindow.controlTraj
      rw [hq, Res.ok_bind]
      dsimp only
      split
      · obtain ⟨n, hn, -⟩ := InRange32.u32 hs.dwa_count
        have : ∃ p, constTwistPath s.map_frame_id s.pose u s.dwa.dt s.dwa.horizon = .ok p := by
          unfold constTwistPath numSteps
          rw [hn, Res.ok_bind]
          exact ⟨_, rfl⟩
        obtain ⟨p, hp⟩ := this
        rw [hp, Res.ok_bind]
        exact ⟨_, _, rfl⟩
      · exact ⟨_, _, rfl⟩
  · exact ⟨_, _, rfl⟩

theorem iteration_served {model : TwistModel F} {lo hi : V3 F} {s : Expl F} (hs : Settled s) (hb : Built model lo hi s)
    {tf : Option (TransformMsg F)} {draws : List Nat} (hacc : TakesPlan model s.ec)
    (hacc' : (s.localize tf).advanceDwa.map_received = true → (s.localize tf).advanceDwa.pose_known = true →
      (s.localize tf).advanceDwa.follow_dwa = false → ∀ e u, (s.localize tf).advanceDwa.ec.control
        (s.localize tf).advanceDwa.grid (s.localize tf).advanceDwa.pose draws = .ok (e, u) → TakesPlan model e)
    (h : Served s tf draws) : ∃ t o, s.iteration tf draws = .ok (t, o) ∧ TakesPlan model t.ec := by
  have hl : TakesPlan model (s.localize tf).ec := by
    cases tf with
    | none => exact hacc
    | some t => exact hacc
  unfold Expl.iteration
  dsimp only
  by_cases hc : ((s.localize tf).map_received && (s.localize tf).pose_known) = true
  · rw [if_pos hc]
    have hc' : ((s.localize tf).advanceDwa).map_received = true ∧ ((s.localize tf).advanceDwa).pose_known = true := by
      obtain ⟨i, f, e⟩ := (s.localize tf).advanceDwa_frame
      rw [e]
      simpa using hc
    obtain ⟨h1, h2⟩ := h hc'.1 hc'.2
    have hs' := (hs.localize tf).advance
    have hb' := (hb.localize tf).advance
    have ha : TakesPlan model (s.localize tf).advanceDwa.ec := by
      obtain ⟨i, f, e⟩ := (s.localize tf).advanceDwa_frame
      rw [e]
      exact hl
    obtain ⟨r, o1, hr⟩ := replan_served hs' hb' ha (hacc' hc'.1 hc'.2) h1
    have har : TakesPlan model r.ec := by
      rcases Expl.replan_ok hr with ⟨-, rfl, -⟩ | ⟨hf, ec', u, p, hc, -, rfl, -⟩
      · exact ha
      · exact hacc' hc'.1 hc'.2 hf ec' u hc
    obtain ⟨t, o2, ht⟩ := avoid_served (hs'.replan hr) (hb'.replan hr) har (h2 r o1 hr)
    have het : t.ec = r.ec := by
      rcases Expl.avoid_ok ht with ⟨-, rfl, -⟩ | ⟨-, ⟨-, b, u, -, rfl, -⟩ |
        ⟨-, ref, b, u, -, -, ⟨-, rfl, -⟩ | ⟨-, p, -, rfl, -⟩⟩⟩
      all_goals rfl
    rw [hr, Res.ok_bind]
    dsimp only
    rw [ht, Res.ok_bind]
    exact ⟨_, _, rfl, by rw [het]; exact har⟩
  · rw [if_neg hc]
    exact ⟨_, _, rfl, hl⟩

/-- C129, in every arithmetic: an iteration of the omni-directional node that is served returns. -/
theorem C129_returns {s : Expl F} (hs : Settled s) {lo hi : V3 F} (hb : Built omniModel lo hi s)
    {tf : Option (TransformMsg F)} {draws : List Nat} (h : Served s tf draws) : ∃ t o, s.iteration tf draws = .ok (t, o) := by
  obtain ⟨t, o, h, -⟩ := iteration_served hs hb (takesPlan_omni _) (fun _ _ _ e _ _ => takesPlan_omni e) h
  exact ⟨t, o, h⟩

theorem Built.step {model : TwistModel F} {lo hi : V3 F} {s t : Expl F} (hb : Built model lo hi s)
    {e : Event F} {o : List (Out F)} (h : s.step e = .ok (t, o)) : Built model lo hi t := by
  cases e with
  | map m =>
    simp only [Expl.step, Res.ok.injEq, Prod.mk.injEq] at h
    obtain ⟨rfl, -⟩ := h
    exact hb
  | odom v =>
    simp only [Expl.step, Res.ok.injEq, Prod.mk.injEq] at h
    obtain ⟨rfl, -⟩ := h
    exact hb
  | tick tf d =>
    rcases Expl.iteration_ok h with ⟨-, rfl, -⟩ | ⟨-, r, o1, o2, hr, ha, -⟩
    · exact hb.localize tf
    · exact ((hb.localize tf).advance.replan hr).avoid ha

theorem run_returns {s : Expl F} (hs : Settled s) {lo hi : V3 F} (hb : Built omniModel lo hi s)
    (es : List (Event F)) :
    (∃ t o, s.run es = .ok (t, o)) ∨
    ∃ pre tf draws post t o, es = pre ++ .tick tf draws :: post ∧ s.run pre = .ok (t, o) ∧ ¬ Served t tf draws := by
  induction es generalizing s with
  | nil => exact .inl ⟨_, _, rfl⟩
  | cons e es ih =>
    have hstep : (∃ t o, s.step e = .ok (t, o)) ∨ ∃ tf draws, e = .tick tf draws ∧ ¬ Served s tf draws := by
      cases e with
      | map m => exact .inl ⟨_, _, rfl⟩
      | odom v => exact .inl ⟨_, _, rfl⟩
      | tick tf d =>
        by_cases h : Served s tf d
        · exact .inl (C129_returns hs hb h)
        · exact .inr ⟨tf, d, rfl, h⟩
    rcases hstep with ⟨t, o, h⟩ | ⟨tf, d, rfl, h⟩
    · rcases ih (hs.step h) (hb.step h) with ⟨t', o', h'⟩ | ⟨pre, tf, d, post, t', o', rfl, hp, hn⟩
      · exact .inl ⟨_, _, by rw [Expl.run, h, Res.ok_bind]; dsimp only; rw [h', Res.ok_bind]⟩
      · refine .inr ⟨e :: pre, tf, d, post, t', o ++ o', rfl, ?_, hn⟩
        rw [Expl.run, h, Res.ok_bind]
        dsimp only
        rw [hp, Res.ok_bind]
    · exact .inr ⟨[], tf, d, es, s, [], rfl, rfl, h⟩

/-- C129 for a whole run of the omni-directional node, in every arithmetic and whatever the messages: the run returns, or
some iteration, reached without a failure, was not served. -/
theorem C129_omni_returns {p : Params F} {n : Node F} {o : List (Out F)} (h : Node.omni p = .ok (n, o))
    (hv : CountFits p.val_horizon p.val_dt) (h0 : Flt.lt p.max_vel_x p.min_vel_x = false)
    (h1 : Flt.lt p.max_vel_y p.min_vel_y = false) (h2 : Flt.lt p.max_rot_vel p.min_rot_vel = false)
    (hn : ∃ m, Flt.trunc? (fabs (p.ec_horizon /. p.ec_dt)) = some m ∧ 2 ≤ m) (es : List (Event F)) :
    (∃ n' out, n.run es = .ok (n', out)) ∨
    ∃ pre tf draws post m out, es = pre ++ .tick tf draws :: post ∧ n.run pre = .ok (m, out) ∧
      ¬ Served m.expl tf draws := by
  have hs := omni_settled h hv h0 h1 h2
  have hb : Built omniModel ⟨p.min_vel_x, p.min_vel_y, p.min_rot_vel⟩
      ⟨p.max_vel_x, p.max_vel_y, p.max_rot_vel⟩ n.expl := by
    obtain ⟨w0, w1, w2, gs, collision, ec, dwa, -, hec, hdwa, hs, -⟩ := omni_parts h
    have hs : n.expl = _ := congrArg Prod.fst hs
    rw [hs]
    refine ⟨?_, _, _, _, _, _, _, _, _, _, ec, hec, .setTarget _ .start⟩
    show 2 ≤ ec.steps.toNat
    obtain ⟨m, hm, h⟩ := Res.bind_eq_ok.mp hec
    obtain ⟨k, hk, h2⟩ := hn
    have hst : ec.steps = m := by
      split at h
      · simp at h
      · rw [Res.ok.injEq] at h
        rw [← h]
    obtain ⟨m', hm', ht⟩ := InRange32.u32 (InRange32.of_u32 hm)
    have hm : castU32 (fabs (p.ec_horizon /. p.ec_dt)) = .ok m := hm
    rw [hm, Res.ok.injEq] at hm'
    rw [hk, Option.some.injEq] at ht
    rw [hst, hm']
    omega
  cases hup : n.up with
  | false => exact .inl ⟨_, _, node_run_down n hup es⟩
  | true =>
    rcases run_returns hs hb es with ⟨t, o, h⟩ | ⟨pre, tf, d, post, t, o, rfl, h, hb⟩
    · exact .inl ⟨_, _, node_run_of_expl n hup es t o h⟩
    · exact .inr ⟨pre, tf, d, post, _, o, rfl, node_run_of_expl n hup pre t o h, hb⟩

/-! ## Exact arithmetic -/

theorem real_floor_inRange {x : ℝ} {lo hi : Int} (h0 : (lo : ℝ) ≤ x) (h1 : x < hi) : InRange32 (Flt.floor x) lo hi := by
  refine ⟨⌊x⌋, ?_, Int.le_floor.mpr h0, Int.floor_lt.mpr h1⟩
  rw [real_floor, real_trunc, realTrunc_intCast]

/-- C129 in exact arithmetic: with a detector and a map that fit together, a query not below the lower edges of the map is
served. -/
theorem C129_exact_query {c : Collision ℝ} {g : GridMap ℝ} (hs : Sensible c g) {p : V3 ℝ} (hp : NotBelow g p.c0 p.c1) :
    QueryServed c g p := by
  obtain ⟨hx0, hx1, hy0, hy1⟩ := hp
  have hr := hs.res
  have hb := hs.bnd
  have ho := hs.obs
  have hor := hs.order
  refine ⟨hs.wf, ⟨uint32_pos_iff.mp hs.x0, hs.xsize⟩, ⟨uint32_pos_iff.mp hs.y0, hs.ysize⟩, ?_, ?_, ?_, ?_, ?_⟩ <;>
    refine real_floor_inRange ?_ ?_ <;> simp only [real_sub, real_div, real_add] <;> push_cast <;>
    first | rw [le_div_iff₀ hr] | rw [div_lt_iff₀ hr]
  all_goals nlinarith [hs.search, hs.col]

theorem driveServed_exact {c : Collision ℝ} {g : GridMap ℝ} (hs : Sensible c g) {x u : V3 ℝ} {dt horizon D : ℝ}
    (hdt : 0 < dt) (hh : 0 ≤ horizon) (hD : speed u * horizon ≤ D) (hroom : Room g x D) {n : UInt32}
    (hn : numSteps horizon dt = .ok n) : DriveServed c g u dt x n.toNat := fun k hk _ =>
  C129_exact_query hs (room_notBelow hroom ((C76_validation u dt horizon hdt hh x n hn (k + 1) hk).trans hD))

/-- C129 in exact arithmetic: with room for every twist the robot may drive, and a window that ends within the columns of
the controller, everything obstacle avoidance needs is there. -/
theorem C129_exact_avoid {s : Expl ℝ} (hs : Sensible s.collision s.grid) (hs' : Sensible s.dwa.collision s.grid)
    (hsteps : numSteps s.dwa.horizon s.dwa.dt = .ok s.dwa.steps) (hddt : 0 < s.dwa.dt) (hdh : 0 ≤ s.dwa.horizon)
    (hvdt : 0 < s.val_dt) (hvh : 0 ≤ s.val_horizon) (hvf : s.val_horizon < 2 ^ 32 * s.val_dt) (hedt : 0 < s.ec.dt)
    (heh : s.ec.dt ≤ s.ec.horizon)
    (hcol : s.dwa.horizon ≤ (⌊s.ec.horizon / s.ec.dt⌋₊ + 1 / 2) * s.ec.dt) {D : ℝ}
    (hu : speed s.u * s.val_horizon ≤ D) (hD : ∀ v, IsSample s.dwa s.vb v → speed v * s.dwa.horizon ≤ D)
    (hroom : Room s.grid s.pose D) : AvoidServed s := by
  have hnn : ∀ a b : ℝ, 0 < b → 0 ≤ a → ∀ n, Flt.trunc? (fabs (a /. b)) = some n → n = ⌊a / b⌋ := by
    intro a b hb ha n h
    rw [real_div, real_fabs, abs_of_nonneg (by positivity), real_trunc, realTrunc_of_nonneg (by positivity),
      Option.some.injEq] at h
    exact h.symm
  refine ⟨fun n hn => ?_, fun _ v hv => driveServed_exact hs' hddt hdh (hD v hv) hroom hsteps, fun _ _ n hn k hk => ?_⟩
  · obtain ⟨m, hm, hm'⟩ := numSteps_floor hvdt hvh hvf
    have := driveServed_exact hs hvdt hvh hu hroom hm
    rw [hnn _ _ hvdt hvh n hn, ← Int.natCast_floor_eq_floor (by positivity), Int.toNat_natCast, ← hm']
    exact this
  · have h1 : 1 ≤ ⌊s.ec.horizon / s.ec.dt⌋₊ := Nat.le_floor (by rw [Nat.cast_one, le_div_iff₀ hedt]; linarith)
    have hn' : n = (⌊s.ec.horizon / s.ec.dt⌋₊ : Nat) := by
      rw [hnn _ _ hedt (by linarith) n hn, Int.natCast_floor_eq_floor (by apply div_nonneg <;> linarith)]
    subst hn'
    rw [Int.toNat_natCast]
    have hsn : s.dwa.steps.toNat = ⌊s.dwa.horizon / s.dwa.dt⌋₊ := by
      unfold numSteps at hsteps
      rw [real_div, real_fabs, abs_of_nonneg (by positivity)] at hsteps
      have := castU32_real_eq_ok hsteps
      rw [realTrunc_of_nonneg (by positivity)] at this
      have h3 : (⌊s.dwa.horizon / s.dwa.dt⌋₊ : Int) = s.dwa.steps.toNat := by
        rw [Int.natCast_floor_eq_floor (by positivity), this]
      exact_mod_cast h3.symm
    have hc := C58_in_range_partial s.ec.dt s.dwa.dt s.dwa.horizon _ _ hedt hddt hcol hsn h1 k hk
    have hl : (0:ℝ) < (⌊s.ec.horizon / s.ec.dt⌋₊ : ℝ) := by exact_mod_cast h1
    have e : stride (lit 0 0) s.dwa.dt k = k * s.dwa.dt := by rw [stride_real, real_lit]; norm_num
    have e' : (Flt.ofInt (⌊s.ec.horizon / s.ec.dt⌋₊ : Int) *. s.ec.dt : ℝ) = ⌊s.ec.horizon / s.ec.dt⌋₊ * s.ec.dt := by
      rw [real_ofInt, real_mul, Int.cast_natCast]
    rw [e, e', round_refIndex _ h1 (by positivity) (by positivity)]
    refine ⟨(refIndex ⌊s.ec.horizon / s.ec.dt⌋₊ (k * s.dwa.dt) (⌊s.ec.horizon / s.ec.dt⌋₊ * s.ec.dt) : Int), ?_, by omega,
      by exact_mod_cast hc⟩
    rw [real_trunc, ← Int.cast_natCast, realTrunc_intCast]

/-- C129 in exact arithmetic: a target grid that can be counted. -/
theorem C129_exact_target {s : Expl ℝ} (hres : 0 < s.ec.resolution) (hx : s.grid.xmin ≤ s.grid.xmax)
    (hy : s.grid.ymin ≤ s.grid.ymax) (hfit : TargetGridFits s.grid s.ec.resolution) : TargetServed s := by
  have key : ∀ w : ℝ, 0 ≤ w → Flt.trunc? (Flt.round ((w -. lit 0 0) /. s.ec.resolution)) =
      some ((⌊w / s.ec.resolution + 1 / 2⌋₊ : Nat) : Int) := by
    intro w hw
    have h0 : 0 ≤ w / s.ec.resolution := by positivity
    have e : ((w -. lit 0 0) /. s.ec.resolution : ℝ) = w / s.ec.resolution := by
      rw [real_div, real_sub, real_lit]; norm_num
    rw [e, real_round, realRound, if_pos h0, real_trunc, realTrunc_intCast,
      Int.natCast_floor_eq_floor (by positivity)]
  refine .inr ⟨_, _, key _ (by rw [real_sub]; linarith), key _ (by rw [real_sub]; linarith), ?_⟩
  simpa [TargetGridFits] using hfit

/-! ## A node that is served -/

/-- A running node that meets the hypotheses of `C129_omni_returns`, and, once it has a map, an iteration with a pose that is
served: it replans, checks the twist and publishes. -/
example : ∃ (p : Params ℝ) (n : Node ℝ) (o : List (Out ℝ)), Node.omni p = .ok (n, o) ∧
    CountFits p.val_horizon p.val_dt ∧ Flt.lt p.max_vel_x p.min_vel_x = false ∧
    Flt.lt p.max_vel_y p.min_vel_y = false ∧ Flt.lt p.max_rot_vel p.min_rot_vel = false ∧
    (∃ m, Flt.trunc? (fabs (p.ec_horizon /. p.ec_dt)) = some m ∧ 2 ≤ m) ∧ n.up = true ∧
    Served (n.expl.mapCallback sideMsg) (some (lowTf 2 2)) [] ∧
    (((n.expl.mapCallback sideMsg).localize (some (lowTf 2 2))).map_received &&
      ((n.expl.mapCallback sideMsg).localize (some (lowTf 2 2))).pose_known) = true := by
  obtain ⟨target, ec, Rinv, o, hec, hn⟩ := side_omni 1 1 (by norm_num) (by norm_num) 1 (-1) 1
  refine ⟨_, _, _, hn, ?_, ?_, ?_, ?_, ?_, lt_two_one, ?_, rfl⟩
  · exact real_inRange (n := 1) (by norm_num [sideParams, real_fabs, abs_of_pos])
      (by norm_num [sideParams, real_fabs, abs_of_pos]) (by norm_num)
  · rw [real_lt_false]; simp only [sideParams]; norm_num
  · rw [real_lt_false]; simp only [sideParams]; norm_num
  · rw [real_lt_false]; simp only [sideParams]; norm_num
  · refine ⟨2, ?_, le_rfl⟩
    have : (fabs ((sideParams 1 1 (-1) 1).ec_horizon /. (sideParams 1 1 (-1) 1).ec_dt) : ℝ) = ((2 : Int) : ℝ) := by
      norm_num [sideParams, real_fabs]
    rw [this, real_trunc, realTrunc_intCast]
  · have hloc : ∀ s : Expl ℝ, s.localize (some (lowTf 2 2)) = { s with
        pose := ⟨2, 2, 0⟩, ec := s.ec.addStateMemory ⟨2, 2, 0⟩, pose_known := true } := by
      intro s
      simp only [Expl.localize, lowTf, midTf_yaw]
    have hadv : ∀ s : Expl ℝ, s.follow_dwa = false → s.advanceDwa = s := by
      intro s hs
      unfold Expl.advanceDwa
      rw [if_neg (by rw [hs]; simp)]
    have hspeed : ∀ u : V3 ℝ, (-1 ≤ u.c0 ∧ u.c0 ≤ 1) → (-1 ≤ u.c1 ∧ u.c1 ≤ 1) → speed u ≤ 2 := by
      rintro u ⟨a, b⟩ ⟨c, d⟩
      unfold speed
      rw [Real.sqrt_le_left (by norm_num)]
      nlinarith
    have hroom : Room (mapOf sideMsg) ⟨2, 2, 0⟩ 2 := by
      simp only [Room, mapOf, sideMsg]
      norm_num
    have hb : EcBuilt omniModel nearDetector 1 2 1 1 2 10 0 Rinv ⟨-1, -1, -1⟩ ⟨1, 1, 1⟩
        ((ec.setTarget target).addStateMemory ⟨2, 2, 0⟩) :=
      ⟨ec, hec, .addStateMemory _ (.setTarget _ .start)⟩
    have inv := hb.inv
    unfold Served
    rw [hloc, hadv _ rfl]
    intro _ _ _
    refine ⟨fun _ => ⟨C129_exact_target ?_ ?_ ?_ ?_, ?_, by simp⟩, fun r o hr => ?_⟩
    · show 0 < ((ec.setTarget target).addStateMemory ⟨2, 2, 0⟩).resolution
      rw [inv.resolution_eq]; norm_num
    · show (mapOf sideMsg).xmin ≤ (mapOf sideMsg).xmax
      norm_num [mapOf, sideMsg]
    · show (mapOf sideMsg).ymin ≤ (mapOf sideMsg).ymax
      norm_num [mapOf, sideMsg]
    · show TargetGridFits (mapOf sideMsg) ((ec.setTarget target).addStateMemory ⟨2, 2, 0⟩).resolution
      rw [inv.resolution_eq]; exact side_fits
    · show 0 = ((ec.setTarget target).addStateMemory ⟨2, 2, 0⟩).buffer.batch_size
      obtain ⟨hist, hh⟩ := inv.buffer_eq
      rw [hh, bufferAfter_batch]
    · rcases Expl.replan_ok hr with ⟨h, -⟩ | ⟨-, ec', u, p, hctl, -, rfl, -⟩
      · exact absurd h (show ¬ (false = true) by decide)
      · have hctl : ((ec.setTarget target).addStateMemory ⟨2, 2, 0⟩).control (mapOf sideMsg) ⟨2, 2, 0⟩ [] =
          .ok (ec', u) := hctl
        have hlim := (C59_not_outside hb hctl).1
        simp only [NotOutside, real_lt_false] at hlim
        have inv' := (hb.control hctl).inv
        have e1 : ec'.dt = 1 := inv'.dt_eq
        have e2 : ec'.horizon = 2 := inv'.horizon_eq
        refine C129_exact_avoid (D := 2) side_sensible side_sensible (steps_side 1 1 (by norm_num) (by norm_num)) ?_ ?_ ?_ ?_
          ?_ ?_ ?_ ?_ ?_ ?_ hroom
        · exact one_pos
        · exact zero_le_one
        · show (0:ℝ) < 0.1
          norm_num
        · show (0:ℝ) ≤ 0.1
          norm_num
        · show (0.1:ℝ) < 2 ^ 32 * 0.1
          norm_num
        · show 0 < ec'.dt
          rw [e1]; norm_num
        · show ec'.dt ≤ ec'.horizon
          rw [e1, e2]; norm_num
        · show (1:ℝ) ≤ (⌊ec'.horizon / ec'.dt⌋₊ + 1 / 2) * ec'.dt
          rw [e1, e2, show ⌊(2:ℝ) / 1⌋₊ = 2 by rw [Nat.floor_eq_iff (by norm_num)]; norm_num]
          norm_num
        · show speed u * 0.1 ≤ 2
          have := hspeed u ⟨hlim.1.1, hlim.1.2⟩ ⟨hlim.2.1.1, hlim.2.1.2⟩
          linarith
        · intro v hv
          show speed v * 1 ≤ 2
          have hz : (V3.zero : V3 ℝ) = ⟨0, 0, 0⟩ := by simp [V3.zero]
          have hv : IsSample (sideDwa 1 (UInt32.ofNat 1) 1 (-1) 1) ⟨0, 0, 0⟩ v := by
            rw [← hz]; exact hv
          obtain ⟨a, b, c⟩ := side_recoverable ⟨0, 0, 0⟩ (by norm_num) (by norm_num) (by norm_num)
          have := (C55_within_partial (sideDwa 1 (UInt32.ofNat 1) 1 (-1) 1) ⟨0, 0, 0⟩ v ⟨a, b, c⟩ hv).1
          have := hspeed v this.1 this.2.1
          linarith

end Ergodic
