import Verif.Spec.Failure
import Verif.Props.CleanStart
import Verif.Props.History
import Verif.Props.Running

/-!
# Property C129: what can go wrong while the node runs besides an exception

In every arithmetic and from every message, an iteration returns, throws, or comes to one of a few conversions of a
`double` that does not fit: the callbacks never fail, no loop runs forever and nothing else is undefined.
-/

namespace Ergodic
variable {F : Type} [Flt F]

theorem Clean.ite {α : Type} {p : Prop} [Decidable p] {a b : Res α} (ha : p → Clean a) (hb : ¬ p → Clean b) :
    Clean (if p then a else b) := by
  split
  · exact ha ‹_›
  · exact hb ‹_›

theorem InRange32.u32 {x : F} (h : InRange32 x 0 4294967296) : ∃ n : UInt32, castU32 x = .ok n ∧
    Flt.trunc? x = some (n.toNat : Int) := by
  obtain ⟨n, hn, h0, h1⟩ := h
  refine ⟨UInt32.ofNat n.toNat, ?_, ?_⟩
  · unfold castU32
    rw [hn]
    exact if_pos ⟨h0, h1⟩
  · rw [hn, UInt32.toNat_ofNat_of_lt' (by simp only [UInt32.size]; omega)]
    congr 1
    omega

theorem InRange32.weaken {x : F} {a b c d : Int} (h : InRange32 x a b) (h1 : c ≤ a) (h2 : b ≤ d) : InRange32 x c d := by
  obtain ⟨n, hn, h3, h4⟩ := h
  exact ⟨n, hn, by omega, by omega⟩

theorem InRange32.clean_u32 {x : F} (h : InRange32 x 0 4294967296) : Clean (castU32 x) := by
  obtain ⟨n, hn, -⟩ := h.u32
  exact .inl ⟨n, hn⟩

theorem InRange32.clean_i32 {x : F} (h : InRange32 x (-32768) 32768) : Clean (castI32 x) := by
  obtain ⟨n, hn, h0, h1⟩ := h
  refine .inl ⟨n, ?_⟩
  unfold castI32
  rw [hn]
  exact if_pos ⟨by omega, by omega⟩

/-! ## Collision queries -/

theorem getCellIdx_clean (g : GridMap F) (i : UInt32) : Clean (g.getCellIdx i) := by
  unfold GridMap.getCellIdx
  refine .ite (fun _ => .throw _) fun _ => ?_
  split
  · exact .ok _
  · exact .throw _

theorem checkCell_clean (c : Collision F) (g : GridMap F) (cfg : CollisionConfig) (j i : UInt32) :
    Clean (c.checkCell g cfg j i) := by
  unfold Collision.checkCell
  refine .ite (fun _ => (getCellIdx_clean _ _).bind fun v _ => .ite (fun _ => ?_) fun _ => .ok _) fun _ => .ok _
  exact .ok _

theorem checkCell_rmax {c : Collision F} {g : GridMap F} {cfg : CollisionConfig} {j i : UInt32}
    {r : Bool × CollisionConfig} (h : c.checkCell g cfg j i = .ok r) : r.2.r_max = cfg.r_max := by
  unfold Collision.checkCell at h
  split at h
  · obtain ⟨v, -, h⟩ := Res.bind_eq_ok.mp h
    split at h
    · dsimp only at h
      rw [Res.ok.injEq] at h
      rw [← h]
      dsimp only
      split <;> rfl
    · rw [Res.ok.injEq] at h; rw [← h]
  · rw [Res.ok.injEq] at h; rw [← h]

/-- The circle sweep ends, on any map, around any cell. -/
theorem circleLoop_clean (c : Collision F) (g : GridMap F) (r : Int) :
    ∀ (fuel : Nat) (x y err : Int) (cfg : CollisionConfig), CircleInv r x y err → (-x) + (r - y) < fuel →
      Clean (c.circleLoop g fuel x y err cfg) ∧
      ∀ q, c.circleLoop g fuel x y err cfg = .ok q → q.2.r_max = cfg.r_max := by
  intro fuel
  induction fuel with
  | zero =>
    intro x y err cfg h hf
    have := h.bounds; have := h.x0
    push_cast at hf; omega
  | succ n ih =>
    intro x y err cfg h hf
    rw [Collision.circleLoop]
    by_cases hx : x < 0
    · rw [if_pos hx]
      have hprog := circleStep_progress h
      have hinv := circleInv_step h hx
      have hrest := fun cfg' => ih _ _ _ cfg' hinv (by push_cast at hf; omega)
      constructor
      · refine (checkCell_clean _ _ _ _ _).bind fun a1 _ => .ite (fun _ => .ok _) fun _ =>
          (checkCell_clean _ _ _ _ _).bind fun a2 _ => .ite (fun _ => .ok _) fun _ =>
          (checkCell_clean _ _ _ _ _).bind fun a3 _ => .ite (fun _ => .ok _) fun _ =>
          (checkCell_clean _ _ _ _ _).bind fun a4 _ => .ite (fun _ => .ok _) fun _ => (hrest a4.2).1
      · intro q hq
        obtain ⟨⟨b1, a1⟩, h1, hq⟩ := Res.bind_eq_ok.mp hq
        have e1 := checkCell_rmax h1
        dsimp only at hq
        by_cases hb1 : b1 = true
        · rw [if_pos hb1, Res.ok.injEq] at hq; rw [← hq]; exact e1
        rw [if_neg hb1] at hq
        obtain ⟨⟨b2, a2⟩, h2, hq⟩ := Res.bind_eq_ok.mp hq
        have e2 := (checkCell_rmax h2).trans e1
        dsimp only at hq
        by_cases hb2 : b2 = true
        · rw [if_pos hb2, Res.ok.injEq] at hq; rw [← hq]; exact e2
        rw [if_neg hb2] at hq
        obtain ⟨⟨b3, a3⟩, h3, hq⟩ := Res.bind_eq_ok.mp hq
        have e3 := (checkCell_rmax h3).trans e2
        dsimp only at hq
        by_cases hb3 : b3 = true
        · rw [if_pos hb3, Res.ok.injEq] at hq; rw [← hq]; exact e3
        rw [if_neg hb3] at hq
        obtain ⟨⟨b4, a4⟩, h4, hq⟩ := Res.bind_eq_ok.mp hq
        have e4 := (checkCell_rmax h4).trans e3
        dsimp only at hq
        by_cases hb4 : b4 = true
        · rw [if_pos hb4, Res.ok.injEq] at hq; rw [← hq]; exact e4
        rw [if_neg hb4] at hq
        exact ((hrest a4).2 q hq).trans e4
    · rw [if_neg hx]
      exact ⟨.ok _, fun q hq => by rw [Res.ok.injEq] at hq; rw [← hq]⟩

theorem bresenham_clean (c : Collision F) (g : GridMap F) (cfg : CollisionConfig) (r : Int) :
    Clean (c.bresenhamCircle g cfg r) ∧ ∀ q, c.bresenhamCircle g cfg r = .ok q → q.2.r_max = cfg.r_max := by
  unfold Collision.bresenhamCircle
  rcases le_or_gt 1 r with h | h
  · exact circleLoop_clean c g r _ _ _ _ cfg (circleInv_start h) (by push_cast; omega)
  · rw [Collision.circleLoop, if_neg (by omega)]
    exact ⟨.ok _, fun q hq => by rw [Res.ok.injEq] at hq; rw [← hq]⟩

theorem searchLoop_clean (c : Collision F) (g : GridMap F) :
    ∀ (n : Nat) (r : Int) (cfg : CollisionConfig), (cfg.r_max - r + 1).toNat ≤ n →
      Clean (c.searchLoop g (n + 1) r cfg) := by
  intro n
  induction n with
  | zero =>
    intro r cfg hn
    rw [Collision.searchLoop, if_neg (by omega)]
    exact .ok _
  | succ n ih =>
    intro r cfg hn
    rw [Collision.searchLoop]
    refine .ite (fun _ => (bresenham_clean c g cfg r).1.bind fun q hq => .ite (fun _ => .ok _) fun _ => ?_) fun _ => .ok _
    have := (bresenham_clean c g cfg r).2 q hq
    exact ih _ _ (by omega)

theorem search_clean (c : Collision F) (g : GridMap F) (cfg : CollisionConfig) : Clean (c.search g cfg) :=
  searchLoop_clean c g _ _ _ le_rfl

/-- C129: a collision query on any map — also one whose data are too short or too long — returns or throws, if its five
conversions are defined. -/
theorem C129_query {c : Collision F} {g : GridMap F} {p : V3 F} (h : QueryFits c g p) :
    (∃ b, c.collisionCheck g p = .ok b) ∨ ∃ e, c.collisionCheck g p = .throw e := by
  show Clean _
  refine Clean.bind ?_ fun cfg _ => (search_clean c g cfg).bind fun _ _ => .ok _
  refine Clean.bind ?_ fun _ _ => h.boundary.clean_i32.bind fun _ _ => h.collision.clean_i32.bind fun _ _ =>
    h.search.clean_i32.bind fun _ _ => .ok _
  exact (h.column.weaken le_rfl (by norm_num)).clean_u32.bind fun _ _ =>
    (h.row.weaken le_rfl (by norm_num)).clean_u32.bind fun _ _ => .ok _

/-! ## Driving ahead -/

theorem DriveFits.tail {c : Collision F} {g : GridMap F} {u : V3 F} {dt : F} {x : V3 F} {n : Nat}
    (h : DriveFits c g u dt x (n + 1)) (h0 : c.collisionCheck g (stepPose u dt x) = .ok false) :
    DriveFits c g u dt (stepPose u dt x) n := by
  intro k hk hl
  have := h (k + 1) (by omega) fun l hl' => by
    cases l with
    | zero => exact h0
    | succ l => exact hl l (by omega)
  exact this

theorem DriveFits.head {c : Collision F} {g : GridMap F} {u : V3 F} {dt : F} {x : V3 F} {n : Nat}
    (h : DriveFits c g u dt x (n + 1)) : Clean (c.collisionCheck g (stepPose u dt x)) :=
  C129_query (h 0 (by omega) fun l hl => by omega)

theorem validateLoop_clean (c : Collision F) (g : GridMap F) (u : V3 F) (dt : F) (n : Nat) :
    ∀ x, DriveFits c g u dt x n → Clean (validateLoop c g u dt n x) := by
  induction n with
  | zero => intro x _; exact .ok _
  | succ n ih =>
    intro x h
    refine Clean.bind (h.head) fun b hb => .ite (fun _ => .ok _) fun hn => ih _ (h.tail ?_)
    cases b
    · exact hb
    · exact absurd rfl hn

theorem rollout_clean (d : DynamicWindow F) (g : GridMap F) (u : V3 F) (n : Nat) :
    ∀ x, DriveFits d.collision g u d.dt x n → Clean (d.rollout g u n x) := by
  induction n with
  | zero => intro x _; exact .ok _
  | succ n ih =>
    intro x h
    refine Clean.bind (h.head) fun b hb => .ite (fun _ => .ok _) fun hn => ih _ (h.tail ?_)
    cases b
    · exact hb
    · exact absurd rfl hn

omit [Flt F] in
theorem col_clean {α : Type} (l : List α) (i : Nat) : Clean (col l i) := by
  unfold col
  split
  · exact .ok _
  · exact .throw _

theorem trajLoop_clean (d : DynamicWindow F) (g : GridMap F) (u : V3 F) (ref : List (V3 F)) (tf : F) (n : Nat) :
    ∀ x t cost, DriveFits d.collision g u d.dt x n →
      (∀ k < n, InRange32 (Flt.round (Flt.ofInt (DynamicWindow.lastCol ref.length) *. stride t d.dt k /. tf)) 0 4294967296) →
      Clean (d.trajLoop g u ref tf n x t cost) := by
  induction n with
  | zero => intro x t cost _ _; exact .ok _
  | succ n ih =>
    intro x t cost h hc
    refine Clean.bind (h.head) fun b hb => .ite (fun _ => .ok _) fun hn =>
      (hc 0 (by omega)).clean_u32.bind fun _ _ => (col_clean _ _).bind fun _ _ => ih _ _ _ (h.tail ?_) fun k hk => ?_
    · cases b
      · exact hb
      · exact absurd rfl hn
    · exact hc (k + 1) (by omega)

theorem searchWindow_clean (d : DynamicWindow F) (vb : V3 F) (cost : V3 F → Res F)
    (h : ∀ u, IsSample d vb u → Clean (cost u)) : Clean (d.searchWindow vb cost) := by
  rw [searchWindow_eq]
  refine Clean.bind ?_ fun s _ => .ite (fun _ => .ok _) fun _ => .ok _
  have h' : ∀ u ∈ visited d vb, Clean (cost u) := fun u hu => h u ((mem_visited d vb u).mp hu)
  generalize (visited d vb) = l at h'
  generalize ((Flt.maxFin, V3.zero) : F × V3 F) = s
  induction l generalizing s with
  | nil => exact .ok _
  | cons a l ih =>
    rw [List.foldlM_cons]
    exact ((h' a (by simp)).bind fun _ _ => .ok _).bind fun s' _ => ih (fun u hu => h' u (by simp [hu])) s'

/-! ## Planning -/

theorem solveLoop_clean {dt : F} {f : V3 F → V3 F → Res (V3 F)} (hf : ∀ x u, Clean (f x u)) (ut : List (V3 F)) (n : Nat) :
    ∀ i x, Clean (RungeKutta.solveLoop dt f ut n i x) ∧
      ∀ l, RungeKutta.solveLoop dt f ut n i x = .ok l → l.length = n := by
  induction n with
  | zero => intro i x; exact ⟨.ok _, fun l hl => by rw [RungeKutta.solveLoop, Res.ok.injEq] at hl; rw [← hl]; rfl⟩
  | succ n ih =>
    intro i x
    constructor
    · exact (col_clean _ _).bind fun u _ => Clean.bind ((hf _ _).bind fun _ _ => (hf _ _).bind fun _ _ =>
        (hf _ _).bind fun _ _ => (hf _ _).bind fun _ _ => .ok _) fun y _ => (ih _ _).1.bind fun _ _ => .ok _
    · intro l hl
      rw [RungeKutta.solveLoop] at hl
      simp only [Res.bind_eq_ok, Res.ok.injEq] at hl
      obtain ⟨u, -, y, -, rest, hr, rfl⟩ := hl
      rw [List.length_cons, (ih _ _).2 rest hr]

theorem solve_clean {dt horizon : F} {f : V3 F → V3 F → Res (V3 F)} (hf : ∀ x u, Clean (f x u)) (x : V3 F)
    (ut : List (V3 F)) (h : CountFits horizon dt) : Clean (RungeKutta.solve dt f x ut horizon) :=
  (InRange32.clean_u32 h).bind fun _ _ => (solveLoop_clean hf _ _ _ _).1

theorem solve_len {dt horizon : F} {f : V3 F → V3 F → Res (V3 F)} (hf : ∀ x u, Clean (f x u)) {x : V3 F}
    {ut l : List (V3 F)} (h : CountFits horizon dt) (hl : RungeKutta.solve dt f x ut horizon = .ok l) :
    Flt.trunc? (fabs (horizon /. dt)) = some (l.length : Int) := by
  obtain ⟨n, hn, ht⟩ := InRange32.u32 h
  unfold RungeKutta.solve numSteps at hl
  rw [hn] at hl
  rw [(solveLoop_clean hf _ _ _ _).2 l hl]
  exact ht

theorem solveBackLoop_clean (dt : F) (func : CoStateFunc F) (fdx : V3 F → V3 F → M3 F) (xt ut edx bdx : List (V3 F))
    (n : Nat) : ∀ rho acc, Clean (RungeKutta.solveBackLoop dt func fdx xt ut edx bdx n rho acc) := by
  induction n with
  | zero => intro _ _; exact .ok _
  | succ n ih =>
    intro _ _
    exact (col_clean _ _).bind fun _ _ => (col_clean _ _).bind fun _ _ => (col_clean _ _).bind fun _ _ =>
      (col_clean _ _).bind fun _ _ => ih _ _

theorem clampR_clean {v lo hi : F} (h : Flt.lt hi lo = false) : Clean (ErgodicControl.clampR v lo hi) := by
  unfold ErgodicControl.clampR
  rw [if_neg (by simp [h])]
  exact .ok _

theorem updateLoop_clean (e : ErgodicControl F) (h0 : Flt.lt e.umax.c0 e.umin.c0 = false)
    (h1 : Flt.lt e.umax.c1 e.umin.c1 = false) (h2 : Flt.lt e.umax.c2 e.umin.c2 = false) (xs : List (V3 F)) :
    ∀ rs, Clean (e.updateLoop xs rs) := by
  induction xs with
  | nil => intro rs; unfold ErgodicControl.updateLoop; exact .ok _
  | cons x xs ih =>
    intro rs
    cases rs with
    | nil => unfold ErgodicControl.updateLoop; exact .throw _
    | cons r rs =>
      unfold ErgodicControl.updateLoop
      exact Clean.bind ((clampR_clean h0).bind fun _ _ => (clampR_clean h1).bind fun _ _ =>
        (clampR_clean h2).bind fun _ _ => .ok _) fun _ _ => (ih rs).bind fun _ _ => .ok _

theorem phiGrid_clean {lx ly res : F} (hx : InRange32 (Flt.round ((lx -. lit 0 0) /. res)) 0 4294967296)
    (hy : InRange32 (Flt.round ((ly -. lit 0 0) /. res)) 0 4294967296) : Clean (ErgodicControl.phiGrid lx ly res) :=
  hx.clean_u32.bind fun _ _ => hy.clean_u32.bind fun _ _ => .ite (fun _ => .throw _) fun _ => .ok _

theorem control_clean {s : Expl F} (hs : Settled s) (ht : TargetFits s) (draws : List Nat) :
    Clean (s.ec.control s.grid s.pose draws) := by
  refine Clean.bind (r := ErgodicControl.configTarget { s.ec with pose := s.pose } s.grid) ?_ fun e he => ?_
  · unfold ErgodicControl.configTarget
    dsimp only
    refine .ite (fun _ => .ok _) fun hn => ?_
    rcases ht with ⟨h1, h2⟩ | ⟨h1, h2⟩
    · exact absurd (by rw [h1, h2]; rfl) hn
    · refine (phiGrid_clean h1 h2).bind fun l _ => Clean.bind ?_ fun _ _ => .ok _
      exact .ite (fun _ => .throw _) fun _ => .ok _
  · obtain ⟨lx, ly, phik, rfl⟩ := ErgodicControl.configTarget_frame he
    refine Clean.bind (.ite (fun _ => .throw _) fun _ => .ok _) fun ut _ =>
      (solve_clean hs.model _ _ hs.ec_count).bind fun traj _ => Clean.bind (C126_sample _ _ _) fun total _ =>
      .ite (fun _ => .throw _) fun _ => Clean.bind ?_ fun rhot _ =>
      Clean.bind ?_ fun ut' _ => (col_clean _ _).bind fun _ _ => .ok _
    · exact (InRange32.clean_u32 hs.ec_count).bind fun _ _ => solveBackLoop_clean _ _ _ _ _ _ _ _ _ _
    · apply updateLoop_clean
      · exact hs.lim0
      · exact hs.lim1
      · exact hs.lim2

theorem control_static {e e' : ErgodicControl F} {g : GridMap F} {x u : V3 F} {draws : List Nat}
    (h : e.control g x draws = .ok (e', u)) : e'.model = e.model ∧ e'.dt = e.dt ∧ e'.horizon = e.horizon ∧
      e'.umin = e.umin ∧ e'.umax = e.umax := by
  unfold ErgodicControl.control at h
  simp only [Res.bind_eq_ok] at h
  obtain ⟨ec, hec, ut, -, traj, -, total, -, h⟩ := h
  obtain ⟨lx, ly, phik, rfl⟩ := ErgodicControl.configTarget_frame hec
  split at h
  · simp at h
  · simp only [Res.bind_eq_ok, Res.ok.injEq, Prod.mk.injEq] at h
    obtain ⟨rhot, -, ut', -, u', -, rfl, -⟩ := h
    exact ⟨rfl, rfl, rfl, rfl, rfl⟩

/-! ## One iteration -/

theorem Settled.localize {s : Expl F} (h : Settled s) (tf : Option (TransformMsg F)) : Settled (s.localize tf) := by
  obtain ⟨h1, h2, h3, h4, h5, h6, h7⟩ := h
  cases tf <;> exact ⟨h1, h2, h3, h4, h5, h6, h7⟩

theorem Settled.advance {s : Expl F} (h : Settled s) : Settled s.advanceDwa := by
  obtain ⟨h1, h2, h3, h4, h5, h6, h7⟩ := h
  obtain ⟨i, f, e⟩ := s.advanceDwa_frame
  rw [e]
  exact ⟨h1, h2, h3, h4, h5, h6, h7⟩

theorem Settled.control {s : Expl F} (h : Settled s) {e : ErgodicControl F} {u : V3 F} {draws : List Nat}
    (hc : s.ec.control s.grid s.pose draws = .ok (e, u)) : Settled { s with ec := e, u } := by
  obtain ⟨h1, h2, h3, h4, h5, h6, h7⟩ := h
  obtain ⟨e1, e2, e3, e4, e5⟩ := control_static hc
  refine ⟨?_, ?_, h3, h4, ?_, ?_, ?_⟩ <;> dsimp only <;> simp only [e1, e2, e3, e4, e5] <;> assumption

theorem Settled.replan {s r : Expl F} (h : Settled s) {draws : List Nat} {o : List (Out F)}
    (hr : s.replan draws = .ok (r, o)) : Settled r := by
  rcases Expl.replan_ok hr with ⟨-, rfl, -⟩ | ⟨-, ec', u, p, hc, -, rfl, -⟩
  · exact h
  · exact h.control hc

theorem Settled.avoid {s r : Expl F} (h : Settled s) {o : List (Out F)} (hr : s.avoid = .ok (r, o)) : Settled r := by
  obtain ⟨h1, h2, h3, h4, h5, h6, h7⟩ := h
  rcases Expl.avoid_ok hr with ⟨-, rfl, -⟩ | ⟨-, ⟨-, b, u, -, rfl, -⟩ |
    ⟨-, ref, b, u, -, -, ⟨-, rfl, -⟩ | ⟨-, p, -, rfl, -⟩⟩⟩
  all_goals exact ⟨h1, h2, h3, h4, h5, h6, h7⟩

theorem replan_clean {s : Expl F} (hs : Settled s) (ht : s.follow_dwa = false → TargetFits s) (draws : List Nat) :
    Clean (s.replan draws) := by
  unfold Expl.replan
  refine .ite (fun _ => .ok _) fun hn => (control_clean hs (ht (by simpa using hn)) draws).bind fun q hq => ?_
  obtain ⟨e, u⟩ := q
  have h := hs.control hq
  exact Clean.bind ((solve_clean h.model _ _ h.ec_count).bind fun _ _ => .ok _) fun _ _ => .ok _

theorem avoid_clean {s : Expl F} (hs : Settled s) (ha : AvoidFits s) : Clean s.avoid := by
  unfold Expl.avoid
  have hv : Clean (validateControl s.collision s.grid s.pose s.u s.val_dt s.val_horizon) := by
    obtain ⟨n, hn, ht⟩ := InRange32.u32 hs.val_count
    unfold validateControl numSteps
    rw [hn]
    exact validateLoop_clean _ _ _ _ _ _ (ha.ahead _ ht)
  refine hv.bind fun b hb => .ite (fun _ => .ok _) fun hn => ?_
  have hf : validateControl s.collision s.grid s.pose s.u s.val_dt s.val_horizon = .ok false := by
    cases b
    · exact hb
    · exact absurd rfl hn
  refine .ite (fun _ => Clean.bind (searchWindow_clean _ _ _ fun u hu => ?_) fun _ _ => .ok _) fun hd => ?_
  · refine Clean.bind (rollout_clean _ _ _ _ _ (ha.window hf u hu)) fun o _ => ?_
    cases o <;> exact .ok _
  · refine (solve_clean hs.model _ _ hs.ec_count).bind fun ref href => Clean.bind ?_ fun q _ =>
      .ite (fun _ => Clean.bind ((InRange32.clean_u32 hs.dwa_count).bind fun _ _ => .ok _) fun _ _ => .ok _)
        fun _ => .ok _
    refine searchWindow_clean _ _ _ fun u hu => trajLoop_clean _ _ _ _ _ _ _ _ _ (ha.window hf u hu) ?_
    exact ha.columns hf (by simpa using hd) _ (solve_len hs.model hs.ec_count href)

/-- C129, one iteration, in every arithmetic, from every state of a node whose constants are in order, with every
transform and every random integers: it returns, it throws, or it comes to a conversion that does not fit. -/
theorem C129_iteration {s : Expl F} (hs : Settled s) (tf : Option (TransformMsg F)) (draws : List Nat) :
    (∃ r, s.iteration tf draws = .ok r) ∨ (∃ e, s.iteration tf draws = .throw e) ∨ Trouble s tf draws := by
  by_cases hb : Trouble s tf draws
  · exact .inr (.inr hb)
  rw [← or_assoc]
  refine .inl ?_
  show Clean _
  unfold Expl.iteration
  refine .ite (fun hc => ?_) fun _ => .ok _
  have h1 := (hs.localize tf).advance
  have hc' : ((s.localize tf).advanceDwa).map_received = true ∧ ((s.localize tf).advanceDwa).pose_known = true := by
    obtain ⟨i, f, e⟩ := (s.localize tf).advanceDwa_frame
    rw [e]
    simpa using hc
  refine (replan_clean h1 (fun hf => ?_) draws).bind fun q hq => ?_
  · by_contra hn
    exact hb ⟨hc'.1, hc'.2, .inl ⟨hf, hn⟩⟩
  · obtain ⟨r, o⟩ := q
    refine Clean.bind (avoid_clean (h1.replan hq) ?_) fun _ _ => .ok _
    by_contra hn
    exact hb ⟨hc'.1, hc'.2, .inr ⟨r, o, hq, hn⟩⟩

theorem Settled.step {s t : Expl F} (hs : Settled s) {e : Event F} {o : List (Out F)} (h : s.step e = .ok (t, o)) :
    Settled t := by
  cases e with
  | map m =>
    simp only [Expl.step, Res.ok.injEq, Prod.mk.injEq] at h
    obtain ⟨rfl, -⟩ := h
    obtain ⟨h1, h2, h3, h4, h5, h6, h7⟩ := hs
    exact ⟨h1, h2, h3, h4, h5, h6, h7⟩
  | odom v =>
    simp only [Expl.step, Res.ok.injEq, Prod.mk.injEq] at h
    obtain ⟨rfl, -⟩ := h
    obtain ⟨h1, h2, h3, h4, h5, h6, h7⟩ := hs
    exact ⟨h1, h2, h3, h4, h5, h6, h7⟩
  | tick tf d =>
    rcases Expl.iteration_ok h with ⟨-, rfl, -⟩ | ⟨-, r, o1, o2, hr, ha, -⟩
    · exact hs.localize tf
    · exact ((hs.localize tf).advance.replan hr).avoid ha

/-- C129, a whole run, in every arithmetic and whatever the messages: it returns, it throws, or some iteration, reached
without a failure, comes to a conversion that does not fit. The callbacks never fail, and no loop runs forever. -/
theorem C129_run {s : Expl F} (hs : Settled s) (es : List (Event F)) :
    (∃ r, s.run es = .ok r) ∨ (∃ e, s.run es = .throw e) ∨
    ∃ pre tf draws post t o, es = pre ++ .tick tf draws :: post ∧ s.run pre = .ok (t, o) ∧ Trouble t tf draws := by
  induction es generalizing s with
  | nil => exact .inl ⟨_, rfl⟩
  | cons e es ih =>
    have hstep : (∃ r, s.step e = .ok r) ∨ (∃ x, s.step e = .throw x) ∨
        ∃ tf draws, e = .tick tf draws ∧ Trouble s tf draws := by
      cases e with
      | map m => exact .inl ⟨_, rfl⟩
      | odom v => exact .inl ⟨_, rfl⟩
      | tick tf d =>
        rcases C129_iteration hs tf d with h | h | h
        · exact .inl h
        · exact .inr (.inl h)
        · exact .inr (.inr ⟨tf, d, rfl, h⟩)
    rcases hstep with ⟨⟨t, o⟩, h⟩ | ⟨x, h⟩ | ⟨tf, d, rfl, h⟩
    · rcases ih (hs.step h) with ⟨⟨t', o'⟩, h'⟩ | ⟨x, h'⟩ | ⟨pre, tf, d, post, t', o', rfl, hp, hb⟩
      · exact .inl ⟨_, by rw [Expl.run, h, Res.ok_bind]; dsimp only; rw [h', Res.ok_bind]⟩
      · exact .inr (.inl ⟨x, by rw [Expl.run, h, Res.ok_bind]; dsimp only; rw [h', Res.throw_bind]⟩)
      · refine .inr (.inr ⟨e :: pre, tf, d, post, t', o ++ o', rfl, ?_, hb⟩)
        rw [Expl.run, h, Res.ok_bind]
        dsimp only
        rw [hp, Res.ok_bind]
    · exact .inr (.inl ⟨x, by rw [Expl.run, h, Res.throw_bind]⟩)
    · exact .inr (.inr ⟨[], tf, d, es, s, [], rfl, rfl, h⟩)

/-! ## The two nodes -/

theorem InRange32.of_u32 {x : F} {n : UInt32} (h : castU32 x = .ok n) : InRange32 x 0 4294967296 := by
  unfold castU32 at h
  split at h
  · rename_i m hm
    split at h
    · rename_i hr
      exact ⟨m, hm, hr.1, hr.2⟩
    · simp at h
  · simp at h

theorem CountFits.of_ec {model : TwistModel F} {c : Collision F} {dt horizon r w : F} {k n b : Nat} {Rinv : M3 F}
    {umin umax : V3 F} {ec : ErgodicControl F}
    (h : ErgodicControl.new model c dt horizon r w k n b Rinv umin umax = .ok ec) :
    CountFits horizon dt ∧ ec.model = model ∧ ec.dt = dt ∧ ec.horizon = horizon ∧ ec.umin = umin ∧ ec.umax = umax := by
  obtain ⟨m, hm, h⟩ := Res.bind_eq_ok.mp h
  split at h
  · simp at h
  · rw [Res.ok.injEq] at h
    subst h
    exact ⟨.of_u32 hm, rfl, rfl, rfl, rfl, rfl⟩

theorem CountFits.of_dwa {c : Collision F} {dt horizon a ax ay aw x1 x0 y1 y0 r1 r0 : F} {nx ny nw : UInt32}
    {dwa : DynamicWindow F} (h : DynamicWindow.new c dt horizon a ax ay aw x1 x0 y1 y0 r1 r0 nx ny nw = .ok dwa) :
    CountFits horizon dt ∧ dwa.dt = dt ∧ dwa.horizon = horizon := by
  obtain ⟨m, hm, h⟩ := Res.bind_eq_ok.mp h
  rw [Res.ok.injEq] at h
  subst h
  exact ⟨.of_u32 hm, rfl, rfl⟩

theorem omni_settled {p : Params F} {n : Node F} {o : List (Out F)} (h : Node.omni p = .ok (n, o))
    (hv : CountFits p.val_horizon p.val_dt) (h0 : Flt.lt p.max_vel_x p.min_vel_x = false)
    (h1 : Flt.lt p.max_vel_y p.min_vel_y = false) (h2 : Flt.lt p.max_rot_vel p.min_rot_vel = false) :
    Settled n.expl := by
  obtain ⟨w0, w1, w2, gs, collision, ec, dwa, -, hec, hdwa, hs, -⟩ := omni_parts h
  have hs : n.expl = _ := congrArg Prod.fst hs
  obtain ⟨e1, e2, e3, e4, e5, e6⟩ := CountFits.of_ec hec
  obtain ⟨d1, d2, d3⟩ := CountFits.of_dwa hdwa
  rw [hs]
  refine ⟨?_, ?_, ?_, hv, ?_, ?_, ?_⟩ <;>
    simp only [Expl.start, ErgodicControl.setTarget, e2, e3, e4, e5, e6, d2, d3] <;> try assumption
  exact fun x u => .inl ⟨_, rfl⟩

theorem cart_settled [StrictLt F] {p : Params F} {n : Node F} {o : List (Out F)} (h : Node.cart p = .ok (n, o))
    (hv : CountFits p.val_horizon p.val_dt) (h0 : Flt.lt p.max_vel_x p.min_vel_x = false)
    (h2 : Flt.lt p.max_rot_vel p.min_rot_vel = false) : Settled n.expl := by
  obtain ⟨w0, w1, gs, collision, ec, dwa, -, hec, hdwa, hs, -⟩ := cart_parts h
  have hs : n.expl = _ := congrArg Prod.fst hs
  obtain ⟨e1, e2, e3, e4, e5, e6⟩ := CountFits.of_ec hec
  obtain ⟨d1, d2, d3⟩ := CountFits.of_dwa hdwa
  rw [hs]
  refine ⟨?_, ?_, ?_, hv, ?_, ?_, ?_⟩ <;>
    simp only [Expl.start, ErgodicControl.setTarget, e2, e3, e4, e5, e6, d2, d3] <;> try assumption
  · intro x u
    show Clean (SimpleCart.f x u)
    exact .ite (fun _ => .throw _) fun _ => .ok _
  · exact StrictLt.irrefl _

theorem node_run_trouble {n : Node F} (hs : Settled n.expl) (es : List (Event F)) :
    (∃ r, n.run es = .ok r) ∨ (∃ e, n.run es = .throw e) ∨
    ∃ pre tf draws post m o, es = pre ++ .tick tf draws :: post ∧ n.run pre = .ok (m, o) ∧ Trouble m.expl tf draws := by
  cases hup : n.up with
  | false => exact .inl ⟨_, node_run_down n hup es⟩
  | true =>
    rcases C129_run hs es with ⟨⟨t, o⟩, h⟩ | ⟨e, h⟩ | ⟨pre, tf, d, post, t, o, rfl, h, hb⟩
    · exact .inl ⟨_, node_run_of_expl n hup es t o h⟩
    · refine .inr (.inl ⟨e, ?_⟩)
      clear hs
      induction es generalizing n with
      | nil => simp [Expl.run] at h
      | cons a es ih =>
        rw [Node.run, Node.step, if_pos hup]
        rw [Expl.run] at h
        cases hst : n.expl.step a with
        | ok r =>
          obtain ⟨t, o⟩ := r
          rw [hst, Res.ok_bind] at h
          dsimp only at h
          have hr : t.run es = .throw e := by
            cases hx : t.run es with
            | ok r => rw [hx, Res.ok_bind] at h; simp at h
            | throw x => rw [hx, Res.throw_bind] at h; exact h
            | ub => rw [hx, Res.ub_bind] at h; simp at h
            | timeout => rw [hx, Res.timeout_bind] at h; simp at h
          rw [Res.ok_bind, Res.ok_bind]
          dsimp only
          rw [ih (n := { n with expl := t }) hup hr, Res.throw_bind]
        | throw x =>
          rw [hst, Res.throw_bind, Res.throw.injEq] at h
          subst h
          rfl
        | ub => rw [hst, Res.ub_bind] at h; simp at h
        | timeout => rw [hst, Res.timeout_bind] at h; simp at h
    · exact .inr (.inr ⟨pre, tf, d, post, _, o, rfl, node_run_of_expl n hup pre t o h, hb⟩)

/-- C129 for the omni-directional robot, in every arithmetic: a node that has started, with limits the right way round and
a number of validation steps that fits, returns, throws, or comes to a conversion that does not fit, whatever it is
sent. -/
theorem C129_omni {p : Params F} {n : Node F} {o : List (Out F)} (h : Node.omni p = .ok (n, o))
    (hv : CountFits p.val_horizon p.val_dt) (h0 : Flt.lt p.max_vel_x p.min_vel_x = false)
    (h1 : Flt.lt p.max_vel_y p.min_vel_y = false) (h2 : Flt.lt p.max_rot_vel p.min_rot_vel = false)
    (es : List (Event F)) :
    (∃ r, n.run es = .ok r) ∨ (∃ e, n.run es = .throw e) ∨
    ∃ pre tf draws post m out, es = pre ++ .tick tf draws :: post ∧ n.run pre = .ok (m, out) ∧
      Trouble m.expl tf draws :=
  node_run_trouble (omni_settled h hv h0 h1 h2) es

/-- C129 for the cart. -/
theorem C129_cart [StrictLt F] {p : Params F} {n : Node F} {o : List (Out F)} (h : Node.cart p = .ok (n, o))
    (hv : CountFits p.val_horizon p.val_dt) (h0 : Flt.lt p.max_vel_x p.min_vel_x = false)
    (h2 : Flt.lt p.max_rot_vel p.min_rot_vel = false) (es : List (Event F)) :
    (∃ r, n.run es = .ok r) ∨ (∃ e, n.run es = .throw e) ∨
    ∃ pre tf draws post m out, es = pre ++ .tick tf draws :: post ∧ n.run pre = .ok (m, out) ∧
      Trouble m.expl tf draws :=
  node_run_trouble (cart_settled h hv h0 h2) es

/-! ## The trouble is real -/

theorem castU32_misfit {x : F} (h : ¬ InRange32 x 0 4294967296) : castU32 x = .ub := by
  unfold castU32
  split
  · rename_i n hn
    rw [if_neg]
    exact fun hr => h ⟨n, hn, hr⟩
  · rfl

/-- C129: when the map has a new size and the number of samples of its width does not fit, the iteration has undefined
behaviour. -/
theorem C129_target {s : Expl F} {tf : Option (TransformMsg F)} {draws : List Nat}
    (hm : (s.localize tf).advanceDwa.map_received = true) (hk : (s.localize tf).advanceDwa.pose_known = true)
    (hf : (s.localize tf).advanceDwa.follow_dwa = false)
    (hn : almostEqual (s.grid.xmax -. s.grid.xmin) s.ec.basis.lx = false)
    (hx : ¬ InRange32 (Flt.round ((s.grid.xmax -. s.grid.xmin -. lit 0 0) /. s.ec.resolution)) 0 4294967296) :
    s.iteration tf draws = .ub := by
  obtain ⟨i, f, he⟩ := (s.localize tf).advanceDwa_frame
  have hc : ((s.localize tf).map_received && (s.localize tf).pose_known) = true := by
    rw [he] at hm hk
    simpa using ⟨hm, hk⟩
  have hgrid : (s.localize tf).advanceDwa.grid = s.grid := by rw [he]; cases tf <;> rfl
  have hbasis : (s.localize tf).advanceDwa.ec.basis = s.ec.basis := by rw [he]; cases tf <;> rfl
  have hres : (s.localize tf).advanceDwa.ec.resolution = s.ec.resolution := by rw [he]; cases tf <;> rfl
  unfold Expl.iteration
  rw [if_pos hc]
  dsimp only
  have hr : (s.localize tf).advanceDwa.replan draws = .ub := by
    unfold Expl.replan
    rw [if_neg (by rw [hf]; simp)]
    have : (s.localize tf).advanceDwa.ec.control (s.localize tf).advanceDwa.grid (s.localize tf).advanceDwa.pose draws =
        .ub := by
      unfold ErgodicControl.control
      have hcfg : ErgodicControl.configTarget { (s.localize tf).advanceDwa.ec with pose := (s.localize tf).advanceDwa.pose }
          (s.localize tf).advanceDwa.grid = .ub := by
        unfold ErgodicControl.configTarget
        dsimp only
        rw [hgrid, hbasis, if_neg (by simp [hn]), hres]
        unfold ErgodicControl.phiGrid axisLength
        rw [castU32_misfit hx]
        rfl
      rw [hcfg]
      rfl
    rw [this]
    rfl
  rw [hr]
  rfl

theorem collisionCheck_misfit {c : Collision F} {g : GridMap F} {p : V3 F}
    (h : ¬ InRange32 (Flt.floor ((p.c0 -. g.xmin) /. g.resolution)) 0 4294967296) : c.collisionCheck g p = .ub := by
  unfold Collision.collisionCheck Collision.config GridMap.world2Grid
  rw [castU32_misfit h]
  rfl

theorem validateLoop_misfit (c : Collision F) (g : GridMap F) (u : V3 F) (dt : F) (n : Nat) : ∀ (x : V3 F) (k : Nat),
    k < n → (∀ l < k, c.collisionCheck g (poseAfter u dt x (l + 1)) = .ok false) →
    c.collisionCheck g (poseAfter u dt x (k + 1)) = .ub → validateLoop c g u dt n x = .ub := by
  induction n with
  | zero => intro x k hk; omega
  | succ n ih =>
    intro x k hk hl hb
    rw [validateLoop]
    cases k with
    | zero =>
      have hb : c.collisionCheck g (stepPose u dt x) = .ub := hb
      unfold stepPose at hb
      dsimp only at hb ⊢
      rw [hb]
      rfl
    | succ k =>
      have h0 : c.collisionCheck g (stepPose u dt x) = .ok false := hl 0 (by omega)
      have := ih (stepPose u dt x) k (by omega) (fun l hl' => hl (l + 1) (by omega)) hb
      unfold stepPose at h0 this
      dsimp only at h0 this ⊢
      rw [h0, Res.ok_bind, if_neg (by simp)]
      exact this

/-- C129: when the planned twist, driven without a collision so far, leads to a pose whose column does not fit, within
the validation horizon, the iteration has undefined behaviour. -/
theorem C129_ahead {s r : Expl F} {tf : Option (TransformMsg F)} {draws : List Nat} {o : List (Out F)}
    (hc : ((s.localize tf).map_received && (s.localize tf).pose_known) = true)
    (hr : (s.localize tf).advanceDwa.replan draws = .ok (r, o)) {n : UInt32}
    (hn : numSteps r.val_horizon r.val_dt = .ok n) {k : Nat} (hk : k < n.toNat)
    (hl : ∀ l < k, r.collision.collisionCheck r.grid (poseAfter r.u r.val_dt r.pose (l + 1)) = .ok false)
    (hx : ¬ InRange32 (Flt.floor (((poseAfter r.u r.val_dt r.pose (k + 1)).c0 -. r.grid.xmin) /. r.grid.resolution))
      0 4294967296) : s.iteration tf draws = .ub := by
  unfold Expl.iteration
  rw [if_pos hc]
  dsimp only
  rw [hr, Res.ok_bind]
  dsimp only
  have : r.avoid = .ub := by
    unfold Expl.avoid validateControl
    rw [hn, Res.ok_bind, validateLoop_misfit _ _ _ _ _ _ k hk hl (collisionCheck_misfit hx)]
    rfl
  rw [this]
  rfl

/-- a map of one cell, ten million kilometres wide -/
noncomputable def hugeMsg : OccupancyGrid ℝ := ⟨1, 1, 10 ^ 10, 0, 0, [0]⟩

theorem real_inRange {x : ℝ} {n : Nat} (h0 : (n : ℝ) ≤ x) (h1 : x < n + 1) (hn : n < 4294967296) :
    InRange32 x 0 4294967296 := by
  have hx : 0 ≤ x := (Nat.cast_nonneg n).trans h0
  refine ⟨⌊x⌋, ?_, Int.floor_nonneg.mpr hx, ?_⟩
  · show some (realTrunc x) = _
    unfold realTrunc
    rw [if_pos hx]
  · rw [Int.floor_lt]
    have : (n : ℝ) + 1 ≤ 4294967296 := by exact_mod_cast hn
    push_cast
    linarith

/-- A node that meets the hypotheses of `C129_omni` and runs into trouble on this map. -/
example : ∃ (p : Params ℝ) (n : Node ℝ) (o : List (Out ℝ)), Node.omni p = .ok (n, o) ∧
    CountFits p.val_horizon p.val_dt ∧ Flt.lt p.max_vel_x p.min_vel_x = false ∧
    Flt.lt p.max_vel_y p.min_vel_y = false ∧ Flt.lt p.max_rot_vel p.min_rot_vel = false ∧
    n.run [.map hugeMsg, .tick (some (lowTf 1 1)) []] = .ub := by
  obtain ⟨target, ec, Rinv, o, hec, hn⟩ := side_omni 1 1 (by norm_num) (by norm_num) 1 (-1) 1
  have hb : ec.basis.lx = 0 ∧ ec.resolution = 1 := by
    obtain ⟨m, hm, h⟩ := Res.bind_eq_ok.mp hec
    split at h
    · simp at h
    · rw [Res.ok.injEq] at h
      subst h
      exact ⟨by simp [Basis.new], rfl⟩
  refine ⟨_, _, _, hn, ?_, ?_, ?_, ?_, ?_⟩
  · exact real_inRange (n := 1) (by norm_num [sideParams, real_fabs, abs_of_pos])
      (by norm_num [sideParams, real_fabs, abs_of_pos]) (by norm_num)
  · rw [real_lt_false]; simp only [sideParams]; norm_num
  · rw [real_lt_false]; simp only [sideParams]; norm_num
  · rw [real_lt_false]; simp only [sideParams]; norm_num
  · have hit : ((Expl.start ec nearDetector (sideDwa 1 (UInt32.ofNat 1) 1 (-1) 1) target "map" 0.1
        0.1).1.mapCallback hugeMsg).iteration (some (lowTf 1 1)) [] = .ub := by
      have hw : (mapOf hugeMsg).xmax -. (mapOf hugeMsg).xmin = (10 : ℝ) ^ 10 := by
        simp [mapOf, hugeMsg, real_mul, real_add, real_sub, real_ofInt]
      refine C129_target rfl rfl rfl ?_ ?_
      · show almostEqual ((mapOf hugeMsg).xmax -. (mapOf hugeMsg).xmin) ec.basis.lx = false
        rw [hw, hb.1]
        simp only [almostEqual, real_lt_false, real_fabs, real_sub, real_lit]
        norm_num
      · show ¬ InRange32 (Flt.round (((mapOf hugeMsg).xmax -. (mapOf hugeMsg).xmin -. lit 0 0) /. ec.resolution)) 0 _
        rw [hw, hb.2]
        rintro ⟨n, h, -, h1⟩
        have e : Flt.round (((10 : ℝ) ^ 10 -. lit 0 0) /. 1) = (10 : ℝ) ^ 10 := by
          show realRound (((10 : ℝ) ^ 10 - lit 0 0) / 1) = _
          have e0 : (((10 : ℝ) ^ 10 - lit 0 0) / 1) = 10 ^ 10 := by rw [real_lit]; norm_num
          rw [e0]
          unfold realRound
          rw [if_pos (by positivity)]
          have : ⌊(10:ℝ) ^ 10 + 1 / 2⌋ = 10 ^ 10 := by
            rw [Int.floor_eq_iff]
            constructor <;> norm_num
          rw [this]
          norm_num
        rw [e] at h
        have h : some (realTrunc ((10:ℝ) ^ 10)) = some n := h
        unfold realTrunc at h
        rw [if_pos (by positivity), Option.some.injEq] at h
        have : ⌊(10:ℝ) ^ 10⌋ = 10 ^ 10 := by
          rw [Int.floor_eq_iff]
          constructor <;> norm_num
        omega
    rw [Node.run, Node.step, if_pos lt_two_one, Expl.step, Res.ok_bind, Res.ok_bind]
    dsimp only
    rw [Node.run, Node.step, if_pos lt_two_one, Expl.step, hit]
    rfl

/-- A cart that meets the hypotheses of `C129_cart`. -/
example : ∃ (p : Params ℝ) (n : Node ℝ) (o : List (Out ℝ)), Node.cart p = .ok (n, o) ∧
    CountFits p.val_horizon p.val_dt ∧ Flt.lt p.max_vel_x p.min_vel_x = false ∧
    Flt.lt p.max_rot_vel p.min_rot_vel = false ∧ n.up = true := by
  obtain ⟨target, ec, Rinv, o, hec, hn⟩ := side_cart 1 1 (by norm_num) (by norm_num) 1
  refine ⟨_, _, _, hn, ?_, ?_, ?_, lt_two_one⟩
  · exact real_inRange (n := 1) (by norm_num [sideParams, real_fabs, abs_of_pos])
      (by norm_num [sideParams, real_fabs, abs_of_pos]) (by norm_num)
  · rw [real_lt_false]; simp only [sideParams]; norm_num
  · rw [real_lt_false]; simp only [sideParams]; norm_num

/-- The hypotheses of `C129_ahead`: a robot five metres to the left of its map, following an earlier twist. -/
example (ec : ErgodicControl ℝ) (target : Target ℝ) : ∃ s : Expl ℝ,
    s = { (Expl.start ec nearDetector (sideDwa 1 1 1 (-1) 1) target "map" 0.1 0.1).1 with
      map_received := true, grid := mapOf sideMsg, pose_known := true, follow_dwa := true, pose := ⟨-5, 1, 0⟩, u := ⟨1, 0, 0⟩,
      i := 5 } ∧ s.iteration none [] = .ub := by
  refine ⟨_, rfl, ?_⟩
  have hadv : ∀ s : Expl ℝ, s.follow_dwa = true → s.i + 1 ≠ s.dwa.steps → (s.localize none).advanceDwa.replan [] =
      .ok ({ s with i := s.i + 1, follow_dwa := true }, []) := by
    intro s h1 h2
    have : (s.localize none).advanceDwa = { s with i := s.i + 1, follow_dwa := true } := by
      unfold Expl.localize Expl.advanceDwa
      dsimp only
      rw [if_pos h1, decide_eq_true h2]
    rw [this]
    rfl
  refine C129_ahead (n := 1) (k := 0) rfl (hadv _ rfl (show (5 : UInt32) + 1 ≠ 1 by decide)) steps_val (by decide) (by omega) ?_
  show ¬ InRange32 (Flt.floor (((poseAfter (⟨1, 0, 0⟩ : V3 ℝ) 0.1 ⟨-5, 1, 0⟩ (0 + 1)).c0 -. (mapOf sideMsg).xmin) /.
    (mapOf sideMsg).resolution)) 0 4294967296
  have hp := (planar_le (C76_poseAfter (⟨1, 0, 0⟩ : V3 ℝ) 0.1 (by norm_num) ⟨-5, 1, 0⟩ 1)).1
  have hs : speed (⟨1, 0, 0⟩ : V3 ℝ) = 1 := by unfold speed; norm_num
  rw [hs, abs_of_pos (by norm_num : (0:ℝ) < 0.1)] at hp
  have hp := (abs_le.mp hp).2
  norm_num at hp
  rintro ⟨n, h, h0, -⟩
  have h : some (realTrunc ((⌊((poseAfter (⟨1, 0, 0⟩ : V3 ℝ) 0.1 ⟨-5, 1, 0⟩ 1).c0 - 0) / 1⌋ : ℤ) : ℝ)) = some n := h
  rw [Option.some.injEq] at h
  have hf : ⌊((poseAfter (⟨1, 0, 0⟩ : V3 ℝ) 0.1 ⟨-5, 1, 0⟩ 1).c0 - 0) / 1⌋ < 0 := by
    rw [Int.floor_lt]
    push_cast
    norm_num
    linarith
  unfold realTrunc at h
  split at h
  · rename_i hc
    have : (0:ℤ) ≤ ⌊((poseAfter (⟨1, 0, 0⟩ : V3 ℝ) 0.1 ⟨-5, 1, 0⟩ 1).c0 - 0) / 1⌋ := by exact_mod_cast hc
    omega
  · rw [Int.ceil_intCast] at h
    omega

end Ergodic
