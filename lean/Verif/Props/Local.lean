import Verif.Spec.Local
import Verif.Props.Occupied
import Verif.Props.Running

/-!
# Property C112: far-away obstacles do not matter
-/

namespace Ergodic

section
variable {F : Type} [Flt F]

theorem scan_congr {occ occ' : Int → Int → Bool} (l : List (Int × Int)) : ∀ cfg : CollisionConfig,
    (∀ q ∈ l, occ' (cfg.cy + q.2) (cfg.cx + q.1) = occ (cfg.cy + q.2) (cfg.cx + q.1)) →
    scan occ' l cfg = scan occ l cfg := by
  induction l with
  | nil => intro cfg _; rfl
  | cons p t ih =>
    intro cfg h
    rw [scan, scan, h p List.mem_cons_self]
    have hn := note_same cfg p.1 p.2
    obtain ⟨-, -, -, hx, hy⟩ := hn
    rw [ih cfg fun q hq => h q (List.mem_cons_of_mem _ hq), ih (note cfg p.1 p.2) fun q hq => by
      rw [hx, hy]; exact h q (List.mem_cons_of_mem _ hq)]

theorem visited_same {a b : CollisionConfig} (h : SameSearch a b) {dx dy : Int} :
    Visited a dx dy ↔ Visited b dx dy := by
  obtain ⟨h1, -, h3, -, -⟩ := h
  unfold Visited
  rw [h1, h3]

theorem search_local (c : Collision F) {g g' : GridMap F} (hw : WellFormed g) (hw' : WellFormed g')
    (hx : g'.xsize = g.xsize) (hy : g'.ysize = g.ysize) (cfg : CollisionConfig) (hr : InRange g cfg)
    (h : ∀ dx dy, Visited cfg dx dy → (Occupied c.occupied_threshold g' (cfg.cy + dy) (cfg.cx + dx) ↔
      Occupied c.occupied_threshold g (cfg.cy + dy) (cfg.cx + dx))) : c.search g' cfg = c.search g cfg := by
  have hr' : InRange g' cfg := by
    obtain ⟨a1, a2, a3, a4, a5, a6, a7, a8, a9⟩ := hr
    exact ⟨a1, a2, a3, a4, by rw [hx]; exact a5, by rw [hy]; exact a6, by rw [hx]; exact a7, by rw [hy]; exact a8, a9⟩
  rw [search_eq c g' hw' cfg hr', search_eq c g hw cfg hr]
  refine congrArg Res.ok (scan_congr _ cfg ?_)
  rintro ⟨dx, dy⟩ hq
  unfold occB
  rw [decide_eq_decide]
  exact h dx dy (mem_sweep_cfg.mp hq)

/-- C112: the collision queries see only the cells on the circles from the boundary to the search
radius around the robot cell. -/
theorem C112_queries (c : Collision F) {g g' : GridMap F} (hw : WellFormed g) (hw' : WellFormed g')
    (hg : g' = { g with data := g'.data }) (pose : V3 F) (cfg : CollisionConfig) (hcfg : c.config g pose = .ok cfg)
    (hr : InRange g cfg)
    (h : ∀ dx dy, Visited cfg dx dy → (Occupied c.occupied_threshold g' (cfg.cy + dy) (cfg.cx + dx) ↔
      Occupied c.occupied_threshold g (cfg.cy + dy) (cfg.cx + dx))) :
    c.collisionCheck g' pose = c.collisionCheck g pose ∧ c.minDistance g' pose = c.minDistance g pose ∧
    c.minDirection g' pose = c.minDirection g pose := by
  have hx : g'.xsize = g.xsize := by rw [hg]
  have hy : g'.ysize = g.ysize := by rw [hg]
  have hres : g'.resolution = g.resolution := by rw [hg]
  have hc' : c.config g' pose = .ok cfg := by rw [← hcfg, hg]; rfl
  have hs : ∀ cfg', SameSearch cfg' cfg → c.search g' cfg' = c.search g cfg' := by
    intro cfg' hsame
    refine search_local c hw hw' hx hy cfg' (hr.same hsame) fun dx dy hv => ?_
    rw [visited_same hsame] at hv
    obtain ⟨-, -, -, e4, e5⟩ := hsame
    rw [e4, e5]
    exact h dx dy hv
  have h1 := search_eq c g hw cfg hr
  have h2 := scan_same (occB c.occupied_threshold g) (sweep (cfg.r_max - cfg.r_bnd + 1).toNat cfg.r_bnd) cfg
  refine ⟨?_, ?_, ?_⟩
  · simp only [Collision.collisionCheck, hcfg, hc', Res.ok_bind, hs cfg (.refl _)]
  · simp only [Collision.minDistance, hcfg, hc', Res.ok_bind, hs cfg (.refl _), hres]
  · simp only [Collision.minDirection, hcfg, hc', Res.ok_bind, hs cfg (.refl _), hres]
    rw [h1]
    simp only [Res.ok_bind, hs _ h2]

end

/-! ## Exact arithmetic -/

/-- The robot cell of a point that is not below the map: its centre is within one and a half cells. -/
theorem config_near (c : Collision ℝ) (g : GridMap ℝ) (hs : Sensible c g) (pose : V3 ℝ)
    (hp : NotBelow g pose.c0 pose.c1) :
    ∃ cfg, c.config g pose = .ok cfg ∧ InRange g cfg ∧ cfg.r_max = ⌊c.search_radius / g.resolution⌋ ∧
      |g.xmin + (cfg.cx + 1 / 2) * g.resolution - pose.c0| ≤ 3 / 2 * g.resolution ∧
      |g.ymin + (cfg.cy + 1 / 2) * g.resolution - pose.c1| ≤ 3 / 2 * g.resolution := by
  obtain ⟨hx0, hx1, hy0, hy1⟩ := hp
  have hr := hs.res
  have hxp := uint32_pos_iff.mp hs.x0
  have hyp := uint32_pos_iff.mp hs.y0
  obtain ⟨n, hn0, hn1⟩ := exists_strip hr hx0
  obtain ⟨m, hm0, hm1⟩ := exists_strip hr hy0
  have hn : n < 2 ^ 30 + 1 := by
    have := nat_lt_of_strip (b := 2 ^ 30 + 1) hr hn0 (by linarith)
    exact_mod_cast this
  have hm : m < 2 ^ 30 + 1 := by
    have := nat_lt_of_strip (b := 2 ^ 30 + 1) hr hm0 (by linarith)
    exact_mod_cast this
  have en := ofNat_toNat (show n < 2 ^ 32 by omega)
  have em := ofNat_toNat (show m < 2 ^ 32 by omega)
  have cx := strip_cast hr (by omega) hn0 hn1
  have cy := strip_cast hr (by omega) hm0 hm1
  have hw : g.world2Grid pose.c0 pose.c1 = .ok (
      if UInt32.ofNat m = g.ysize then UInt32.ofNat m - 1 else UInt32.ofNat m,
      if UInt32.ofNat n = g.xsize then UInt32.ofNat n - 1 else UInt32.ofNat n) := by
    simp only [GridMap.world2Grid, real_sub, real_div, cx, cy, Res.ok_bind]
  have fold : ∀ (k : Nat) (s : UInt32), 0 < s.toNat → k < 2 ^ 30 + 1 →
      ∃ e : Nat, e ≤ 1 ∧ (if UInt32.ofNat k = s then UInt32.ofNat k - 1 else UInt32.ofNat k).toNat + e = k := by
    intro k s hs0 hk
    have ek := ofNat_toNat (show k < 2 ^ 32 by omega)
    split
    · rename_i h
      have hpos : 0 < (UInt32.ofNat k).toNat := by rw [h]; exact hs0
      rw [UInt32.toNat_sub_of_le _ _ (by rw [UInt32.le_iff_toNat_le]; exact hpos)]
      refine ⟨1, le_rfl, ?_⟩
      rw [ek] at hpos ⊢
      have : (1 : UInt32).toNat = 1 := rfl
      omega
    · exact ⟨0, by omega, by rw [ek]; rfl⟩
  have bound : ∀ (lo x : ℝ) (k j e : Nat), lo + k * g.resolution ≤ x → x < lo + (k + 1) * g.resolution →
      e ≤ 1 → j + e = k → |lo + ((j : ℝ) + 1 / 2) * g.resolution - x| ≤ 3 / 2 * g.resolution := by
    intro lo x k j e h0 h1 he hj
    have : (k : ℝ) = j + e := by exact_mod_cast hj.symm
    have he' : (e : ℝ) ≤ 1 := by exact_mod_cast he
    have he0 : (0 : ℝ) ≤ e := Nat.cast_nonneg _
    rw [this] at h0 h1
    rw [abs_le]
    constructor <;> nlinarith [mul_nonneg he0 hr.le, mul_le_mul_of_nonneg_right he' hr.le]
  obtain ⟨e1, he1, h1⟩ := fold m g.ysize hyp hm
  obtain ⟨e2, he2, h2⟩ := fold n g.xsize hxp hn
  obtain ⟨a, b⟩ := config_of_cell c g hs pose _ _ hw (by omega) (by omega)
  refine ⟨_, a, b, rfl, ?_, ?_⟩
  · have := bound g.xmin pose.c0 n _ e2 hn0 hn1 he2 h2
    dsimp only
    exact_mod_cast this
  · have := bound g.ymin pose.c1 m _ e1 hm0 hm1 he1 h1
    dsimp only
    exact_mod_cast this

theorem visited_bound {cfg : CollisionConfig} {dx dy : Int} (h : Visited cfg dx dy) :
    |dx| ≤ cfg.r_max ∧ |dy| ≤ cfg.r_max := by
  obtain ⟨r, h1, -, h3, ho⟩ := h
  obtain ⟨-, h⟩ := ho.dist (by omega)
  have hx : |dx| ≤ r := by
    by_contra hc
    have h2 : r + 1 ≤ |dx| := by omega
    have h4 : (r + 1) * (r + 1) ≤ dx * dx := by
      rw [← abs_mul_abs_self dx]
      exact mul_le_mul h2 h2 (by omega) (abs_nonneg _)
    nlinarith [mul_self_nonneg dy]
  have hy : |dy| ≤ r := by
    by_contra hc
    have h2 : r + 1 ≤ |dy| := by omega
    have h4 : (r + 1) * (r + 1) ≤ dy * dy := by
      rw [← abs_mul_abs_self dy]
      exact mul_le_mul h2 h2 (by omega) (abs_nonneg _)
    nlinarith [mul_self_nonneg dx]
  omega

/-- C112: in exact arithmetic, the queries see only cells within the search radius and one and a half
cells of the pose. -/
theorem C112_queries_near (c : Collision ℝ) {m m' : OccupancyGrid ℝ} (hs : Sensible c (mapOf m)) {x : V3 ℝ}
    {R : ℝ} (h : SameNear c.occupied_threshold m m' x R) {pose : V3 ℝ} {D : ℝ}
    (hp : NotBelow (mapOf m) pose.c0 pose.c1) (hd : planar pose x ≤ D)
    (hR : D + c.search_radius + 3 / 2 * m.resolution ≤ R) :
    c.collisionCheck (mapOf m') pose = c.collisionCheck (mapOf m) pose ∧
    c.minDistance (mapOf m') pose = c.minDistance (mapOf m) pose ∧
    c.minDirection (mapOf m') pose = c.minDirection (mapOf m) pose := by
  obtain ⟨cfg, hcfg, hin, hrm, hcx, hcy⟩ := config_near c _ hs pose hp
  obtain ⟨geometry, size, cells⟩ := h
  have hg : mapOf m' = { mapOf m with data := (mapOf m').data } := by
    rw [geometry]
    rfl
  have hwf' : WellFormed (mapOf m') := by
    obtain ⟨h1, h2⟩ := hs.wf
    rw [hg]
    exact ⟨h1, size.trans h2⟩
  refine C112_queries c hs.wf hwf' hg pose cfg hcfg hin ?_
  intro dx dy hv
  obtain ⟨b1, b2⟩ := visited_bound hv
  have hres := hs.res
  obtain ⟨ha, hb⟩ := planar_le hd
  have hrad : (cfg.r_max : ℝ) * m.resolution ≤ c.search_radius := by
    rw [hrm]
    exact floor_mul_le hres
  have key : ∀ (lo p q : ℝ) (k e : Int), |lo + ((k : ℝ) + 1 / 2) * m.resolution - p| ≤ 3 / 2 * m.resolution →
      |p - q| ≤ D → |e| ≤ cfg.r_max → |lo + ((k + e : Int) + 1 / 2) * m.resolution - q| ≤ R := by
    intro lo p q k e h1 h2 h3
    have h4 : |(e : ℝ)| * m.resolution ≤ c.search_radius := by
      refine le_trans (mul_le_mul_of_nonneg_right ?_ hres.le) hrad
      exact_mod_cast h3
    have e1 : lo + ((k + e : Int) + 1 / 2) * m.resolution - q =
        (lo + ((k : ℝ) + 1 / 2) * m.resolution - p) + (p - q) + e * m.resolution := by
      push_cast
      ring
    rw [e1]
    have h5 : |(e : ℝ) * m.resolution| = |(e : ℝ)| * m.resolution := by
      rw [abs_mul, abs_of_pos (show 0 < m.resolution from hres)]
    have h6 := abs_add_three (lo + ((k : ℝ) + 1 / 2) * m.resolution - p) (p - q) (e * m.resolution)
    linarith
  by_cases hneg : 0 ≤ cfg.cy + dy ∧ 0 ≤ cfg.cx + dx
  · obtain ⟨i, hi⟩ := Int.eq_ofNat_of_zero_le hneg.1
    obtain ⟨j, hj⟩ := Int.eq_ofNat_of_zero_le hneg.2
    have k1 := key _ _ _ _ _ hcx ha b1
    have k2 := key _ _ _ _ _ hcy hb b2
    rw [hj] at k1
    rw [hi] at k2
    rw [hi, hj]
    exact cells i j (by exact_mod_cast k1) (by exact_mod_cast k2)
  · have hno : ∀ g : GridMap ℝ, ¬ Occupied c.occupied_threshold g (cfg.cy + dy) (cfg.cx + dx) := by
      rintro g ⟨h1, -, h2, -⟩
      exact hneg ⟨h1, h2⟩
    exact ⟨fun h => absurd h (hno _), fun h => absurd h (hno _)⟩

/-! ## Validation and dynamic window -/

theorem bind_local {α β : Type} {a : Res α} {f g : α → Res β} (h : ∀ x, a = .ok x → f x = g x) :
    (a >>= f) = (a >>= g) := by
  cases a with
  | ok x => exact h x rfl
  | throw e => rfl
  | ub => rfl
  | timeout => rfl

section
variable {F : Type} [Flt F]

theorem validate_local {c : Collision F} {g g' : GridMap F} {u : V3 F} {dt : F} : ∀ (n : Nat) (x : V3 F),
    (∀ k < n, c.collisionCheck g' (poseAfter u dt x (k + 1)) = c.collisionCheck g (poseAfter u dt x (k + 1))) →
    validateLoop c g' u dt n x = validateLoop c g u dt n x := by
  intro n
  induction n with
  | zero => intro x _; rfl
  | succ n ih =>
    intro x h
    have h0 : c.collisionCheck g' (stepPose u dt x) = c.collisionCheck g (stepPose u dt x) := h 0 (by omega)
    have h1 := ih (stepPose u dt x) fun k hk => h (k + 1) (by omega)
    have e : ∀ g, validateLoop c g u dt (n + 1) x = (c.collisionCheck g (stepPose u dt x) >>= fun hit =>
          if hit then .ok false else validateLoop c g u dt n (stepPose u dt x)) := fun _ => rfl
    rw [e, e, h0, h1]

theorem rollout_local {d : DynamicWindow F} {g g' : GridMap F} {u : V3 F} : ∀ (n : Nat) (x : V3 F),
    (∀ k < n, d.collision.collisionCheck g' (poseAfter u d.dt x (k + 1)) =
      d.collision.collisionCheck g (poseAfter u d.dt x (k + 1))) →
    d.rollout g' u n x = d.rollout g u n x := by
  intro n
  induction n with
  | zero => intro x _; rfl
  | succ n ih =>
    intro x h
    have h0 : d.collision.collisionCheck g' (stepPose u d.dt x) = d.collision.collisionCheck g (stepPose u d.dt x) :=
      h 0 (by omega)
    have h1 := ih (stepPose u d.dt x) fun k hk => h (k + 1) (by omega)
    unfold stepPose at h0 h1
    rw [DynamicWindow.rollout, DynamicWindow.rollout]
    simp only [h0, h1]

theorem trajLoop_local {d : DynamicWindow F} {g g' : GridMap F} {u : V3 F} {ref : List (V3 F)} {tf : F} :
    ∀ (n : Nat) (x : V3 F) (t cost : F),
    (∀ k < n, d.collision.collisionCheck g' (poseAfter u d.dt x (k + 1)) =
      d.collision.collisionCheck g (poseAfter u d.dt x (k + 1))) →
    d.trajLoop g' u ref tf n x t cost = d.trajLoop g u ref tf n x t cost := by
  intro n
  induction n with
  | zero => intro x _ _ _; rfl
  | succ n ih =>
    intro x t cost h
    have h0 : d.collision.collisionCheck g' (stepPose u d.dt x) = d.collision.collisionCheck g (stepPose u d.dt x) :=
      h 0 (by omega)
    have h1 := fun t cost => ih (stepPose u d.dt x) t cost fun k hk => h (k + 1) (by omega)
    unfold stepPose at h0 h1
    rw [DynamicWindow.trajLoop, DynamicWindow.trajLoop]
    simp only [h0, h1]

theorem search_local_window (d : DynamicWindow F) (vb : V3 F) {c1 c2 : V3 F → Res F}
    (h : ∀ v, IsSample d vb v → c1 v = c2 v) : d.searchWindow vb c1 = d.searchWindow vb c2 := by
  rw [searchWindow_eq, searchWindow_eq, foldlM_consider_congr _ fun v hv => h v ((mem_visited d vb v).mp hv)]

end

/-- C112: the validation of a twist sees only the neighbourhood of the poses it simulates. -/
theorem C112_validate (c : Collision ℝ) {m m' : OccupancyGrid ℝ} (hs : Sensible c (mapOf m)) {x u : V3 ℝ}
    {dt horizon D R : ℝ} (hdt : 0 < dt) (hh : 0 ≤ horizon) (hD : speed u * horizon ≤ D)
    (hroom : Room (mapOf m) x D) (hR : D + c.search_radius + 3 / 2 * m.resolution ≤ R)
    (h : SameNear c.occupied_threshold m m' x R) :
    validateControl c (mapOf m') x u dt horizon = validateControl c (mapOf m) x u dt horizon := by
  unfold validateControl
  refine bind_local fun n hn => ?_
  refine validate_local _ _ fun k hk => ?_
  have h1 := (C76_validation u dt horizon hdt hh x n hn (k + 1) hk).trans hD
  exact (C112_queries_near c hs h (room_notBelow hroom h1) h1 hR).1

/-- C112: and so do the two searches of the dynamic window. -/
theorem C112_window (d : DynamicWindow ℝ) {m m' : OccupancyGrid ℝ} (hs : Sensible d.collision (mapOf m))
    {x vb : V3 ℝ} {D R : ℝ} (hsteps : numSteps d.horizon d.dt = .ok d.steps) (hdt : 0 < d.dt) (hh : 0 ≤ d.horizon)
    (hD : ∀ v, IsSample d vb v → speed v * d.horizon ≤ D) (hroom : Room (mapOf m) x D)
    (hR : D + d.collision.search_radius + 3 / 2 * m.resolution ≤ R)
    (h : SameNear d.collision.occupied_threshold m m' x R) (vref : V3 ℝ) (ref : List (V3 ℝ)) (dt_ref : ℝ) :
    d.controlTwist (mapOf m') x vb vref = d.controlTwist (mapOf m) x vb vref ∧
    d.controlTraj (mapOf m') x vb ref dt_ref = d.controlTraj (mapOf m) x vb ref dt_ref := by
  have key : ∀ v, IsSample d vb v → ∀ k < d.steps.toNat, d.collision.collisionCheck (mapOf m') (poseAfter v d.dt x (k + 1)) =
      d.collision.collisionCheck (mapOf m) (poseAfter v d.dt x (k + 1)) := by
    intro v hv k hk
    have h1 := (C76_validation v d.dt d.horizon hdt hh x d.steps hsteps (k + 1) hk).trans (hD v hv)
    exact (C112_queries_near d.collision hs h (room_notBelow hroom h1) h1 hR).1
  constructor
  · refine search_local_window d vb fun v hv => ?_
    unfold DynamicWindow.objectiveTwist
    rw [rollout_local _ _ (key v hv)]
  · refine search_local_window d vb fun v hv => ?_
    unfold DynamicWindow.objectiveTraj
    rw [trajLoop_local _ _ _ _ (key v hv)]

/-! ## One iteration -/

section
variable {F : Type} [Flt F]

/-- states that differ in the map only, with the same output -/
def ButGrid (g' : GridMap F) (r r' : Expl F × List (Out F)) : Prop := r'.1 = { r.1 with grid := g' } ∧ r'.2 = r.2

theorem avoid_local (s : Expl F) (g' : GridMap F)
    (h1 : validateControl s.collision g' s.pose s.u s.val_dt s.val_horizon =
      validateControl s.collision s.grid s.pose s.u s.val_dt s.val_horizon)
    (h2 : ∀ vref ref dt, s.dwa.controlTwist g' s.pose s.vb vref = s.dwa.controlTwist s.grid s.pose s.vb vref ∧
      s.dwa.controlTraj g' s.pose s.vb ref dt = s.dwa.controlTraj s.grid s.pose s.vb ref dt) :
    SameOutcome (ButGrid g') s.avoid (Expl.avoid { s with grid := g' }) := by
  unfold Expl.avoid
  dsimp only
  rw [h1]
  refine SameOutcome.bind (.of_eq rfl) ?_
  rintro _ valid rfl
  split
  · exact .ok ⟨rfl, rfl⟩
  · split
    · rw [(h2 s.u [] s.val_dt).1]
      refine SameOutcome.bind (.of_eq rfl) ?_
      rintro _ r rfl
      exact .ok ⟨rfl, rfl⟩
    · refine SameOutcome.bind (.of_eq rfl) ?_
      rintro _ xt rfl
      rw [(h2 s.u xt s.ec.timeStep).2]
      refine SameOutcome.bind (.of_eq rfl) ?_
      rintro _ r rfl
      split
      · refine SameOutcome.bind (.of_eq rfl) ?_
        rintro _ p rfl
        exact .ok ⟨rfl, rfl⟩
      · exact .ok ⟨rfl, rfl⟩

theorem replan_local (s : Expl F) (g' : GridMap F) (hg : g' = { s.grid with data := g'.data }) (draws : List Nat) :
    SameOutcome (ButGrid g') (s.replan draws) (Expl.replan { s with grid := g' } draws) := by
  unfold Expl.replan
  dsimp only
  split
  · exact .ok ⟨rfl, rfl⟩
  · rw [C111_control s.ec (g := s.grid) (g' := g') (by rw [hg]; exact ⟨rfl, rfl, rfl, rfl⟩)]
    refine SameOutcome.bind (.of_eq rfl) ?_
    rintro _ ⟨ec, u⟩ rfl
    refine SameOutcome.bind (.of_eq rfl) ?_
    rintro _ p rfl
    exact .ok ⟨rfl, rfl⟩

theorem SameOutcome.ok_of {α β : Type} {R : α → β → Prop} {a : Res α} {b : Res β} (h : SameOutcome R a b) {x : α}
    (ha : a = .ok x) : ∃ y, b = .ok y ∧ R x y := by
  subst ha
  cases h with
  | ok h => exact ⟨_, rfl, h⟩

end

section
variable {model : TwistModel ℝ} {collision : Collision ℝ} {dt horizon resolution weight : ℝ}
  {num_basis buffer_size batch_size : Nat} {Rinv : M3 ℝ} {umin umax : V3 ℝ}

theorem sameButMaps_odoms {es es' : List (Event ℝ)} (h : List.Forall₂ SameButMaps es es') : odoms es' = odoms es := by
  induction h with
  | nil => rfl
  | cons h _ ih =>
    cases h with
    | map m m' => exact ih
    | odom v => exact congrArg (v :: ·) ih
    | tick tf draws => exact ih

theorem sameButMaps_maps {es es' : List (Event ℝ)} (h : List.Forall₂ SameButMaps es es') :
    (maps es').length = (maps es).length := by
  induction h with
  | nil => rfl
  | cons h _ ih =>
    cases h with
    | map m m' => exact congrArg (· + 1) ih
    | odom v => exact ih
    | tick tf draws => exact ih

theorem sameButMaps_snoc {es es' : List (Event ℝ)} {e : Event ℝ} (h : List.Forall₂ SameButMaps (es ++ [e]) es') :
    ∃ a b, es' = a ++ [b] ∧ List.Forall₂ SameButMaps es a ∧ SameButMaps e b := by
  obtain ⟨h1, h2⟩ := List.forall₂_iff_zip.mp h
  have hl := h.length_eq
  rcases List.eq_nil_or_concat es' with rfl | ⟨a, b, rfl⟩
  · simp at hl
  · simp only [List.concat_eq_append, List.length_append, List.length_singleton, Nat.add_right_cancel_iff] at hl h ⊢
    refine ⟨a, b, rfl, ?_, ?_⟩
    · have := List.forall₂_take es.length h
      rwa [List.take_left, List.take_left' hl.symm] at this
    · have := List.forall₂_drop es.length h
      rw [List.drop_left, List.drop_left' hl.symm] at this
      cases this with
      | cons h _ => exact h

theorem SameNearby.snoc {thr R : ℝ} {es es' : List (Event ℝ)} {e e' : Event ℝ}
    (h : SameNearby thr R (es ++ [e]) (es' ++ [e'])) (hl : List.Forall₂ SameButMaps es es') : SameNearby thr R es es' :=
  ⟨hl, fun pre pre' tf draws post post' m m' x h1 h2 => h.near pre pre' tf draws (post ++ [e]) (post' ++ [e']) m m' x
    (by rw [h1]; simp) (by rw [h2]; simp)⟩

/-- A history and one whose maps agree with it near the robot have traces with the same outputs. -/
theorem C112_trace {ec : ErgodicControl ℝ} (hec : ErgodicControl.new model collision dt horizon resolution weight
      num_basis buffer_size batch_size Rinv umin umax = .ok ec)
    {dwa : DynamicWindow ℝ} (hcoll : dwa.collision = collision)
    (hsteps : numSteps dwa.horizon dwa.dt = .ok dwa.steps) (hddt : 0 < dwa.dt) (hdh : 0 ≤ dwa.horizon)
    {val_dt val_horizon : ℝ} (hvdt : 0 < val_dt) (hvh : 0 ≤ val_horizon)
    (target : Target ℝ) (frame : String) {vmax D : ℝ} (hz : 0 ≤ vmax)
    (hbox : ∀ u : V3 ℝ, (umin.c0 ≤ u.c0 ∧ u.c0 ≤ umax.c0) → (umin.c1 ≤ u.c1 ∧ u.c1 ≤ umax.c1) →
      speed u ≤ vmax) (hDv : vmax * val_horizon ≤ D) (hDd : vmax * dwa.horizon ≤ D)
    (es : List (Event ℝ)) : ∀ (es' : List (Event ℝ)) (_ : ∀ m ∈ maps es, Sensible collision (mapOf m))
    (_ : ∀ vb, vb = V3.zero ∨ vb ∈ odoms es → ∀ u, IsSample dwa vb u → speed u ≤ vmax)
    (_ : AlwaysRoom D es)
    (_ : SameNearby collision.occupied_threshold (D + collision.search_radius) es es')
    (os : List (List (Out ℝ))) (s : Expl ℝ)
    (_ : Trace (Expl.start ec collision dwa target frame val_dt val_horizon).1 es os s),
    ∃ g', Trace (Expl.start ec collision dwa target frame val_dt val_horizon).1 es' os { s with grid := g' } := by
  induction es using List.reverseRecOn with
  | nil =>
    rintro es' - - - hnear os s ht
    cases hnear.events
    exact ⟨s.grid, ht⟩
  | append_singleton es e ih =>
    intro es0 hsens hsamp hroom hnear os s ht
    obtain ⟨es', e', rfl, hes, he⟩ := sameButMaps_snoc hnear.events
    generalize hl : es ++ [e] = l at ht
    cases ht with
    | nil => simp at hl
    | @snoc s0 s es2 os e2 o ht hstep =>
      obtain ⟨rfl, h2⟩ := List.append_inj' hl rfl
      simp only [List.cons.injEq, and_true] at h2
      subst h2
      clear hl
      have hsamp' : ∀ vb, vb = V3.zero ∨ vb ∈ odoms es → ∀ u, IsSample dwa vb u → speed u ≤ vmax :=
        fun vb hvb => hsamp vb (by
          rcases hvb with h | h
          · exact Or.inl h
          · right; simp only [odoms, List.filterMap_append, List.mem_append] at h ⊢; exact Or.inl h)
      obtain ⟨g', ht'⟩ := ih es'
        (fun m hm => hsens m (by simp only [maps, List.filterMap_append, List.mem_append] at hm ⊢; exact Or.inl hm))
        hsamp' (fun pre tf draws post m x h => hroom pre tf draws (post ++ [e]) m x (by rw [h]; simp))
        (hnear.snoc hes) os s0 ht
      suffices h : ∃ g'', Expl.step { s0 with grid := g' } e' = .ok ({ s with grid := g'' }, o) by
        obtain ⟨g'', h⟩ := h
        exact ⟨g'', .snoc ht' h⟩
      cases he with
      | map m m' =>
        cases hstep
        exact ⟨_, rfl⟩
      | odom v =>
        cases hstep
        exact ⟨g', rfl⟩
      | tick tf draws =>
        have hi1 := ht.inv.localize tf draws
        have hi := hi1.advance
        have hi1' := ht'.inv
        have hpub := published_in (fun u => speed u ≤ vmax) (by simpa [speed, V3.zero] using hz)
          (fun e e' g x u draws hre hc => by
            obtain ⟨a, b, -⟩ := ec_in_box hec hre hc
            exact hbox u a b) hsamp' ht
        refine ⟨g', ?_⟩
        change s0.iteration tf draws = .ok (s, o) at hstep
        change Expl.iteration { s0 with grid := g' } tf draws = .ok ({ s with grid := g' }, o)
        have eloc : Expl.localize { s0 with grid := g' } tf = { s0.localize tf with grid := g' } := by
          cases tf <;> rfl
        unfold Expl.iteration at hstep ⊢
        rw [eloc]
        dsimp only at hstep ⊢
        by_cases hact : ((s0.localize tf).map_received && (s0.localize tf).pose_known) = true
        · rw [if_pos hact] at hstep ⊢
          rw [Bool.and_eq_true] at hact
          have hmaps : maps (es ++ [Event.tick tf draws]) = maps es := by simp [maps, Event.map?]
          have hmap : ∃ m, (maps es).getLast? = some m := by
            have := hi1.map_received_eq
            rw [hact.1, hmaps] at this
            cases hl : (maps es).getLast? with
            | none => rw [List.getLast?_eq_none_iff] at hl; rw [hl] at this; simp at this
            | some m => exact ⟨m, rfl⟩
          have hpose : ∃ x, (poses (es ++ [Event.tick tf draws])).getLast? = some x := by
            have := hi1.pose_known_eq
            rw [hact.2] at this
            cases hl : (poses (es ++ [Event.tick tf draws])).getLast? with
            | none => rw [List.getLast?_eq_none_iff] at hl; rw [hl] at this; simp at this
            | some m => exact ⟨m, rfl⟩
          obtain ⟨m, hm'⟩ := hmap
          obtain ⟨x, hx⟩ := hpose
          have hmap' : ∃ m', (maps es').getLast? = some m' := by
            have hlen := sameButMaps_maps hes
            cases hl : (maps es').getLast? with
            | none =>
              rw [List.getLast?_eq_none_iff] at hl
              rw [hl] at hlen
              have h0 : maps es = [] := List.length_eq_zero_iff.mp hlen.symm
              rw [h0] at hm'
              cases hm'
            | some m => exact ⟨m, rfl⟩
          obtain ⟨m2, hm2⟩ := hmap'
          have hsen : Sensible collision (mapOf m) := hsens m (by rw [hmaps]; exact List.mem_of_getLast? hm')
          have hroom' := hroom es tf draws [] m x rfl hm' hx
          have hnr := hnear.near es es' tf draws [] [] m m2 x rfl rfl hes.length_eq hm' hm2 hx
          have hg' : g' = mapOf m2 := hi1'.grid_eq m2 hm2
          have hgeo : mapOf m2 = { mapOf m with data := (mapOf m2).data } := by
            rw [hnr.geometry]
            rfl
          have eadv : Expl.advanceDwa { s0.localize tf with grid := g' } = { (s0.localize tf).advanceDwa with grid := g' } := by
            unfold Expl.advanceDwa
            dsimp only
            split <;> rfl
          rw [eadv]
          have hu0 : speed (s0.localize tf).advanceDwa.u ≤ vmax := by
            obtain ⟨i, f, e⟩ := (s0.localize tf).advanceDwa_frame
            rw [e]
            obtain ⟨-, -, -, -, -, -, -, -, f9, -, -⟩ := s0.localize_frame tf
            show speed (s0.localize tf).u ≤ vmax
            rw [f9]; exact hpub.1
          generalize (s0.localize tf).advanceDwa = a at hstep hi hu0 ⊢
          have hgrid : a.grid = mapOf m := hi.grid_eq m (by rw [hmaps]; exact hm')
          obtain ⟨⟨r, o1⟩, hr, hstep⟩ := Res.bind_eq_ok.mp hstep
          obtain ⟨⟨t, o2⟩, hav, hstep⟩ := Res.bind_eq_ok.mp hstep
          have hir := hi.replan hr
          have hru : speed r.u ≤ vmax := by
            rcases Expl.replan_ok hr with ⟨-, rfl, -⟩ | ⟨-, ec', u, p, hc', -, rfl, -⟩
            · exact hu0
            · obtain ⟨p, q, -⟩ := ec_in_box hec hi.ec_reach hc'
              exact hbox u p q
          have hvb : r.vb = V3.zero ∨ r.vb ∈ odoms (es ++ [Event.tick tf draws]) := by
            rw [hir.vb_eq]
            unfold lastOdom
            cases hl : (odoms (es ++ [Event.tick tf draws])).getLast? with
            | none => exact Or.inl rfl
            | some v => exact Or.inr (List.mem_of_getLast? hl)
          have hgr : r.grid = mapOf m := hir.grid_eq m (by rw [hmaps]; exact hm')
          have hpr : r.pose = x := hir.pose_eq x hx
          obtain ⟨⟨r', o1'⟩, hr', hrr, rfl⟩ := (replan_local a g' (by rw [hg', hgrid]; exact hgeo) draws).ok_of hr
          dsimp only at hrr
          subst hrr
          have hval : validateControl r.collision g' r.pose r.u r.val_dt r.val_horizon =
              validateControl r.collision r.grid r.pose r.u r.val_dt r.val_horizon := by
            rw [hir.collision_eq, hir.val_dt_eq, hir.val_horizon_eq, hgr, hpr, hg']
            exact C112_validate collision hsen hvdt hvh ((mul_le_mul_of_nonneg_right hru hvh).trans hDv) hroom' le_rfl hnr
          have hwin : ∀ vref ref dt, r.dwa.controlTwist g' r.pose r.vb vref = r.dwa.controlTwist r.grid r.pose r.vb vref ∧
              r.dwa.controlTraj g' r.pose r.vb ref dt = r.dwa.controlTraj r.grid r.pose r.vb ref dt := by
            intro vref ref dt
            rw [hir.dwa_eq, hgr, hpr, hg']
            subst hcoll
            exact C112_window dwa hsen hsteps hddt hdh
              (fun v hv => (mul_le_mul_of_nonneg_right (hsamp r.vb hvb v hv) hdh).trans hDd) hroom' le_rfl hnr vref ref dt
          obtain ⟨⟨t', o2'⟩, hav', htt, rfl⟩ := (avoid_local r g' hval hwin).ok_of hav
          dsimp only at htt
          subst htt
          rw [hr', Res.ok_bind]
          dsimp only
          rw [hav', Res.ok_bind]
          cases hstep
          rfl
        · rw [if_neg hact] at hstep ⊢
          cases hstep
          rfl

end

/-! ## The two executables -/

theorem node_local {n : Node ℝ} {s0 : Expl ℝ} (hs : n.expl = s0) {es es' : List (Event ℝ)}
    (h : ∀ os s, Trace s0 es os s → ∃ g', Trace s0 es' os { s with grid := g' })
    {n1 : Node ℝ} {out : List (Out ℝ)} (hr : n.run es = .ok (n1, out)) : ∃ n2, n.run es' = .ok (n2, out) := by
  subst hs
  cases hu : n.up with
  | true =>
    obtain ⟨os, ht, rfl⟩ := (run_iff_trace _ _ _ _).mp (node_run_up n n1 hu es out hr).1
    obtain ⟨g', ht'⟩ := h os _ ht
    exact ⟨_, node_run_of_expl n hu es' _ _ ((run_iff_trace _ _ _ _).mpr ⟨os, ht', rfl⟩)⟩
  | false =>
    rw [node_run_down n hu es] at hr
    cases hr
    exact ⟨_, node_run_down n hu es'⟩

/-- C112 for the omni-directional robot: at every iteration, obstacles farther from the robot than the
fastest motion over the longer look-ahead horizon, the search radius and one and a half cells may
appear, move or disappear without any effect on what is published. -/
theorem C112_omni (p : Params ℝ) (n : Node ℝ) (o : List (Out ℝ)) (c : Collision ℝ)
    (es es' : List (Event ℝ)) (hp : Sane p)
    (hc : Collision.new p.boundary_radius p.search_radius p.obstacle_threshold p.occupied_threshold = .ok c)
    (hz : RecoverableAll p ⟨0, 0, 0⟩) (ho : ∀ v ∈ odoms es, RecoverableAll p v)
    (hn : Node.omni p = .ok (n, o)) (vmax : ℝ) (hv : ∀ u, WithinParams p u → speed u ≤ vmax)
    (hs : ∀ m ∈ maps es, Sensible c (mapOf m))
    (hr : AlwaysRoom (vmax * max p.val_horizon p.dwa_horizon) es)
    (hnear : SameNearby c.occupied_threshold (vmax * max p.val_horizon p.dwa_horizon + c.search_radius) es es')
    (n1 : Node ℝ) (out : List (Out ℝ)) (hrun : n.run es = .ok (n1, out)) : ∃ n2, n.run es' = .ok (n2, out) := by
  obtain ⟨w0, w1, w2, gs, collision, ec, dwa, ⟨-, -, -, -, hcol⟩, hec, hdwa, hst, -⟩ := omni_parts hn
  rw [hc, Res.ok.injEq] at hcol
  subst hcol
  have hzero : (V3.zero : V3 ℝ) = ⟨0, 0, 0⟩ := by simp [V3.zero]
  have hl : WithinParams p ⟨0, 0, 0⟩ := ⟨⟨hp.min_x, hp.max_x⟩, ⟨hp.min_y, hp.max_y⟩, hp.min_rot, hp.max_rot⟩
  have hvm : 0 ≤ vmax := (speed_nonneg _).trans (hv _ hl)
  simp only [DynamicWindow.new, Res.bind_eq_ok, Res.ok.injEq] at hdwa
  obtain ⟨steps, hsteps, hd⟩ := hdwa
  refine node_local (congrArg Prod.fst hst) ?_ hrun
  refine C112_trace hec (dwa := dwa) (by rw [← hd]) (by rw [← hd]; exact hsteps) (by rw [← hd]; exact hp.dwa_dt)
    (by rw [← hd]; exact hp.dwa_horizon) hp.val_dt hp.val_horizon ⟨gs⟩ p.map_frame_id hvm
    (fun u a b => by
      have := hv ⟨u.c0, u.c1, 0⟩ ⟨a, b, hp.min_rot, hp.max_rot⟩
      exact this)
    (mul_le_mul_of_nonneg_left (le_max_left p.val_horizon p.dwa_horizon) hvm)
    (by rw [← hd]; exact mul_le_mul_of_nonneg_left (le_max_right p.val_horizon p.dwa_horizon) hvm) es es' hs
    (fun vb hvb u hu => ?_) hr hnear
  subst hd
  have hvr : RecoverableAll p vb := by
    rcases hvb with rfl | hvb
    · rw [hzero]; exact hz
    · exact ho vb hvb
  exact hv u (C55_within_partial _ vb u (by obtain ⟨a, b, c⟩ := hvr; exact ⟨a, b, c⟩) hu).1

/-- C112 for the cart. -/
theorem C112_cart (p : Params ℝ) (n : Node ℝ) (o : List (Out ℝ)) (c : Collision ℝ)
    (es es' : List (Event ℝ)) (hp : Sane p)
    (hc : Collision.new p.boundary_radius p.search_radius p.obstacle_threshold p.occupied_threshold = .ok c)
    (hz : RecoverableAll p ⟨0, 0, 0⟩) (lat : ℝ) (hlat : 0 ≤ lat) (ho : ∀ v ∈ odoms es,
      Recoverable v.c0 (p.acc_lim_x * p.acc_dt) p.min_vel_x p.max_vel_x ∧ v.c1 ≤ lat ∧
      Recoverable v.c2 (p.acc_lim_th * p.acc_dt) p.min_rot_vel p.max_rot_vel)
    (hn : Node.cart p = .ok (n, o)) (vmax : ℝ)
    (hv : ∀ u : V3 ℝ, p.min_vel_x ≤ u.c0 → u.c0 ≤ p.max_vel_x → 0 ≤ u.c1 → u.c1 ≤ lat → speed u ≤ vmax)
    (hs : ∀ m ∈ maps es, Sensible c (mapOf m))
    (hr : AlwaysRoom (vmax * max p.val_horizon p.dwa_horizon) es)
    (hnear : SameNearby c.occupied_threshold (vmax * max p.val_horizon p.dwa_horizon + c.search_radius) es es')
    (n1 : Node ℝ) (out : List (Out ℝ)) (hrun : n.run es = .ok (n1, out)) : ∃ n2, n.run es' = .ok (n2, out) := by
  obtain ⟨w0, w1, gs, collision, ec, dwa, ⟨-, -, -, hcol⟩, hec, hdwa, hst, -⟩ := cart_parts hn
  rw [hc, Res.ok.injEq] at hcol
  subst hcol
  have hzero : (V3.zero : V3 ℝ) = ⟨0, 0, 0⟩ := by simp [V3.zero]
  have hvm : 0 ≤ vmax := (speed_nonneg _).trans (hv ⟨0, 0, 0⟩ hp.min_x hp.max_x le_rfl hlat)
  have hl0 : (lit 0 0 : ℝ) = 0 := by simp
  simp only [DynamicWindow.new, Res.bind_eq_ok, Res.ok.injEq] at hdwa
  obtain ⟨steps, hsteps, hd⟩ := hdwa
  refine node_local (congrArg Prod.fst hst) ?_ hrun
  refine C112_trace hec (dwa := dwa) (by rw [← hd]) (by rw [← hd]; exact hsteps) (by rw [← hd]; exact hp.dwa_dt)
    (by rw [← hd]; exact hp.dwa_horizon) hp.val_dt hp.val_horizon ⟨gs⟩ p.map_frame_id hvm
    (fun u a b => by
      rw [hl0] at b
      exact hv u a.1 a.2 b.1 (b.2.trans hlat))
    (mul_le_mul_of_nonneg_left (le_max_left p.val_horizon p.dwa_horizon) hvm)
    (by rw [← hd]; exact mul_le_mul_of_nonneg_left (le_max_right p.val_horizon p.dwa_horizon) hvm) es es' hs
    (fun vb hvb u hu => ?_) hr hnear
  subst hd
  have hvr : Recoverable vb.c0 (p.acc_lim_x * p.acc_dt) p.min_vel_x p.max_vel_x ∧ vb.c1 ≤ lat := by
    rcases hvb with rfl | hvb
    · rw [hzero]; exact ⟨hz.1, hlat⟩
    · exact ⟨(ho vb hvb).1, (ho vb hvb).2.1⟩
  obtain ⟨i, hi, j, hj, k, hk, e0, e1, e2⟩ := (C55_grid _ vb u).mp hu
  have hx := (axis_in_window hvr.1 hi e0).1
  have hj0 : j = 0 := by
    have : (DynamicWindow.atLeastOne 0).toNat = 1 := by decide
    simp only [this] at hj; omega
  subst hj0
  simp only [real_lit] at e1
  norm_num at e1
  exact hv u hx.1 hx.2 (by rw [e1]; exact le_max_right _ _) (by rw [e1]; exact max_le hvr.2 hlat)

/-! ## A case -/

/-- twelve by twelve cells of a metre, the last of which has the value `b` -/
def farMsg (b : Int8) : OccupancyGrid ℝ := ⟨12, 12, 1, 0, 0, List.replicate 143 0 ++ [b]⟩

theorem far_near (b : Int8) : SameNear (4/5) (farMsg 0) (farMsg b) ⟨7/2, 7/2, 0⟩ (9/2) := by
  refine ⟨rfl, rfl, ?_⟩
  intro i j hx hy
  have bnd : ∀ k : Nat, |(0:ℝ) + ((k:ℝ) + 1 / 2) * 1 - 7 / 2| ≤ 9 / 2 → k < 8 := by
    intro k hk
    rw [abs_le] at hk
    have : (k : ℝ) < 8 := by linarith [hk.2]
    exact_mod_cast this
  have hj := bnd j hx
  have hi := bnd i hy
  have hcell : cellAt (mapOf (farMsg b)) i j = cellAt (mapOf (farMsg 0)) i j := by
    show (List.replicate 143 (0 : Int8) ++ [b])[i * 12 + j]? = (List.replicate 143 (0 : Int8) ++ [0])[i * 12 + j]?
    rw [List.getElem?_append_left (by simp; omega), List.getElem?_append_left (by simp; omega)]
  unfold Occupied
  simp only [Int.toNat_natCast, hcell]
  exact Iff.rfl

theorem far_wf (b : Int8) : WellFormed (mapOf (farMsg b)) :=
  ⟨by show (12 : Nat) * 12 < 2 ^ 32; norm_num, by show (List.replicate 143 (0 : Int8) ++ [b]).length = 12 * 12; simp⟩

theorem far_sensible (b : Int8) : Sensible nearDetector (mapOf (farMsg b)) := by
  refine ⟨far_wf b, ?_, ?_, ?_, ?_, ?_, ?_, ?_, ?_, ?_, ?_⟩
  · show (0:ℝ) < 1; norm_num
  · show (12 : UInt32) ≠ 0; decide
  · show (12 : UInt32) ≠ 0; decide
  · show (12 : Nat) ≤ 2 ^ 30; norm_num
  · show (12 : Nat) ≤ 2 ^ 30; norm_num
  · show (0:ℝ) ≤ 0; exact le_rfl
  · show (0:ℝ) ≤ 1; norm_num
  · show (0:ℝ) ≤ 1; norm_num
  · show (1:ℝ) < 32768 * 1; norm_num
  · show (0:ℝ) + 1 < 32768 * 1; norm_num

theorem far_fits (b : Int8) : TargetGridFits (mapOf (farMsg b)) 1 := by
  have hf : ⌊(12:ℝ) + 1 / 2⌋₊ = 12 := by
    rw [Nat.floor_eq_iff (by norm_num)]; constructor <;> norm_num
  have e : ((mapOf (farMsg b)).xmax - (mapOf (farMsg b)).xmin) / 1 + 1 / 2 = (12:ℝ) + 1 / 2 ∧
      ((mapOf (farMsg b)).ymax - (mapOf (farMsg b)).ymin) / 1 + 1 / 2 = (12:ℝ) + 1 / 2 := by
    simp only [mapOf, farMsg, real_mul, real_add, real_ofInt, UInt32.toNat_ofNat]
    norm_num
  unfold TargetGridFits
  rw [e.1, e.2, hf]
  norm_num

/-- a map, a measured velocity and an iteration with the robot at `(3.5, 3.5)` -/
noncomputable def farRun (b : Int8) : List (Event ℝ) :=
  [.map (farMsg b), .odom ⟨1, 0, 1⟩, .tick (some (lowTf (7/2) (7/2))) []]

theorem far_pose (b : Int8) : poses ([.map (farMsg b), .odom ⟨1, 0, 1⟩] ++
    [Event.tick (some (lowTf (7/2) (7/2))) []]) = [⟨7/2, 7/2, 0⟩] := by
  show [(⟨7/2, 7/2, getYaw (0:ℝ) 0 0 1⟩ : V3 ℝ)] = _
  rw [midTf_yaw]

theorem far_maps (b : Int8) : maps ([.map (farMsg b), .odom ⟨1, 0, 1⟩] : List (Event ℝ)) = [farMsg b] := rfl

/-- The robot with the parameters of the other cases publishes the same whatever is in the far corner
of the map, and it does publish a twist. -/
theorem far_case (b : Int8) : ∃ n o n0 nb out u, Node.omni (sideParams 1 1 (-1) 1) = .ok (n, o) ∧
    n.run (farRun 0) = .ok (n0, out) ∧ n.run (farRun b) = .ok (nb, out) ∧ Out.twist u ∈ out := by
  obtain ⟨target, ec, Rinv, o, hec, hn⟩ := side_omni 1 1 (by norm_num) (by norm_num) 1 (-1) 1
  have hz : RecoverableAll (sideParams 1 1 (-1) 1) ⟨0, 0, 0⟩ :=
    side_recoverable _ (by norm_num) (by norm_num) (by norm_num)
  have ho : ∀ v ∈ odoms (farRun 0), RecoverableAll (sideParams 1 1 (-1) 1) v := by
    intro v hv
    simp only [farRun, odoms, List.filterMap_cons, Event.odom?, List.filterMap_nil, List.mem_singleton] at hv
    subst hv
    exact side_recoverable _ (by norm_num) (by norm_num) (by norm_num)
  have hv : ∀ u, WithinParams (sideParams 1 1 (-1) 1) u → speed u ≤ 2 := by
    rintro u ⟨⟨a, b⟩, ⟨c, d⟩, -⟩
    simp only [sideParams] at a b c d
    unfold speed
    rw [Real.sqrt_le_left (by norm_num)]
    nlinarith
  have hD : (2:ℝ) * max (sideParams 1 1 (-1) 1).val_horizon (sideParams 1 1 (-1) 1).dwa_horizon = 2 := by
    show (2:ℝ) * max 0.1 1 = 2
    norm_num
  have hroom : AlwaysRoom (2 * max (sideParams 1 1 (-1) 1).val_horizon (sideParams 1 1 (-1) 1).dwa_horizon) (farRun 0) := by
    rw [hD]
    intro pre tf draws post m x h hm hx
    obtain ⟨rfl, rfl, rfl⟩ := three_events h
    rw [far_maps, List.getLast?_singleton, Option.some.injEq] at hm
    rw [far_pose, List.getLast?_singleton, Option.some.injEq] at hx
    subst hm hx
    simp only [Room, mapOf, farMsg]
    norm_num
  have hsup : AllSupplied nearDetector 1 10 0 (farRun 0) := by
    intro pre tf draws post h
    obtain ⟨rfl, rfl, rfl⟩ := three_events h
    refine ⟨rfl, by simp, fun m hm => ?_⟩
    rw [far_maps, List.getLast?_singleton, Option.some.injEq] at hm
    subst hm
    exact ⟨far_sensible 0, far_fits 0⟩
  obtain ⟨n0, out, hrun⟩ := C77_omni_partial (sideParams 1 1 (-1) 1) _ _ nearDetector (farRun 0) side_sane side_collision hz ho
    hn 2 hv hsup hroom
  have hsens : ∀ m ∈ maps (farRun 0), Sensible nearDetector (mapOf m) := by
    intro m hm
    have h : m = farMsg 0 := List.mem_singleton.mp hm
    rw [h]
    exact far_sensible 0
  have hnear : SameNearby nearDetector.occupied_threshold (2 * max (sideParams 1 1 (-1) 1).val_horizon
      (sideParams 1 1 (-1) 1).dwa_horizon + nearDetector.search_radius) (farRun 0) (farRun b) := by
    rw [hD]
    refine ⟨.cons (.map _ _) (.cons (.odom _) (.cons (.tick _ _) .nil)), ?_⟩
    intro pre pre' tf draws post post' m m' x h h' _ hm hm' hx
    obtain ⟨rfl, rfl, rfl⟩ := three_events h
    obtain ⟨rfl, -, -⟩ := three_events h'
    rw [far_maps, List.getLast?_singleton, Option.some.injEq] at hm hm'
    rw [far_pose, List.getLast?_singleton, Option.some.injEq] at hx
    subst hm hm' hx
    have e : (2:ℝ) + nearDetector.search_radius + 3 / 2 * (farMsg 0).resolution = 9 / 2 := by
      show (2:ℝ) + 1 + 3 / 2 * 1 = 9 / 2
      norm_num
    rw [e]
    exact far_near b
  obtain ⟨nb, hrunb⟩ := C112_omni (sideParams 1 1 (-1) 1) _ _ nearDetector (farRun 0) (farRun b) side_sane side_collision hz ho
    hn 2 hv hsens hroom hnear n0 out hrun
  refine ⟨_, o, n0, nb, out, n0.expl.u, hn, hrun, hrunb, ?_⟩
  have hr := (node_run_up _ _ lt_two_one _ _ hrun).1
  simp only [farRun, Expl.run, Res.bind_eq_ok] at hr
  obtain ⟨⟨s1, o1⟩, hs1, ⟨r1, p1⟩, ⟨⟨s2, o2⟩, hs2, ⟨r2, p2⟩, ⟨⟨s3, o3⟩, hs3, h3⟩, h2⟩, h1⟩ := hr
  simp only [Res.ok.injEq, Prod.mk.injEq] at h1 h2 h3
  obtain ⟨h1a, h1b⟩ := h1
  obtain ⟨h2a, h2b⟩ := h2
  obtain ⟨x3, rfl, h3a, h3b⟩ := h3
  simp only [Expl.step, Res.ok.injEq, Prod.mk.injEq] at hs1 hs2
  obtain ⟨rfl, -⟩ := hs1
  obtain ⟨rfl, -⟩ := hs2
  have hs3 : (((Expl.start ec nearDetector (sideDwa 1 (UInt32.ofNat 1) 1 (-1) 1) target "map" 0.1
    0.1).1.mapCallback (farMsg 0)).odomCallback ⟨1, 0, 1⟩).iteration (some (lowTf (7/2) (7/2))) [] = .ok (s3, o3) := hs3
  rcases Expl.iteration_ok hs3 with ⟨h, -⟩ | ⟨-, r, q1, q2, -, -, hq⟩
  · revert h; simp [Expl.localize, lowTf, Expl.mapCallback, Expl.odomCallback]
  · rw [← h1b, ← h2b, ← h3b, hq, ← h1a, ← h2a, ← h3a]
    simp

end Ergodic
