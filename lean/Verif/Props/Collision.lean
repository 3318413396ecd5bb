import Verif.Lemmas.Collision
import Verif.Lemmas.Dbl

/-! # Properties C24–C31: collision detection -/

namespace Ergodic
variable {F : Type} [Flt F]

/-! ## C24 constructor -/

/-- `C24` full statement: construction throws exactly when the search radius is below the
boundary radius or the occupied threshold is outside the documented range `[0, 1]`. -/
def C24_statement : Prop :=
  ∀ b s o t : ℝ, Collision.new b s o t = .throw .invalidArgument ↔ (s < b ∨ t < 0 ∨ 1 < t)

/-- C24 (missing: thresholds in `(1, 100]`): construction throws exactly when the search
radius is below the boundary radius or the threshold is outside `[0, 100]`, and otherwise
stores the four parameters. -/
theorem C24_guard_partial (b s o t : ℝ) :
    (Collision.new b s o t = .throw .invalidArgument ↔ (s < b ∨ t < 0 ∨ 100 < t)) ∧
    (¬ (s < b ∨ t < 0 ∨ 100 < t) → Collision.new b s o t = .ok ⟨b, s, o, t⟩) := by
  have key : Collision.new b s o t =
      if s < b then .throw .invalidArgument
      else if 100 < t ∨ t < 0 then .throw .invalidArgument else .ok ⟨b, s, o, t⟩ := by
    simp [Collision.new]
  rw [key]
  constructor
  · constructor
    · intro h
      by_contra hc
      rw [if_neg (by tauto), if_neg (by tauto)] at h
      cases h
    · intro h
      split_ifs <;> first | rfl | tauto
  · intro hc
    rw [if_neg (by tauto), if_neg (by tauto)]

example : ¬ ((1:ℝ) < 0.7 ∨ (0.8:ℝ) < 0 ∨ (100:ℝ) < 0.8) := by norm_num

/-- C24 is false: a threshold of 80 (percent) is accepted. -/
theorem C24_refuted : ¬ C24_statement := by
  intro h
  have h1 := (h 0.7 1 0.2 80).mpr (by norm_num)
  have h2 := (C24_guard_partial 0.7 1 0.2 80).2 (by norm_num)
  rw [h2] at h1
  cases h1

/-- C24, consequence: with a threshold above 1.27 no stored value is ever an obstacle, so
the detector is blind on every map. -/
theorem C24_blind_above (t : ℝ) (ht : 1.27 < t) (g : GridMap ℝ) (i j : Int) : ¬ Occupied t g i j := by
  rintro ⟨-, -, -, -, v, -, hv⟩
  rw [real_lt_false] at hv
  have hv2 : v.toInt ≤ 127 := by
    have := Int8.toInt_lt v; omega
  have : (v.toInt : ℝ) ≤ 127 := by exact_mod_cast hv2
  norm_num at hv ht
  linarith

example : (1.27:ℝ) < 80 := by norm_num

/-- C24, special values: a NaN threshold or NaN radii pass the guard. -/
theorem C24_nan_accepted (b s o : Dbl) :
    Collision.new Dbl.nan s o Dbl.nan = .ok ⟨Dbl.nan, s, o, Dbl.nan⟩ ∧
    Collision.new b Dbl.nan o Dbl.nan = .ok ⟨b, Dbl.nan, o, Dbl.nan⟩ := by
  constructor <;> simp [Collision.new, Flt.lt] <;> cases b <;> cases s <;> simp [Dbl.lt]

/-! ## The configuration of a search -/

theorem castI32_floor {x : ℝ} (h0 : 0 ≤ x) (h1 : x < 2147483648) :
    castI32 (Flt.floor x) = .ok ⌊x⌋ := by
  have hf : 0 ≤ ⌊x⌋ := Int.floor_nonneg.mpr h0
  have hl : ⌊x⌋ < 2147483648 := Int.floor_lt.mpr (by exact_mod_cast h1)
  simp only [castI32, real_floor, real_trunc, realTrunc_intCast]
  rw [if_pos ⟨by omega, hl⟩]

theorem u2i_small {u : UInt32} (h : u.toNat < 2147483648) : u2i u = u.toNat := by
  unfold u2i; rw [if_pos h]

/-- The parameters of a search in exact arithmetic, once the robot cell is known. -/
theorem config_of_cell (c : Collision ℝ) (g : GridMap ℝ) (hs : Sensible c g) (pose : V3 ℝ)
    (i j : UInt32) (hw2 : g.world2Grid pose.c0 pose.c1 = .ok (i, j)) (hi : i.toNat ≤ 2 ^ 30)
    (hj : j.toNat ≤ 2 ^ 30) :
    c.config g pose = .ok
        { r_bnd := ⌊c.boundary_radius / g.resolution⌋
          r_col := ⌊(c.boundary_radius + c.obstacle_threshold) / g.resolution⌋
          r_max := ⌊c.search_radius / g.resolution⌋
          cx := j.toNat, cy := i.toNat } ∧
      InRange g
        { r_bnd := ⌊c.boundary_radius / g.resolution⌋
          r_col := ⌊(c.boundary_radius + c.obstacle_threshold) / g.resolution⌋
          r_max := ⌊c.search_radius / g.resolution⌋
          cx := j.toNat, cy := i.toNat } := by
  have hres := hs.res
  have h1 := hs.bnd
  have h2 := hs.obs
  have h3 := hs.order
  have h4 := hs.search
  have h5 := hs.col
  have hx := hs.xsize
  have hy := hs.ysize
  have k1 : c.search_radius / g.resolution < 32768 := by rw [div_lt_iff₀ hres]; exact h4
  have k2 : (c.boundary_radius + c.obstacle_threshold) / g.resolution < 32768 := by
    rw [div_lt_iff₀ hres]; exact h5
  have k3 : c.boundary_radius / g.resolution < 32768 := by rw [div_lt_iff₀ hres]; linarith
  refine ⟨?_, ?_⟩
  · have e1 := castI32_floor (div_nonneg h1 hres.le) (by linarith)
    have e2 := castI32_floor (div_nonneg (add_nonneg h1 h2) hres.le) (by linarith)
    have e3 := castI32_floor (div_nonneg (h1.trans h3) hres.le) (by linarith)
    simp only [Collision.config, hw2, Res.ok_bind, real_div, real_add, e1, e2, e3]
    rw [u2i_small (by omega), u2i_small (by omega)]
  · refine ⟨by simp, by simp, by simp only; omega, by simp only; omega, uint32_pos_iff.mp hs.x0,
      uint32_pos_iff.mp hs.y0, hx, hy, ?_⟩
    simp only
    have : ⌊c.search_radius / g.resolution⌋ < 32768 := Int.floor_lt.mpr (by exact_mod_cast k1)
    omega

/-- On a sensible set-up a pose in the map rectangle gives a configuration centred on the
cell that contains the pose, with the radii rounded down to cells. -/
theorem config_real (c : Collision ℝ) (g : GridMap ℝ) (hs : Sensible c g) (pose : V3 ℝ)
    (hp : InRect g pose.c0 pose.c1) :
    ∃ i j : UInt32, IsCell g i j ∧ InClosedCell g i j pose.c0 pose.c1 ∧
      c.config g pose = .ok
        { r_bnd := ⌊c.boundary_radius / g.resolution⌋
          r_col := ⌊(c.boundary_radius + c.obstacle_threshold) / g.resolution⌋
          r_max := ⌊c.search_radius / g.resolution⌋
          cx := j.toNat, cy := i.toNat } ∧
      InRange g
        { r_bnd := ⌊c.boundary_radius / g.resolution⌋
          r_col := ⌊(c.boundary_radius + c.obstacle_threshold) / g.resolution⌋
          r_max := ⌊c.search_radius / g.resolution⌋
          cx := j.toNat, cy := i.toNat } := by
  obtain ⟨i, j, hw2, hcell, hin⟩ := C08_rect_covered g hs.res hs.x0 hs.y0 _ _ hp
  have hx := hs.xsize
  have hy := hs.ysize
  obtain ⟨h1, h2⟩ := config_of_cell c g hs pose i j hw2 (by have := hcell.1; omega)
    (by have := hcell.2; omega)
  exact ⟨i, j, hcell, hin, h1, h2⟩

/-- The same to the right of and above the map, where the robot cell is not a cell of the map. -/
theorem config_notBelow (c : Collision ℝ) (g : GridMap ℝ) (hs : Sensible c g) (pose : V3 ℝ)
    (hp : NotBelow g pose.c0 pose.c1) :
    ∃ cfg, c.config g pose = .ok cfg ∧ InRange g cfg := by
  obtain ⟨hx0, hx1, hy0, hy1⟩ := hp
  have hr := hs.res
  have hxp := uint32_pos_iff.mp hs.x0
  have hyp := uint32_pos_iff.mp hs.y0
  obtain ⟨n, hn0, hn1⟩ := exists_strip hr hx0
  obtain ⟨m, hm0, hm1⟩ := exists_strip hr hy0
  have hn : n < 2 ^ 30 + 1 := by
    have := nat_lt_of_strip (b := 2 ^ 30 + 1) hr hn0 (by linarith)
    exact_mod_cast this
  have hm : m < 2 ^ 30 + 1 := by
    have := nat_lt_of_strip (b := 2 ^ 30 + 1) hr hm0 (by linarith)
    exact_mod_cast this
  have en := ofNat_toNat (show n < 2 ^ 32 by omega)
  have em := ofNat_toNat (show m < 2 ^ 32 by omega)
  have cx := strip_cast hr (by omega) hn0 hn1
  have cy := strip_cast hr (by omega) hm0 hm1
  have hw : g.world2Grid pose.c0 pose.c1 = .ok (
      if UInt32.ofNat m = g.ysize then UInt32.ofNat m - 1 else UInt32.ofNat m,
      if UInt32.ofNat n = g.xsize then UInt32.ofNat n - 1 else UInt32.ofNat n) := by
    simp only [GridMap.world2Grid, real_sub, real_div, cx, cy, Res.ok_bind]
  have fold : ∀ (k s : UInt32), 0 < s.toNat → k.toNat ≤ 2 ^ 30 →
      (if k = s then k - 1 else k).toNat ≤ 2 ^ 30 := by
    intro k s hs0 hk
    split
    · rename_i h
      subst h
      rw [UInt32.toNat_sub_of_le _ _ (by rw [UInt32.le_iff_toNat_le]; exact hs0)]
      omega
    · exact hk
  exact ⟨_, config_of_cell c g hs pose _ _ hw (fold _ _ hyp (by omega)) (fold _ _ hxp (by omega))⟩

/-! ## C27 the circle -/

/-- C27: the circle sweep of any radius up to 32767 terminates without failure, and reports
a collision exactly when a cell of the digital circle of that radius is occupied and within
the collision radius. -/
theorem C27_sweep_is_ring (c : Collision F) (g : GridMap F) (hw : WellFormed g)
    (cfg : CollisionConfig) (hr : InRange g cfg) (r : Int) (h1 : 1 ≤ r) (h2 : r ≤ 32767) :
    ∃ hit cfg', c.bresenhamCircle g cfg r = .ok (hit, cfg') ∧
      (hit = true ↔ ∃ dx dy, OnRing r dx dy ∧
        Occupied c.occupied_threshold g (cfg.cy + dy) (cfg.cx + dx) ∧
        dx * dx + dy * dy ≤ cfg.r_col * cfg.r_col) := by
  refine ⟨_, _, bresenhamCircle_eq c g hw r h2 cfg hr, ?_⟩
  rw [scan_fst]
  constructor
  · rintro ⟨⟨dx, dy⟩, hm, ho, hd⟩
    exact ⟨dx, dy, (mem_ring_iff h1).mp hm, by simpa [occB] using ho, hd⟩
  · rintro ⟨dx, dy, hm, ho, hd⟩
    exact ⟨(dx, dy), (mem_ring_iff h1).mpr hm, by simpa [occB] using ho, hd⟩

/-- C27: the sweep does not depend on the bound put on the loop, i.e. the loop of the C++
code terminates within `2 r + 2` tests and running longer would change nothing. -/
theorem C27_terminates (c : Collision F) (g : GridMap F) (hw : WellFormed g)
    (cfg : CollisionConfig) (hr : InRange g cfg) (r : Int) (h1 : 1 ≤ r) (h2 : r ≤ 32767)
    (fuel : Nat) (hf : 2 * r.toNat + 2 ≤ fuel) :
    c.circleLoop g fuel (-r) 0 (2 - 2 * r) cfg = c.bresenhamCircle g cfg r := by
  have key : ∀ (n : Nat) (x y err : Int), CircleInv r x y err → (-x) + (r - y) < n →
      ∀ m, n ≤ m → walk m x y err = walk n x y err := by
    intro n
    induction n with
    | zero =>
      intro x y err h hlt
      have := h.bounds; have := h.x0
      push_cast at hlt; omega
    | succ n ih =>
      intro x y err h hlt m hm
      obtain ⟨m, rfl⟩ : ∃ k, m = k + 1 := ⟨m - 1, by omega⟩
      rw [walk, walk]
      split_ifs with hx
      · have hprog := circleStep_progress h
        rw [ih _ _ _ (circleInv_step h hx) (by push_cast at hlt; omega) m (by omega)]
      · rfl
  unfold Collision.bresenhamCircle
  rw [circleLoop_eq c g hw r h2 _ _ _ _ cfg hr (circleInv_start h1) (by omega),
    circleLoop_eq c g hw r h2 _ _ _ _ cfg hr (circleInv_start h1) (by push_cast; omega),
    key _ _ _ _ (circleInv_start h1) (by push_cast; omega) fuel hf]

/-- C27: every visited cell is within half a cell of the circle. -/
theorem C27_half_cell (r dx dy : Int) (hr : 1 ≤ r) (h : OnRing r dx dy) :
    |Real.sqrt ((dx : ℝ) ^ 2 + (dy : ℝ) ^ 2) - r| < 1 / 2 := by
  obtain ⟨h1, h2⟩ := h.dist (by omega)
  have h1' : r * r - r + 1 ≤ dx * dx + dy * dy := by omega
  have h2' : dx * dx + dy * dy + 1 ≤ r * r + r := by omega
  have k1 : (r : ℝ) * r - r + 1 ≤ (dx : ℝ) * dx + dy * dy := by exact_mod_cast h1'
  have k2 : (dx : ℝ) * dx + dy * dy + 1 ≤ (r : ℝ) * r + r := by exact_mod_cast h2'
  have hr' : (1 : ℝ) ≤ r := by exact_mod_cast hr
  rw [abs_lt]
  constructor
  · have : (r : ℝ) - 1 / 2 < Real.sqrt ((dx : ℝ) ^ 2 + (dy : ℝ) ^ 2) :=
      Real.lt_sqrt_of_sq_lt (by nlinarith)
    linarith
  · have : Real.sqrt ((dx : ℝ) ^ 2 + (dy : ℝ) ^ 2) < r + 1 / 2 := by
      rw [Real.sqrt_lt' (by linarith)]; nlinarith
    linarith

/-- C27: the circle is symmetric under quarter turns and reflections. -/
theorem C27_symmetric (r dx dy : Int) :
    (OnRing r dx dy ↔ OnRing r (-dy) dx) ∧ (OnRing r dx dy ↔ OnRing r dx (-dy)) ∧
    (OnRing r dx dy ↔ OnRing r dy dx) :=
  ⟨by rw [onRing_neg_left, onRing_swap], by rw [onRing_neg_right], onRing_swap⟩

/-- C27: the four axis cells are on the circle. -/
theorem C27_axis (r : Int) (hr : 1 ≤ r) :
    OnRing r r 0 ∧ OnRing r (-r) 0 ∧ OnRing r 0 r ∧ OnRing r 0 (-r) := by
  have h : OnRing r r 0 := by
    rw [← arc_iff_onRing (by omega) (le_refl _)]
    exact Or.inl ⟨by omega, by nlinarith, by nlinarith, by intro h; omega⟩
  exact ⟨h, onRing_neg_left.mpr h, onRing_swap.mp h, onRing_neg_right.mpr (onRing_swap.mp h)⟩

/-- C27: each row below the diagonal meets the circle in exactly one cell per side, i.e. the
circle has no holes and no doubled cells there. -/
theorem C27_one_cell_per_row (r b : Int) (hb : 0 ≤ b) (hr : 2 * (b * b) + b < r * r) :
    ∃! a : Int, b ≤ a ∧ OnRing r a b := by
  obtain ⟨s, hs0, hs1, hs2⟩ := exists_isqrt (n := r * r - b * b) (by nlinarith)
  have hbs : b ≤ s := by by_contra hc; nlinarith
  have huniq : ∀ x y : Int, b ≤ x → b ≤ y → OnRing r x b → OnRing r y b → ¬ x < y := by
    intro x y hx hy h1 h2 hlt
    rw [← arc_iff_onRing (by omega) hb] at h1 h2
    exact arc_unique_row hb h2 h1 (by omega) (by omega) hlt
  have hex : ∃ a : Int, b ≤ a ∧ OnRing r a b := by
    by_cases hc : r * r - b * b ≤ s * s + s
    · have hne : b ≠ s := by rintro rfl; omega
      refine ⟨s, hbs, (arc_iff_onRing hs0 hb).mp (Or.inl ⟨hbs, ?_, hc, fun h => absurd h hne⟩)⟩
      have : 0 < s := by omega
      omega
    · refine ⟨s + 1, by omega, (arc_iff_onRing (by omega) hb).mp
        (Or.inl ⟨by omega, by nlinarith, by nlinarith, fun h => by omega⟩)⟩
  obtain ⟨a, ha, hring⟩ := hex
  refine ⟨a, ⟨ha, hring⟩, ?_⟩
  rintro a' ⟨ha', hring'⟩
  rcases lt_trichotomy a a' with h | h | h
  · exact absurd h (huniq _ _ ha ha' hring hring')
  · exact h.symm
  · exact absurd h (huniq _ _ ha' ha hring' hring)

/-- C27: no `int` of the loop overflows: from start to end the loop variables stay within
`3 r + 2` of zero, and the loop leaves exactly at the top of the circle. -/
theorem C27_no_overflow (r x y err : Int) (hr : 1 ≤ r) (h : CircleReach r x y err) :
    (-r ≤ x ∧ x ≤ 0 ∧ 0 ≤ y ∧ y ≤ r ∧ -(3 * r) ≤ err ∧ err ≤ 3 * r + 2) ∧ (x = 0 → y = r) := by
  have hi := h.inv hr
  refine ⟨⟨hi.bounds.1, hi.x0, hi.y0, hi.bounds.2, hi.err_bounds.1, hi.err_bounds.2⟩, ?_⟩
  rintro rfl
  rcases hi.near with ⟨h1, h2, -⟩ | ⟨h1, h2, h3⟩
  · have : y = 0 := by have := hi.y0; omega
    subst this
    exfalso
    rcases hi.near with ⟨-, -, h4, -⟩ | ⟨h4, -⟩
    · nlinarith
    · omega
  · have := hi.bounds.2
    by_contra hne
    have : y + 1 ≤ r := by omega
    nlinarith

example : CircleReach 5 (-5) 0 (2 - 2 * 5) ∧ OnRing 5 4 3 ∧ ¬ OnRing 5 1 1 ∧
    (2 * ((3:Int) * 3) + 3 < 5 * 5) :=
  ⟨CircleReach.start, by decide, by decide, by norm_num⟩


/-! ## C25 soundness -/

theorem collisionCheck_iff (c : Collision F) (g : GridMap F) (hw : WellFormed g) (pose : V3 F)
    (cfg : CollisionConfig) (hcfg : c.config g pose = .ok cfg) (hr : InRange g cfg) :
    ∃ b, c.collisionCheck g pose = .ok b ∧
      (b = true ↔ ∃ dx dy, Visited cfg dx dy ∧
        Occupied c.occupied_threshold g (cfg.cy + dy) (cfg.cx + dx) ∧
        dx * dx + dy * dy ≤ cfg.r_col * cfg.r_col) := by
  have hcc : c.collisionCheck g pose = .ok (scan (occB c.occupied_threshold g)
      (sweep (cfg.r_max - cfg.r_bnd + 1).toNat cfg.r_bnd) cfg).1 := by
    simp only [Collision.collisionCheck, hcfg, Res.ok_bind, search_eq c g hw cfg hr]
  refine ⟨_, hcc, ?_⟩
  rw [scan_fst]
  constructor
  · rintro ⟨⟨dx, dy⟩, hm, ho, hd⟩
    exact ⟨dx, dy, mem_sweep_cfg.mp hm, by simpa [occB] using ho, hd⟩
  · rintro ⟨dx, dy, hm, ho, hd⟩
    exact ⟨(dx, dy), mem_sweep_cfg.mpr hm, by simpa [occB] using ho, hd⟩

/-- C25, for every number type (rounding included): a reported collision comes with an
occupied cell within the collision radius, in cells, of the robot cell. -/
theorem C25_sound (c : Collision F) (g : GridMap F) (hw : WellFormed g) (pose : V3 F)
    (cfg : CollisionConfig) (hcfg : c.config g pose = .ok cfg) (hr : InRange g cfg)
    (h : c.collisionCheck g pose = .ok true) :
    ∃ i j, Occupied c.occupied_threshold g i j ∧
      (j - cfg.cx) * (j - cfg.cx) + (i - cfg.cy) * (i - cfg.cy) ≤ cfg.r_col * cfg.r_col := by
  obtain ⟨b, hb, hiff⟩ := collisionCheck_iff c g hw pose cfg hcfg hr
  rw [h] at hb
  cases hb
  obtain ⟨dx, dy, -, ho, hd⟩ := hiff.mp rfl
  refine ⟨_, _, ho, ?_⟩
  have e1 : cfg.cx + dx - cfg.cx = dx := by ring
  have e2 : cfg.cy + dy - cfg.cy = dy := by ring
  rw [e1, e2]
  exact hd

theorem floor_mul_le {a res : ℝ} (hr : 0 < res) : (⌊a / res⌋ : ℝ) * res ≤ a := by
  have := Int.floor_le (a / res)
  calc (⌊a / res⌋ : ℝ) * res ≤ a / res * res := by gcongr
    _ = a := by field_simp

/-- C25, in metres: a reported collision comes with a cell of value at least the threshold
whose centre is within boundary radius plus obstacle threshold of the centre of the cell the
robot is in. -/
theorem C25_sound_metric (c : Collision ℝ) (g : GridMap ℝ) (hs : Sensible c g) (pose : V3 ℝ)
    (hp : InRect g pose.c0 pose.c1) (h : c.collisionCheck g pose = .ok true) :
    ∃ (i j : UInt32) (k l : Int), IsCell g i j ∧ InClosedCell g i j pose.c0 pose.c1 ∧
      Occupied c.occupied_threshold g k l ∧
      centreDistSq g k l i.toNat j.toNat ≤ (c.boundary_radius + c.obstacle_threshold) ^ 2 := by
  obtain ⟨i, j, hcell, hin, hcfg, hr⟩ := config_real c g hs pose hp
  obtain ⟨k, l, ho, hd⟩ := C25_sound c g hs.wf pose _ hcfg hr h
  refine ⟨i, j, k, l, hcell, hin, ho, ?_⟩
  simp only at hd
  have hres := hs.res
  have hd' : ((l : ℝ) - j.toNat) * (l - j.toNat) + ((k : ℝ) - i.toNat) * (k - i.toNat) ≤
      (⌊(c.boundary_radius + c.obstacle_threshold) / g.resolution⌋ : ℝ) *
        ⌊(c.boundary_radius + c.obstacle_threshold) / g.resolution⌋ := by exact_mod_cast hd
  have h0 : (0:ℝ) ≤ ⌊(c.boundary_radius + c.obstacle_threshold) / g.resolution⌋ := by
    have : 0 ≤ ⌊(c.boundary_radius + c.obstacle_threshold) / g.resolution⌋ :=
      Int.floor_nonneg.mpr (div_nonneg (add_nonneg hs.bnd hs.obs) hres.le)
    exact_mod_cast this
  have hf := floor_mul_le (a := c.boundary_radius + c.obstacle_threshold) hres
  unfold centreDistSq
  push_cast
  calc ((k:ℝ) * g.resolution - i.toNat * g.resolution) ^ 2 +
        ((l:ℝ) * g.resolution - j.toNat * g.resolution) ^ 2
      = (((l : ℝ) - j.toNat) * (l - j.toNat) + ((k : ℝ) - i.toNat) * (k - i.toNat)) *
          (g.resolution * g.resolution) := by ring
    _ ≤ (⌊(c.boundary_radius + c.obstacle_threshold) / g.resolution⌋ *
        ⌊(c.boundary_radius + c.obstacle_threshold) / g.resolution⌋ : ℝ) *
          (g.resolution * g.resolution) := by gcongr
    _ = (⌊(c.boundary_radius + c.obstacle_threshold) / g.resolution⌋ * g.resolution) ^ 2 := by ring
    _ ≤ _ := by gcongr

/-- C25: with nothing occupied within the total padding of the robot cell there is no collision. -/
theorem C25_padding (c : Collision ℝ) (g : GridMap ℝ) (hs : Sensible c g) (pose : V3 ℝ)
    (hp : InRect g pose.c0 pose.c1)
    (hfree : ∀ (i j : UInt32) (k l : Int), InClosedCell g i j pose.c0 pose.c1 →
      Occupied c.occupied_threshold g k l → c.totalPadding ^ 2 < centreDistSq g k l i.toNat j.toNat) :
    c.collisionCheck g pose ≠ .ok true := by
  intro h
  obtain ⟨i, j, k, l, -, hin, ho, hd⟩ := C25_sound_metric c g hs pose hp h
  have := hfree i j k l hin ho
  rw [show c.totalPadding = c.boundary_radius + c.obstacle_threshold from rfl] at this
  linarith

/-! ## C26 completeness -/

/-- `C26` full statement: an occupied cell within the collision radius of the robot cell is
reported.  (Stated with every side condition a caller can establish, including a search
radius that reaches the collision radius.) -/
def C26_statement : Prop :=
  ∀ (c : Collision ℝ) (g : GridMap ℝ) (pose : V3 ℝ) (cfg : CollisionConfig),
    Sensible c g → c.boundary_radius + c.obstacle_threshold ≤ c.search_radius →
    InRect g pose.c0 pose.c1 → c.config g pose = .ok cfg →
    ∀ i j, Occupied c.occupied_threshold g i j →
      (j - cfg.cx) * (j - cfg.cx) + (i - cfg.cy) * (i - cfg.cy) ≤ cfg.r_col * cfg.r_col →
      c.collisionCheck g pose = .ok true

/-- C26 (missing: cells that no circle of the search passes through): the exact condition
under which a collision is reported. -/
theorem C26_exact_partial (c : Collision F) (g : GridMap F) (hw : WellFormed g) (pose : V3 F)
    (cfg : CollisionConfig) (hcfg : c.config g pose = .ok cfg) (hr : InRange g cfg) :
    c.collisionCheck g pose = .ok true ↔
      ∃ i j r, Occupied c.occupied_threshold g i j ∧ 1 ≤ r ∧ cfg.r_bnd ≤ r ∧ r ≤ cfg.r_max ∧
        OnRing r (j - cfg.cx) (i - cfg.cy) ∧
        (j - cfg.cx) * (j - cfg.cx) + (i - cfg.cy) * (i - cfg.cy) ≤ cfg.r_col * cfg.r_col := by
  obtain ⟨b, hb, hiff⟩ := collisionCheck_iff c g hw pose cfg hcfg hr
  rw [hb]
  constructor
  · intro h
    cases h
    obtain ⟨dx, dy, ⟨r, h1, h2, h3, h4⟩, ho, hd⟩ := hiff.mp rfl
    refine ⟨_, _, r, ho, h1, h2, h3, ?_, ?_⟩
    · rwa [show cfg.cx + dx - cfg.cx = dx by ring, show cfg.cy + dy - cfg.cy = dy by ring]
    · rwa [show cfg.cx + dx - cfg.cx = dx by ring, show cfg.cy + dy - cfg.cy = dy by ring]
  · rintro ⟨i, j, r, ho, h1, h2, h3, h4, hd⟩
    rw [hiff.mpr ⟨j - cfg.cx, i - cfg.cy, ⟨r, h1, h2, h3, h4⟩, ?_, hd⟩]
    rwa [show cfg.cy + (i - cfg.cy) = i by ring, show cfg.cx + (j - cfg.cx) = j by ring]

/-- C26 (missing: isolated cells): of two occupied cells that share an edge and both lie in
the annulus between the boundary radius and the collision radius, at least one is seen, so
the collision is reported. -/
theorem C26_edge_pair_partial (c : Collision F) (g : GridMap F) (hw : WellFormed g) (pose : V3 F)
    (cfg : CollisionConfig) (hcfg : c.config g pose = .ok cfg) (hr : InRange g cfg)
    (hle : cfg.r_col ≤ cfg.r_max) (hc0 : 0 ≤ cfg.r_col) (i j k l : Int)
    (hadj : (k = i + 1 ∧ l = j) ∨ (k = i ∧ l = j + 1))
    (ho1 : Occupied c.occupied_threshold g i j) (ho2 : Occupied c.occupied_threshold g k l)
    (h1 : max 1 cfg.r_bnd * max 1 cfg.r_bnd ≤
      (j - cfg.cx) * (j - cfg.cx) + (i - cfg.cy) * (i - cfg.cy))
    (h2 : (j - cfg.cx) * (j - cfg.cx) + (i - cfg.cy) * (i - cfg.cy) ≤ cfg.r_col * cfg.r_col)
    (h3 : max 1 cfg.r_bnd * max 1 cfg.r_bnd ≤
      (l - cfg.cx) * (l - cfg.cx) + (k - cfg.cy) * (k - cfg.cy))
    (h4 : (l - cfg.cx) * (l - cfg.cx) + (k - cfg.cy) * (k - cfg.cy) ≤ cfg.r_col * cfg.r_col) :
    c.collisionCheck g pose = .ok true := by
  rw [C26_exact_partial c g hw pose cfg hcfg hr]
  have hm : (1:Int) ≤ max 1 cfg.r_bnd := le_max_left _ _
  have hcov : Covered (j - cfg.cx) (i - cfg.cy) ∨ Covered (l - cfg.cx) (k - cfg.cy) := by
    rcases hadj with ⟨rfl, rfl⟩ | ⟨rfl, rfl⟩
    · have := covered_adjacent_y (l - cfg.cx) (i - cfg.cy)
      rwa [show i - cfg.cy + 1 = i + 1 - cfg.cy by ring] at this
    · have := covered_adjacent_x (j - cfg.cx) (k - cfg.cy)
      rwa [show j - cfg.cx + 1 = j + 1 - cfg.cx by ring] at this
  rcases hcov with ⟨r, hr1, hring⟩ | ⟨r, hr1, hring⟩
  · obtain ⟨ha, hb⟩ := hring.radius hr1 hm hc0 h1 h2
    exact ⟨i, j, r, ho1, hr1, (le_max_right _ _).trans ha, hb.trans hle, hring, h2⟩
  · obtain ⟨ha, hb⟩ := hring.radius hr1 hm hc0 h3 h4
    exact ⟨k, l, r, ho2, hr1, (le_max_right _ _).trans ha, hb.trans hle, hring, h4⟩

/-- C26 (missing: cells off the axes): an occupied cell straight ahead, behind, left or right
of the robot cell, at a distance between the boundary radius and the collision radius, is
always reported. -/
theorem C26_axis_partial (c : Collision F) (g : GridMap F) (hw : WellFormed g) (pose : V3 F)
    (cfg : CollisionConfig) (hcfg : c.config g pose = .ok cfg) (hr : InRange g cfg)
    (d : Int) (hd1 : 1 ≤ d) (hd2 : cfg.r_bnd ≤ d) (hd3 : d ≤ cfg.r_max) (hd4 : d ≤ cfg.r_col)
    (ho : Occupied c.occupied_threshold g cfg.cy (cfg.cx + d) ∨
          Occupied c.occupied_threshold g cfg.cy (cfg.cx - d) ∨
          Occupied c.occupied_threshold g (cfg.cy + d) cfg.cx ∨
          Occupied c.occupied_threshold g (cfg.cy - d) cfg.cx) :
    c.collisionCheck g pose = .ok true := by
  rw [C26_exact_partial c g hw pose cfg hcfg hr]
  obtain ⟨a1, a2, a3, a4⟩ := C27_axis d hd1
  have hdd : d * d ≤ cfg.r_col * cfg.r_col := mul_self_le_mul_self (by omega) hd4
  rcases ho with ho | ho | ho | ho
  · exact ⟨_, _, d, ho, hd1, hd2, hd3, by simpa using a1, by ring_nf; ring_nf at hdd; exact hdd⟩
  · exact ⟨_, _, d, ho, hd1, hd2, hd3, by simpa [sub_sub] using a2,
      by ring_nf; ring_nf at hdd; exact hdd⟩
  · exact ⟨_, _, d, ho, hd1, hd2, hd3, by simpa using a3, by ring_nf; ring_nf at hdd; exact hdd⟩
  · exact ⟨_, _, d, ho, hd1, hd2, hd3, by simpa using a4, by ring_nf; ring_nf at hdd; exact hdd⟩

/-- A 3 × 3 map of 1 m cells, free except for the corner cell (2, 2). -/
def cornerGrid : GridMap ℝ :=
  { xsize := 3, ysize := 3, resolution := 1, xmin := 0, ymin := 0, xmax := 3, ymax := 3,
    data := [0, 0, 0, 0, 0, 0, 0, 0, 100] }

theorem cornerGrid_wf : WellFormed cornerGrid := ⟨by decide, by decide⟩

theorem cornerGrid_occupied (i j : Int) : Occupied (4/5 : ℝ) cornerGrid i j ↔ i = 2 ∧ j = 2 := by
  constructor
  · rintro ⟨h1, h2, h3, h4, v, hv, hlt⟩
    have h2' : i < 3 := h2
    have h4' : j < 3 := h4
    by_contra hc
    have hv0 : v = 0 := by
      obtain rfl | rfl | rfl : i = 0 ∨ i = 1 ∨ i = 2 := by omega
      all_goals obtain rfl | rfl | rfl : j = 0 ∨ j = 1 ∨ j = 2 := by omega
      all_goals first
        | exact absurd ⟨rfl, rfl⟩ hc
        | (simpa [cellAt, cornerGrid] using hv.symm)
    subst hv0
    rw [real_lt_false, show ((0 : Int8).toInt) = 0 from by decide] at hlt
    norm_num at hlt
  · rintro ⟨rfl, rfl⟩
    refine ⟨by norm_num, by decide, by norm_num, by decide, 100, rfl, ?_⟩
    rw [real_lt_false]
    have : ((100 : Int8).toInt) = 100 := by decide
    norm_num [this]

/-- A detector whose collision radius is two cells: boundary 0 m, threshold 2 m. -/
noncomputable def gapDetector : Collision ℝ := ⟨0, 3, 2, 4/5⟩

theorem gap_sensible : Sensible gapDetector cornerGrid := by
  refine ⟨cornerGrid_wf, ?_, by decide, by decide, by decide, by decide, ?_, ?_, ?_, ?_, ?_⟩ <;>
    norm_num [gapDetector, cornerGrid]

/-- A detector with a boundary radius of three cells. -/
noncomputable def wideDetector : Collision ℝ := ⟨3, 5, 0, 4/5⟩

theorem wide_sensible : Sensible wideDetector cornerGrid := by
  refine ⟨cornerGrid_wf, ?_, by decide, by decide, by decide, by decide, ?_, ?_, ?_, ?_, ?_⟩ <;>
    norm_num [wideDetector, cornerGrid]

theorem gap_config : gapDetector.config cornerGrid ⟨1.5, 1.5, 0⟩ =
    .ok { r_bnd := 0, r_col := 2, r_max := 3, cx := 1, cy := 1 } := by
  have hw := C08_half_open_exact cornerGrid (by norm_num [cornerGrid]) 1.5 1.5 1 1 (by decide)
    (by simp only [InHalfOpenCell, cornerGrid, UInt32.toNat_ofNat]; norm_num)
  have e1 := castI32_floor (x := (0:ℝ)/1) (by norm_num) (by norm_num)
  have e2 := castI32_floor (x := ((0:ℝ)+2)/1) (by norm_num) (by norm_num)
  have e3 := castI32_floor (x := (3:ℝ)/1) (by norm_num) (by norm_num)
  simp only [Collision.config, hw, Res.ok_bind]
  simp only [gapDetector, cornerGrid, real_div, real_add, e1, e2, e3, Res.ok_bind]
  norm_num
  decide

theorem wide_config : wideDetector.config cornerGrid ⟨2.5, 1.5, 0⟩ =
    .ok { r_bnd := 3, r_col := 3, r_max := 5, cx := 2, cy := 1 } := by
  have hw := C08_half_open_exact cornerGrid (by norm_num [cornerGrid]) 2.5 1.5 1 2 (by decide)
    (by simp only [InHalfOpenCell, cornerGrid, UInt32.toNat_ofNat]; norm_num)
  have e1 := castI32_floor (x := (3:ℝ)/1) (by norm_num) (by norm_num)
  have e2 := castI32_floor (x := ((3:ℝ)+0)/1) (by norm_num) (by norm_num)
  have e3 := castI32_floor (x := (5:ℝ)/1) (by norm_num) (by norm_num)
  simp only [Collision.config, hw, Res.ok_bind]
  simp only [wideDetector, cornerGrid, real_div, real_add, e1, e2, e3, Res.ok_bind]
  norm_num
  decide

/-- The cell diagonally next to the robot is on no circle at all. -/
theorem not_onRing_diagonal (r : Int) (hr : 1 ≤ r) : ¬ OnRing r 1 1 := by
  intro h
  rw [← arc_iff_onRing (by norm_num) (by norm_num)] at h
  rcases h with ⟨-, h1, h2, h3⟩ | ⟨h1, -⟩
  · have : r < 2 := by by_contra hc; nlinarith
    have : r = 1 := by omega
    subst this
    norm_num at h1
  · omega

/-- C26 is false because of gaps between circles: the cell diagonally next to the robot is
occupied, 1.41 m away with a collision radius of 2 m, and is not reported. -/
theorem C26_refuted_gap : gapDetector.collisionCheck cornerGrid ⟨1.5, 1.5, 0⟩ ≠ .ok true := by
  have hr : InRange cornerGrid { r_bnd := 0, r_col := 2, r_max := 3, cx := 1, cy := 1 } := by
    constructor <;> decide
  rw [ne_eq, C26_exact_partial _ _ cornerGrid_wf _ _ gap_config hr]
  rintro ⟨i, j, r, ho, h1, -, -, hring, -⟩
  obtain ⟨rfl, rfl⟩ := (cornerGrid_occupied i j).mp ho
  exact not_onRing_diagonal r h1 hring

/-- C26 is false inside the boundary radius: the cell directly next to the robot cell is
occupied, the robot overlaps it, and it is not reported. -/
theorem C26_refuted_interior : wideDetector.collisionCheck cornerGrid ⟨2.5, 1.5, 0⟩ ≠ .ok true := by
  have hr : InRange cornerGrid { r_bnd := 3, r_col := 3, r_max := 5, cx := 2, cy := 1 } := by
    constructor <;> decide
  rw [ne_eq, C26_exact_partial _ _ cornerGrid_wf _ _ wide_config hr]
  rintro ⟨i, j, r, ho, h1, h2, -, hring, -⟩
  obtain ⟨rfl, rfl⟩ := (cornerGrid_occupied i j).mp ho
  have := hring.dist (by omega)
  simp only at h2
  norm_num at this
  nlinarith

/-- C26 is false. -/
theorem C26_refuted : ¬ C26_statement := by
  intro h
  refine C26_refuted_gap (h gapDetector cornerGrid ⟨1.5, 1.5, 0⟩ _ gap_sensible ?_ ?_ gap_config 2 2
    ((cornerGrid_occupied 2 2).mpr ⟨rfl, rfl⟩) (by norm_num))
  · norm_num [gapDetector]
  · simp only [InRect, cornerGrid, UInt32.toNat_ofNat]; norm_num

/-- The hypotheses of the partial completeness theorems are met: a second map with two
occupied cells in the right column, seen from the middle cell. -/
def wallGrid : GridMap ℝ := { cornerGrid with data := [0, 0, 0, 0, 0, 100, 0, 0, 100] }

theorem wallGrid_occupied {i : Int} (hi : i = 1 ∨ i = 2) : Occupied (4/5 : ℝ) wallGrid i 2 := by
  rcases hi with rfl | rfl <;>
  · refine ⟨by norm_num, by decide, by norm_num, by decide, 100, rfl, ?_⟩
    rw [real_lt_false, show ((100 : Int8).toInt) = 100 from by decide]
    norm_num

example : ∃ cfg : CollisionConfig, gapDetector.config wallGrid ⟨1.5, 1.5, 0⟩ = .ok cfg ∧
    WellFormed wallGrid ∧ InRange wallGrid cfg ∧ cfg.r_col ≤ cfg.r_max ∧ 0 ≤ cfg.r_col ∧
    Occupied gapDetector.occupied_threshold wallGrid 1 2 ∧
    Occupied gapDetector.occupied_threshold wallGrid 2 2 ∧
    max 1 cfg.r_bnd * max 1 cfg.r_bnd ≤
      (2 - cfg.cx) * (2 - cfg.cx) + (1 - cfg.cy) * (1 - cfg.cy) ∧
    (2 - cfg.cx) * (2 - cfg.cx) + (2 - cfg.cy) * (2 - cfg.cy) ≤ cfg.r_col * cfg.r_col :=
  ⟨_, gap_config, ⟨by decide, by decide⟩, by constructor <;> decide, by decide, by decide,
    wallGrid_occupied (Or.inl rfl), wallGrid_occupied (Or.inr rfl), by decide, by decide⟩

/-- C26, how to rely on the check: nothing occupied strictly inside the boundary radius is
ever seen. -/
theorem C26_interior_unseen (c : Collision F) (g : GridMap F) (hw : WellFormed g) (pose : V3 F)
    (cfg : CollisionConfig) (hcfg : c.config g pose = .ok cfg) (hr : InRange g cfg)
    (h0 : 1 ≤ cfg.r_bnd)
    (h : ∀ i j, Occupied c.occupied_threshold g i j →
      (j - cfg.cx) * (j - cfg.cx) + (i - cfg.cy) * (i - cfg.cy) ≤
        cfg.r_bnd * cfg.r_bnd - cfg.r_bnd) :
    c.collisionCheck g pose = .ok false := by
  obtain ⟨b, hb, -⟩ := collisionCheck_iff c g hw pose cfg hcfg hr
  cases b with
  | false => exact hb
  | true =>
    obtain ⟨i, j, r, ho, h1, h2, h3, h4, -⟩ := (C26_exact_partial c g hw pose cfg hcfg hr).mp hb
    have := h i j ho
    have := h4.dist (by omega)
    nlinarith

/-! ## C28 agreement of the three queries -/

/-- The answer of the three queries at a configuration. -/
inductive Verdict (c : Collision F) (g : GridMap F) (cfg : CollisionConfig) :
    Bool → CollisionMsg × F → CollisionMsg × V2 F → Prop
  /-- some visited occupied cell is within the collision radius -/
  | crash (dx dy : Int) : Visited cfg dx dy →
      Occupied c.occupied_threshold g (cfg.cy + dy) (cfg.cx + dx) →
      dx * dx + dy * dy ≤ cfg.r_col * cfg.r_col →
      Verdict c g cfg true (.crash, lit 0 0) (.crash, ⟨lit 0 0, lit 0 0⟩)
  /-- the nearest visited occupied cell is at offset `(dx, dy)`, beyond the collision radius -/
  | obstacle (dx dy : Int) : Visited cfg dx dy →
      Occupied c.occupied_threshold g (cfg.cy + dy) (cfg.cx + dx) →
      cfg.r_col * cfg.r_col < dx * dx + dy * dy →
      (∀ dx' dy', Visited cfg dx' dy' →
        Occupied c.occupied_threshold g (cfg.cy + dy') (cfg.cx + dx') →
        dx * dx + dy * dy ≤ dx' * dx' + dy' * dy') →
      Verdict c g cfg false
        (.obstacle, Flt.sqrt (Flt.ofInt (dx * dx + dy * dy)) *. g.resolution -. c.boundary_radius)
        (.obstacle, ⟨g.resolution *. Flt.ofInt dx, g.resolution *. Flt.ofInt dy⟩)
  /-- no visited cell is occupied -/
  | none : (∀ dx dy, Visited cfg dx dy →
        ¬ Occupied c.occupied_threshold g (cfg.cy + dy) (cfg.cx + dx)) →
      Verdict c g cfg false (.none, Flt.maxFin) (.none, ⟨Flt.maxFin, Flt.maxFin⟩)

/-- C28: on every map and pose the three queries return without failure and give the same
verdict, which is determined by the occupied cells the search visits. -/
theorem C28_agree (c : Collision F) (g : GridMap F) (hw : WellFormed g) (pose : V3 F)
    (cfg : CollisionConfig) (hcfg : c.config g pose = .ok cfg) (hr : InRange g cfg) :
    ∃ b d v, c.collisionCheck g pose = .ok b ∧ c.minDistance g pose = .ok d ∧
      c.minDirection g pose = .ok v ∧ Verdict c g cfg b d v := by
  have hfresh : cfg.sqrd_obs = -1 ∧ cfg.dx = 0 ∧ cfg.dy = 0 := by
    unfold Collision.config at hcfg
    obtain ⟨psg, -, hcfg⟩ := Res.bind_eq_ok.mp hcfg
    obtain ⟨rb, -, hcfg⟩ := Res.bind_eq_ok.mp hcfg
    obtain ⟨rc, -, hcfg⟩ := Res.bind_eq_ok.mp hcfg
    obtain ⟨rm, -, hcfg⟩ := Res.bind_eq_ok.mp hcfg
    simp only [Res.ok.injEq] at hcfg
    subst hcfg
    exact ⟨rfl, rfl, rfl⟩
  obtain ⟨b, hb, hiff⟩ := collisionCheck_iff c g hw pose cfg hcfg hr
  have hs := search_eq c g hw cfg hr
  have hsame := scan_same (occB c.occupied_threshold g)
    (sweep (cfg.r_max - cfg.r_bnd + 1).toNat cfg.r_bnd) cfg
  have hrec0 : Record (occB c.occupied_threshold g) (fun _ _ => False) cfg :=
    ⟨Or.inl hfresh.1, fun _ _ h => h.elim⟩
  have hfst := scan_fst (occB c.occupied_threshold g)
    (sweep (cfg.r_max - cfg.r_bnd + 1).toNat cfg.r_bnd) cfg
  have hrec := scan_record (occB c.occupied_threshold g)
    (sweep (cfg.r_max - cfg.r_bnd + 1).toNat cfg.r_bnd) _ cfg hrec0
  have hb' : b = (scan (occB c.occupied_threshold g)
      (sweep (cfg.r_max - cfg.r_bnd + 1).toNat cfg.r_bnd) cfg).1 := by
    have : c.collisionCheck g pose = .ok (scan (occB c.occupied_threshold g)
        (sweep (cfg.r_max - cfg.r_bnd + 1).toNat cfg.r_bnd) cfg).1 := by
      simp only [Collision.collisionCheck, hcfg, Res.ok_bind, hs]
    rw [this] at hb; cases hb; rfl
  -- the second search of `minDirection`
  have hs2 := search_eq c g hw _ (hr.same hsame)
  rw [hsame.1, hsame.2.2.1] at hs2
  have hfst2 := scan_fst (occB c.occupied_threshold g)
    (sweep (cfg.r_max - cfg.r_bnd + 1).toNat cfg.r_bnd)
    (scan (occB c.occupied_threshold g)
      (sweep (cfg.r_max - cfg.r_bnd + 1).toNat cfg.r_bnd) cfg).2
  rw [hsame.2.1, hsame.2.2.2.1, hsame.2.2.2.2, ← hfst] at hfst2
  have hagain := scan_again (occB c.occupied_threshold g)
    (sweep (cfg.r_max - cfg.r_bnd + 1).toNat cfg.r_bnd)
    (scan (occB c.occupied_threshold g)
      (sweep (cfg.r_max - cfg.r_bnd + 1).toNat cfg.r_bnd) cfg).2
  have hmem : ∀ dx dy, (dx, dy) ∈ sweep (cfg.r_max - cfg.r_bnd + 1).toNat cfg.r_bnd ↔
      Visited cfg dx dy := fun dx dy => mem_sweep_cfg
  generalize hl : sweep (cfg.r_max - cfg.r_bnd + 1).toNat cfg.r_bnd = l at *
  generalize hsc : scan (occB c.occupied_threshold g) l cfg = t at *
  obtain ⟨hit, cfg1⟩ := t
  simp only at hb' hsame hfst hrec hs2 hfst2 hagain
  subst hb'
  cases b with
  | true =>
    obtain ⟨dx, dy, h1, h2, h3⟩ := hiff.mp rfl
    refine ⟨true, (.crash, lit 0 0), (.crash, ⟨lit 0 0, lit 0 0⟩), hb, ?_, ?_,
      Verdict.crash dx dy h1 h2 h3⟩
    · simp only [Collision.minDistance, hcfg, Res.ok_bind, hs, if_true]
    · have h2 : (scan (occB c.occupied_threshold g) l cfg1).1 = true := hfst2.mpr rfl
      simp only [Collision.minDirection, hcfg, Res.ok_bind, hs, hs2, h2, if_true]
  | false =>
    have hrec := hrec rfl
    have hnot : ∀ dx dy, Visited cfg dx dy →
        Occupied c.occupied_threshold g (cfg.cy + dy) (cfg.cx + dx) →
        cfg.r_col * cfg.r_col < dx * dx + dy * dy := by
      intro dx dy h1 h2
      by_contra hc
      have := hiff.mpr ⟨dx, dy, h1, h2, by omega⟩
      cases this
    have hst : (scan (occB c.occupied_threshold g) l cfg1).1 = false := by
      rw [Bool.eq_false_iff]; intro h; have := hfst2.mp h; cases this
    have hst2 : (scan (occB c.occupied_threshold g) l cfg1).2 = cfg1 :=
      hagain (fun p hp ho => hrec.least p.1 p.2 (Or.inr hp) ho)
    have hleast : ∀ dx dy, Visited cfg dx dy →
        Occupied c.occupied_threshold g (cfg.cy + dy) (cfg.cx + dx) →
        cfg1.sqrd_obs ≠ -1 ∧ cfg1.sqrd_obs ≤ dx * dx + dy * dy := by
      intro dx dy h1 h2
      refine hrec.least dx dy (Or.inr ((hmem dx dy).mpr h1)) ?_
      rw [hsame.2.2.2.1, hsame.2.2.2.2]
      simpa [occB] using h2
    rcases hrec.witness with hw1 | ⟨hw1, hw2, hw3⟩
    · refine ⟨false, (.none, Flt.maxFin), (.none, ⟨Flt.maxFin, Flt.maxFin⟩), hb, ?_, ?_,
        Verdict.none (fun dx dy h1 h2 => (hleast dx dy h1 h2).1 hw1)⟩
      · simp [Collision.minDistance, hcfg, hs, hw1]
      · simp [Collision.minDirection, hcfg, hs, hs2, hst, hst2, hw1]
    · have hne : cfg1.sqrd_obs ≠ -1 := by
        rw [hw3]; nlinarith [mul_self_nonneg cfg1.dx, mul_self_nonneg cfg1.dy]
      have hvis : Visited cfg cfg1.dx cfg1.dy := by
        rcases hw1 with h | h
        · exact h.elim
        · exact (hmem _ _).mp h
      have hocc : Occupied c.occupied_threshold g (cfg.cy + cfg1.dy) (cfg.cx + cfg1.dx) := by
        rw [hsame.2.2.2.1, hsame.2.2.2.2] at hw2
        simpa [occB] using hw2
      refine ⟨false, _, _, hb, ?_, ?_, Verdict.obstacle cfg1.dx cfg1.dy hvis hocc
        (hnot _ _ hvis hocc) (fun dx' dy' h1 h2 => by rw [← hw3]; exact (hleast dx' dy' h1 h2).2)⟩
      · simp [Collision.minDistance, hcfg, hs, hw3]
        intro h; exact absurd (hw3.trans h) hne
      · simp [Collision.minDirection, hcfg, hs, hs2, hst, hst2, hne]

/-- C28, in metres: in the obstacle state the length of the displacement is the distance plus
the boundary radius. -/
theorem C28_displacement (c : Collision ℝ) (g : GridMap ℝ) (hw : WellFormed g) (pose : V3 ℝ)
    (cfg : CollisionConfig) (hcfg : c.config g pose = .ok cfg) (hr : InRange g cfg)
    (hres : 0 ≤ g.resolution) (d : ℝ) (v : V2 ℝ) (hd : c.minDistance g pose = .ok (.obstacle, d))
    (hv : c.minDirection g pose = .ok (.obstacle, v)) :
    Real.sqrt (v.c0 ^ 2 + v.c1 ^ 2) = d + c.boundary_radius := by
  obtain ⟨b, d', v', -, h2, h3, hver⟩ := C28_agree c g hw pose cfg hcfg hr
  rw [hd] at h2; rw [hv] at h3
  cases h2; cases h3
  cases hver with
  | obstacle dx dy h1 h2 h3 h4 =>
    simp only [real_mul, real_sub, real_sqrt, real_ofInt]
    push_cast
    have : (g.resolution * (dx:ℝ)) ^ 2 + (g.resolution * (dy:ℝ)) ^ 2 =
        ((dx:ℝ) * dx + dy * dy) * g.resolution ^ 2 := by ring
    rw [this, Real.sqrt_mul' _ (sq_nonneg _), Real.sqrt_sq hres]
    ring

/-- C28, in metres: in the obstacle state the reported distance plus the boundary radius
exceeds the collision radius, counted in whole cells. -/
theorem C28_distance_clear (c : Collision ℝ) (g : GridMap ℝ) (hw : WellFormed g) (pose : V3 ℝ)
    (cfg : CollisionConfig) (hcfg : c.config g pose = .ok cfg) (hr : InRange g cfg)
    (hres : 0 < g.resolution) (d : ℝ)
    (hd : c.minDistance g pose = .ok (.obstacle, d)) :
    (cfg.r_col : ℝ) * g.resolution < d + c.boundary_radius := by
  obtain ⟨b, d', v', -, h2, -, hver⟩ := C28_agree c g hw pose cfg hcfg hr
  rw [hd] at h2
  cases h2
  cases hver with
  | obstacle dx dy h1 h2 h3 h4 =>
    simp only [real_mul, real_sub, real_sqrt, real_ofInt]
    have h3' : (cfg.r_col : ℝ) * cfg.r_col < ((dx * dx + dy * dy : Int) : ℝ) := by
      exact_mod_cast h3
    have : (cfg.r_col : ℝ) < Real.sqrt ((dx * dx + dy * dy : Int) : ℝ) :=
      Real.lt_sqrt_of_sq_lt (by nlinarith)
    have := mul_lt_mul_of_pos_right this hres
    linarith

/-! ## C29 monotonicity -/

/-- C29, for every number type: if every occupied cell of one map is occupied in another map
of the same geometry (whatever the two thresholds), a collision with the first is a
collision with the second. -/
theorem C29_monotone (c c' : Collision F) (g g' : GridMap F) (hw : WellFormed g)
    (hw' : WellFormed g') (pose : V3 F) (cfg : CollisionConfig)
    (hcfg : c.config g pose = .ok cfg) (hr : InRange g cfg)
    (hcfg' : c'.config g' pose = .ok cfg) (hr' : InRange g' cfg)
    (hocc : ∀ i j, Occupied c.occupied_threshold g i j → Occupied c'.occupied_threshold g' i j)
    (h : c.collisionCheck g pose = .ok true) : c'.collisionCheck g' pose = .ok true := by
  rw [C26_exact_partial c g hw pose cfg hcfg hr] at h
  rw [C26_exact_partial c' g' hw' pose cfg hcfg' hr']
  obtain ⟨i, j, r, ho, rest⟩ := h
  exact ⟨i, j, r, hocc i j ho, rest⟩

/-- C29: raising stored values and lowering the threshold, everything else unchanged, keeps a
collision a collision. -/
theorem C29_raise (c : Collision ℝ) (t' : ℝ) (g : GridMap ℝ) (data' : List Int8)
    (hs : Sensible c g) (pose : V3 ℝ) (hp : InRect g pose.c0 pose.c1)
    (ht : t' ≤ c.occupied_threshold)
    (hdata : List.Forall₂ (fun a b : Int8 => a.toInt ≤ b.toInt) g.data data')
    (h : c.collisionCheck g pose = .ok true) :
    ({ c with occupied_threshold := t' } : Collision ℝ).collisionCheck { g with data := data' } pose
      = .ok true := by
  obtain ⟨i, j, -, -, hcfg, hr⟩ := config_real c g hs pose hp
  have hw' : WellFormed { g with data := data' } :=
    ⟨hs.wf.fits, by rw [← hdata.length_eq]; exact hs.wf.size⟩
  refine C29_monotone c _ g _ hs.wf hw' pose _ hcfg hr hcfg
    ⟨hr.1, hr.2, hr.3, hr.4, hr.5, hr.6, hr.7, hr.8, hr.9⟩ ?_ h
  rintro k l ⟨h1, h2, h3, h4, v, hv, hlt⟩
  refine ⟨h1, h2, h3, h4, ?_⟩
  unfold cellAt at hv ⊢
  simp only at hv ⊢
  obtain ⟨hlen, hv⟩ := List.getElem?_eq_some_iff.mp hv
  have hlen' : k.toNat * g.xsize.toNat + l.toNat < data'.length := by
    rw [← hdata.length_eq]; exact hlen
  have hle := (List.forall₂_iff_get.mp hdata).2 _ hlen hlen'
  simp only [List.get_eq_getElem] at hle
  refine ⟨data'[k.toNat * g.xsize.toNat + l.toNat], List.getElem?_eq_getElem hlen', ?_⟩
  rw [real_lt_false] at hlt ⊢
  simp only [real_div, real_ofInt, real_lit] at hlt ⊢
  have : ((v.toInt : Int) : ℝ) ≤ (data'[k.toNat * g.xsize.toNat + l.toNat].toInt : ℝ) := by
    rw [← hv]; exact_mod_cast hle
  norm_num at hlt ⊢
  linarith

theorem wall_collides : gapDetector.collisionCheck wallGrid ⟨1.5, 1.5, 0⟩ = .ok true :=
  C26_axis_partial _ _ ⟨by decide, by decide⟩ _ _ gap_config (by constructor <;> decide) 1
    (by decide) (by decide) (by decide) (by decide) (Or.inl (wallGrid_occupied (Or.inl rfl)))

/-- A collision exists to which C25 and C29 apply: the cell to the right of the robot. -/
example : gapDetector.collisionCheck wallGrid ⟨1.5, 1.5, 0⟩ = .ok true ∧
    Sensible gapDetector wallGrid ∧ InRect wallGrid (1.5:ℝ) 1.5 ∧
    List.Forall₂ (fun a b : Int8 => a.toInt ≤ b.toInt) wallGrid.data
      [0, 0, 0, 0, 0, 100, 0, 50, 100] := by
  refine ⟨wall_collides, ?_, ?_, ?_⟩
  · refine ⟨⟨by decide, by decide⟩, ?_, by decide, by decide, by decide, by decide, ?_, ?_, ?_, ?_, ?_⟩ <;>
      norm_num [gapDetector, wallGrid, cornerGrid]
  · simp only [InRect, wallGrid, cornerGrid, UInt32.toNat_ofNat]; norm_num
  · simp only [wallGrid]
    repeat' constructor

/-! ## C30 no failure -/

/-- C30: on a sensible set-up, for every pose in the map rectangle, none of the three queries
throws, runs forever or has undefined behaviour. -/
theorem C30_no_failure (c : Collision ℝ) (g : GridMap ℝ) (hs : Sensible c g) (pose : V3 ℝ)
    (hp : InRect g pose.c0 pose.c1) :
    (∃ b, c.collisionCheck g pose = .ok b) ∧ (∃ d, c.minDistance g pose = .ok d) ∧
    (∃ v, c.minDirection g pose = .ok v) := by
  obtain ⟨i, j, -, -, hcfg, hr⟩ := config_real c g hs pose hp
  obtain ⟨b, d, v, h1, h2, h3, -⟩ := C28_agree c g hs.wf pose _ hcfg hr
  exact ⟨⟨b, h1⟩, ⟨d, h2⟩, ⟨v, h3⟩⟩

/-- C30 does not need the pose to be inside the map: to the right of it and above it no query
fails either. -/
theorem C30_no_failure_not_below (c : Collision ℝ) (g : GridMap ℝ) (hs : Sensible c g) (pose : V3 ℝ)
    (hp : NotBelow g pose.c0 pose.c1) :
    (∃ b, c.collisionCheck g pose = .ok b) ∧ (∃ d, c.minDistance g pose = .ok d) ∧
    (∃ v, c.minDirection g pose = .ok v) := by
  obtain ⟨cfg, hcfg, hr⟩ := config_notBelow c g hs pose hp
  obtain ⟨b, d, v, h1, h2, h3, -⟩ := C28_agree c g hs.wf pose cfg hcfg hr
  exact ⟨⟨b, h1⟩, ⟨d, h2⟩, ⟨v, h3⟩⟩

/-- C30, for every number type: once the pose has a cell in the map and the radii are in
range, no query fails. -/
theorem C30_no_failure_any (c : Collision F) (g : GridMap F) (hw : WellFormed g) (pose : V3 F)
    (cfg : CollisionConfig) (hcfg : c.config g pose = .ok cfg) (hr : InRange g cfg) :
    (∃ b, c.collisionCheck g pose = .ok b) ∧ (∃ d, c.minDistance g pose = .ok d) ∧
    (∃ v, c.minDirection g pose = .ok v) := by
  obtain ⟨b, d, v, h1, h2, h3, -⟩ := C28_agree c g hw pose cfg hcfg hr
  exact ⟨⟨b, h1⟩, ⟨d, h2⟩, ⟨v, h3⟩⟩

/-- C30, the precondition matters: left of the map or below it every query has undefined
behaviour. -/
theorem C30_outside_undefined (c : Collision ℝ) (g : GridMap ℝ) (hr : 0 < g.resolution)
    (pose : V3 ℝ) (h : pose.c0 < g.xmin ∨ pose.c1 < g.ymin) :
    c.collisionCheck g pose = .ub ∧ c.minDistance g pose = .ub ∧ c.minDirection g pose = .ub := by
  have hw := C09_below_is_undefined g hr pose.c0 pose.c1 h
  simp [Collision.collisionCheck, Collision.minDistance, Collision.minDirection,
    Collision.config, hw]

example : Sensible gapDetector cornerGrid ∧ NotBelow cornerGrid (1.5:ℝ) 7.5 :=
  ⟨gap_sensible, by simp only [NotBelow, cornerGrid]; norm_num⟩

example : Sensible gapDetector cornerGrid ∧ InRect cornerGrid (1.5:ℝ) 1.5 :=
  ⟨gap_sensible, by simp only [InRect, cornerGrid, UInt32.toNat_ofNat]; norm_num⟩

/-! ## C31 unknown and off-map cells -/

/-- C31: an unknown cell (negative stored value) is not an obstacle for any threshold that is
not negative. -/
theorem C31_unknown_free (thr : ℝ) (ht : 0 ≤ thr) (g : GridMap ℝ) (i j : Int)
    (h : ∀ v, cellAt g i.toNat j.toNat = some v → v.toInt < 0) : ¬ Occupied thr g i j := by
  rintro ⟨-, -, -, -, v, hv, hlt⟩
  have := h v hv
  rw [real_lt_false] at hlt
  have hv' : (v.toInt : ℝ) < 0 := by exact_mod_cast this
  norm_num at hlt
  linarith

/-- C31: if no existing cell is an obstacle, then whatever lies beyond the map, no query
reports a collision or an obstacle. -/
theorem C31_nothing_reported (c : Collision F) (g : GridMap F) (hw : WellFormed g) (pose : V3 F)
    (cfg : CollisionConfig) (hcfg : c.config g pose = .ok cfg) (hr : InRange g cfg)
    (h : ∀ i j, ¬ Occupied c.occupied_threshold g i j) :
    c.collisionCheck g pose = .ok false ∧ c.minDistance g pose = .ok (.none, Flt.maxFin) ∧
    c.minDirection g pose = .ok (.none, ⟨Flt.maxFin, Flt.maxFin⟩) := by
  obtain ⟨b, d, v, h1, h2, h3, hver⟩ := C28_agree c g hw pose cfg hcfg hr
  cases hver with
  | crash dx dy _ ho => exact absurd ho (h _ _)
  | obstacle dx dy _ ho => exact absurd ho (h _ _)
  | none => exact ⟨h1, h2, h3⟩

/-- C31: on a map without known-occupied cells, every pose in the rectangle is clear, for
every threshold that is not negative. -/
theorem C31_unknown_map_clear (c : Collision ℝ) (g : GridMap ℝ) (hs : Sensible c g)
    (pose : V3 ℝ) (hp : InRect g pose.c0 pose.c1) (ht : 0 ≤ c.occupied_threshold)
    (h : ∀ v ∈ g.data, v.toInt < 0) :
    c.collisionCheck g pose = .ok false ∧ c.minDistance g pose = .ok (.none, Flt.maxFin) := by
  obtain ⟨i, j, -, -, hcfg, hr⟩ := config_real c g hs pose hp
  have := C31_nothing_reported c g hs.wf pose _ hcfg hr (fun i j =>
    C31_unknown_free _ ht g i j (fun v hv => h v (List.mem_of_getElem? hv)))
  exact ⟨this.1, this.2.1⟩

/-- A map of unknown cells meets the hypotheses of C31. -/
example : (∀ v ∈ ([-1, -1, -1] : List Int8), v.toInt < 0) ∧
    0 ≤ gapDetector.occupied_threshold := by
  constructor
  · decide
  · norm_num [gapDetector]

end Ergodic
