import Verif.Spec.Slip
import Verif.Lemmas.Slip
import Verif.Props.ClosedLoop

/-!
# Obstacles cannot slip between the circles

C117.  A single collision check misses occupied cells that lie between two of its circles (C26).  A robot
whose cell changes by at most one king's move from check to check cannot get past an obstacle in this way.
-/

namespace Ergodic
variable {F : Type} [Flt F]

/-- The step from one check to the next, on the cells. -/
theorem slip_cells (c : Collision F) (b rc : Int) (hb : 1 ≤ b) (hrc : b + 2 ≤ rc) (hseal : Sealed b rc)
    (gs : Nat → GridMap F) (ps : Nat → V3 F) (cfgs : Nat → CollisionConfig) (i j : Int)
    (h0 : rc * rc < sqCells (cfgs 0) i j) :
    ∀ n, (∀ k ≤ n, WellFormed (gs k) ∧ c.config (gs k) (ps k) = .ok (cfgs k) ∧ InRange (gs k) (cfgs k) ∧
      (cfgs k).r_bnd ≤ b ∧ (cfgs k).r_col = rc ∧ rc ≤ (cfgs k).r_max ∧
      Occupied c.occupied_threshold (gs k) i j) →
      (∀ k < n, Touching (cfgs k) (cfgs (k + 1)) ∧ c.collisionCheck (gs (k + 1)) (ps (k + 1)) = .ok false) →
      Kept b rc (max |j - (cfgs n).cx| |i - (cfgs n).cy|) (min |j - (cfgs n).cx| |i - (cfgs n).cy|) := by
  intro n
  induction n with
  | zero => intro _ _; left; rw [max_min_sq]; exact h0
  | succ n ih =>
    intro hi h
    obtain ⟨ht, hf⟩ := h n (by omega)
    have hk := ih (fun k hk => hi k (by omega)) fun k hk => h k (by omega)
    obtain ⟨hw, hcfg, hr, h1, h2, h3, ho⟩ := hi (n + 1) le_rfl
    have hun := (C26_exact_partial c (gs (n + 1)) hw (ps (n + 1)) (cfgs (n + 1)) hcfg hr).not.mp (by rw [hf]; simp)
    obtain ⟨k1, k2, k3, k4⟩ := king_max_min (x := j - (cfgs (n + 1)).cx) (y := i - (cfgs (n + 1)).cy)
      (x' := j - (cfgs n).cx) (y' := i - (cfgs n).cy)
      (by have := ht.1; rw [abs_le] at this ⊢; omega) (by have := ht.2; rw [abs_le] at this ⊢; omega)
    refine hk.step hb hrc hseal rfl rfl (le_min (abs_nonneg _) (abs_nonneg _)) min_le_max k1 k2 k3 k4 ?_
    intro r hr1 hr2 hring
    by_contra hle
    push Not at hle
    exact hun ⟨i, j, r, ho, by omega, by omega, by omega, hring, by rw [h2]; exact hle⟩

/-- C117, on the cells and in every arithmetic: while the robot cell changes by at most one king's move between
checks, an obstacle that starts further than the collision radius never comes within one cell of the boundary
radius without being reported, if the padding is three cells or more.  The map may change as long as the obstacle stays. -/
theorem C117_cells (c : Collision F) (gs : Nat → GridMap F) (ps : Nat → V3 F) (cfgs : Nat → CollisionConfig)
    (b rc i j : Int) (hb : 1 ≤ b) (hrc : b + 3 ≤ rc) (n : Nat)
    (hi : ∀ k ≤ n, WellFormed (gs k) ∧ c.config (gs k) (ps k) = .ok (cfgs k) ∧ InRange (gs k) (cfgs k) ∧
      (cfgs k).r_bnd ≤ b ∧ (cfgs k).r_col = rc ∧ rc ≤ (cfgs k).r_max ∧ Occupied c.occupied_threshold (gs k) i j)
    (h0 : rc * rc < sqCells (cfgs 0) i j)
    (h : ∀ k < n, Touching (cfgs k) (cfgs (k + 1)) ∧ c.collisionCheck (gs (k + 1)) (ps (k + 1)) = .ok false) :
    (b + 1) * (b + 1) ≤ sqCells (cfgs n) i j := by
  have := (slip_cells c b rc hb (by omega) (sealed_three hb hrc) gs ps cfgs i j h0 n hi h).far hb (by omega)
  rwa [max_min_sq] at this

/-! ## Motions in the plane -/

/-- The index a coordinate within the map is converted to, one axis. -/
theorem fold_index {lo res x : ℝ} (size : UInt32) (hr : 0 < res) (hsz : 0 < size.toNat) (h0 : lo ≤ x)
    (h1 : x ≤ lo + size.toNat * res) :
    ∃ k' : UInt32, castU32 (Flt.floor ((x - lo) / res)) = .ok k' ∧
      (if k' = size then k' - 1 else k').toNat < size.toNat ∧
      lo + (if k' = size then k' - 1 else k').toNat * res ≤ x ∧
      (x < lo + ((if k' = size then k' - 1 else k').toNat + 1) * res ∨
        (if k' = size then k' - 1 else k').toNat + 1 = size.toNat ∧ x = lo + size.toNat * res) := by
  obtain ⟨n, hn0, hn1⟩ := exists_strip hr h0
  have hsl := uint32_lt size
  have hn : n < size.toNat + 1 := by
    have := nat_lt_of_strip (b := size.toNat + 1) hr hn0 (by linarith)
    exact_mod_cast this
  have en := ofNat_toNat (show n < 2 ^ 32 by omega)
  refine ⟨UInt32.ofNat n, strip_cast hr (by omega) hn0 hn1, ?_⟩
  by_cases hk : UInt32.ofNat n = size
  · have hns : n = size.toNat := by rw [← hk, en]
    have e : (UInt32.ofNat n - 1).toNat = n - 1 := by
      rw [UInt32.toNat_sub_of_le _ _ (by rw [UInt32.le_iff_toNat_le, en]; show 1 ≤ n; omega), en]; rfl
    rw [if_pos hk, e]
    have e2 : ((n - 1 : Nat) : ℝ) = n - 1 := by rw [Nat.cast_sub (by omega)]; simp
    refine ⟨by omega, ?_, .inr ⟨by omega, ?_⟩⟩
    · rw [e2]; nlinarith
    · rw [hns] at hn0; linarith
  · have hns : n ≠ size.toNat := by
      intro h; apply hk; rw [h]; simp
    rw [if_neg hk, en]
    exact ⟨by omega, hn0, .inl hn1⟩

theorem fold_near {lo res x x' : ℝ} {size : UInt32} {k k' : Nat} (hr : 0 < res) (hk' : k' < size.toNat)
    (hx : x < lo + (k + 1) * res ∨ k + 1 = size.toNat ∧ x = lo + size.toNat * res)
    (hx' : lo + k' * res ≤ x') (hd : |x - x'| ≤ res) : (k' : Int) ≤ k + 1 := by
  by_contra hlt
  push Not at hlt
  have h2 : k + 2 ≤ k' := by omega
  have hc : ((k : ℝ) + 2) ≤ k' := by exact_mod_cast h2
  rw [abs_le] at hd
  rcases hx with hx | ⟨hx, -⟩
  · nlinarith
  · omega

/-- The search of a pose inside the map, and where the pose is in its cell. -/
theorem config_rect (c : Collision ℝ) (g : GridMap ℝ) (hs : Sensible c g) (pose : V3 ℝ)
    (hp : InRect g pose.c0 pose.c1) :
    ∃ i j : Nat, c.config g pose = .ok
        { r_bnd := ⌊c.boundary_radius / g.resolution⌋
          r_col := ⌊(c.boundary_radius + c.obstacle_threshold) / g.resolution⌋
          r_max := ⌊c.search_radius / g.resolution⌋
          cx := j, cy := i } ∧
      InRange g
        { r_bnd := ⌊c.boundary_radius / g.resolution⌋
          r_col := ⌊(c.boundary_radius + c.obstacle_threshold) / g.resolution⌋
          r_max := ⌊c.search_radius / g.resolution⌋
          cx := j, cy := i } ∧
      (j < g.xsize.toNat ∧ g.xmin + j * g.resolution ≤ pose.c0 ∧ (pose.c0 < g.xmin + (j + 1) * g.resolution ∨
        j + 1 = g.xsize.toNat ∧ pose.c0 = g.xmin + g.xsize.toNat * g.resolution)) ∧
      (i < g.ysize.toNat ∧ g.ymin + i * g.resolution ≤ pose.c1 ∧ (pose.c1 < g.ymin + (i + 1) * g.resolution ∨
        i + 1 = g.ysize.toNat ∧ pose.c1 = g.ymin + g.ysize.toNat * g.resolution)) := by
  obtain ⟨hx0, hx1, hy0, hy1⟩ := hp
  obtain ⟨kx, cx, x1, x2, x3⟩ := fold_index g.xsize hs.res (uint32_pos_iff.mp hs.x0) hx0 hx1
  obtain ⟨ky, cy, y1, y2, y3⟩ := fold_index g.ysize hs.res (uint32_pos_iff.mp hs.y0) hy0 hy1
  have hw : g.world2Grid pose.c0 pose.c1 = .ok (if ky = g.ysize then ky - 1 else ky,
      if kx = g.xsize then kx - 1 else kx) := by
    simp only [GridMap.world2Grid, real_sub, real_div, cx, cy, Res.ok_bind]
  have hxs := hs.xsize
  have hys := hs.ysize
  obtain ⟨h1, h2⟩ := config_of_cell c g hs pose _ _ hw (by omega) (by omega)
  exact ⟨_, _, h1, h2, ⟨x1, x2, x3⟩, y1, y2, y3⟩

/-- The distance to the centre of a cell, and the distance in cells. -/
theorem centreDist_cells (g : GridMap ℝ) (hr : 0 < g.resolution) (cfg : CollisionConfig) (i j : Int) (x y : ℝ)
    (hx0 : g.xmin + cfg.cx * g.resolution ≤ x) (hx1 : x ≤ g.xmin + (cfg.cx + 1) * g.resolution)
    (hy0 : g.ymin + cfg.cy * g.resolution ≤ y) (hy1 : y ≤ g.ymin + (cfg.cy + 1) * g.resolution) :
    |centreDist g i j x y - √(sqCells cfg i j : ℝ) * g.resolution| ≤ √2 / 2 * g.resolution := by
  let o : V3 ℝ := ⟨g.xmin + (j + 1 / 2) * g.resolution, g.ymin + (i + 1 / 2) * g.resolution, 0⟩
  let p : V3 ℝ := ⟨x, y, 0⟩
  let q : V3 ℝ := ⟨g.xmin + (cfg.cx + 1 / 2) * g.resolution, g.ymin + (cfg.cy + 1 / 2) * g.resolution, 0⟩
  have h1 : centreDist g i j x y = planar o p := rfl
  have h2 : √(sqCells cfg i j : ℝ) * g.resolution = planar o q := by
    unfold planar
    rw [show √(sqCells cfg i j : ℝ) * g.resolution = √(sqCells cfg i j : ℝ) * √(g.resolution ^ 2) by
      rw [Real.sqrt_sq hr.le], ← Real.sqrt_mul' _ (sq_nonneg _)]
    congr 1
    simp only [sqCells, o, q]
    push_cast
    ring
  have h3 : planar p q ≤ √2 / 2 * g.resolution := by
    unfold planar
    rw [show √2 / 2 * g.resolution = √(2 * (g.resolution / 2) ^ 2) by
      rw [Real.sqrt_mul' _ (sq_nonneg _), Real.sqrt_sq (by linarith)]; ring]
    apply Real.sqrt_le_sqrt
    have a : (x - (g.xmin + (cfg.cx + 1 / 2) * g.resolution)) ^ 2 ≤ (g.resolution / 2) ^ 2 :=
      sq_le_sq' (by linarith) (by linarith)
    have b : (y - (g.ymin + (cfg.cy + 1 / 2) * g.resolution)) ^ 2 ≤ (g.resolution / 2) ^ 2 :=
      sq_le_sq' (by linarith) (by linarith)
    simp only [p, q]
    linarith
  have h4 : planar q p = planar p q := by unfold planar; ring_nf
  rw [h1, h2, abs_le]
  constructor
  · have := planar_triangle o p q; linarith
  · have := planar_triangle o q p; linarith

theorem slip_motion (c : Collision ℝ) (g : GridMap ℝ) (hs : Sensible c g) (i j : Int)
    (ho : Occupied c.occupied_threshold g i j) (hsr : c.boundary_radius + c.obstacle_threshold ≤ c.search_radius)
    (hb : g.resolution ≤ c.boundary_radius)
    (hrc : ⌊c.boundary_radius / g.resolution⌋ + 2 ≤ ⌊(c.boundary_radius + c.obstacle_threshold) / g.resolution⌋)
    (hseal : Sealed ⌊c.boundary_radius / g.resolution⌋ ⌊(c.boundary_radius + c.obstacle_threshold) / g.resolution⌋)
    (ps : Nat → V3 ℝ) (n : Nat) (hin : ∀ k ≤ n, InRect g (ps k).c0 (ps k).c1)
    (hstep : ∀ k < n, |(ps k).c0 - (ps (k + 1)).c0| ≤ g.resolution ∧ |(ps k).c1 - (ps (k + 1)).c1| ≤ g.resolution ∧
      c.collisionCheck g (ps (k + 1)) = .ok false)
    (h0 : c.boundary_radius + c.obstacle_threshold + √2 / 2 * g.resolution <
      centreDist g i j (ps 0).c0 (ps 0).c1) :
    c.boundary_radius - √2 / 2 * g.resolution < centreDist g i j (ps n).c0 (ps n).c1 := by
  have hr := hs.res
  choose! row col hij using fun k (hk : k ≤ n) => config_rect c g hs (ps k) (hin k hk)
  let cfgs : Nat → CollisionConfig := fun k =>
    { r_bnd := ⌊c.boundary_radius / g.resolution⌋
      r_col := ⌊(c.boundary_radius + c.obstacle_threshold) / g.resolution⌋
      r_max := ⌊c.search_radius / g.resolution⌋
      cx := col k, cy := row k }
  have hb1 : 1 ≤ ⌊c.boundary_radius / g.resolution⌋ := by
    rw [Int.le_floor]; push_cast; rw [le_div_iff₀ hr]; linarith
  have hmax : ⌊(c.boundary_radius + c.obstacle_threshold) / g.resolution⌋ ≤ ⌊c.search_radius / g.resolution⌋ :=
    Int.floor_le_floor (div_le_div_of_nonneg_right hsr hr.le)
  have hd : ∀ k ≤ n, |centreDist g i j (ps k).c0 (ps k).c1 - √(sqCells (cfgs k) i j : ℝ) * g.resolution| ≤
      √2 / 2 * g.resolution := by
    intro k hk
    obtain ⟨-, -, ⟨-, x1, x2⟩, -, y1, y2⟩ := hij k hk
    refine centreDist_cells g hr (cfgs k) i j _ _ (by simpa [cfgs] using x1) ?_ (by simpa [cfgs] using y1) ?_
    · simp only [cfgs]; push_cast
      rcases x2 with x2 | ⟨x2, x3⟩
      · exact x2.le
      · rw [x3, ← x2]; push_cast; exact le_rfl
    · simp only [cfgs]; push_cast
      rcases y2 with y2 | ⟨y2, y3⟩
      · exact y2.le
      · rw [y3, ← y2]; push_cast; exact le_rfl
  have hfl := Int.floor_le ((c.boundary_radius + c.obstacle_threshold) / g.resolution)
  have hfb := Int.lt_floor_add_one (c.boundary_radius / g.resolution)
  rw [le_div_iff₀ hr] at hfl
  rw [div_lt_iff₀ hr] at hfb
  have hpos : (0 : ℝ) ≤ ⌊(c.boundary_radius + c.obstacle_threshold) / g.resolution⌋ := by
    have : (0 : Int) ≤ ⌊(c.boundary_radius + c.obstacle_threshold) / g.resolution⌋ := by omega
    exact_mod_cast this
  have hk := slip_cells c _ _ hb1 hrc hseal (fun _ => g) ps cfgs i j (by
    have h1 := hd 0 (by omega)
    rw [abs_le] at h1
    have h2 : (⌊(c.boundary_radius + c.obstacle_threshold) / g.resolution⌋ : ℝ) < √(sqCells (cfgs 0) i j : ℝ) := by
      nlinarith
    have h3 := (Real.lt_sqrt hpos).mp h2
    rw [pow_two] at h3
    exact_mod_cast h3) n (fun k hk => by
    obtain ⟨h1, h2, -⟩ := hij k hk
    exact ⟨hs.wf, h1, h2, le_rfl, rfl, hmax, ho⟩) (fun k hk => by
    obtain ⟨a1, a2, a3⟩ := hstep k hk
    obtain ⟨-, -, ⟨xa, x1, x2⟩, ya, y1, y2⟩ := hij k hk.le
    obtain ⟨-, -, ⟨xb, x3, x4⟩, yb, y3, y4⟩ := hij (k + 1) hk
    refine ⟨⟨?_, ?_⟩, a3⟩
    · have e1 := fold_near hr xb x2 x3 a1
      have e2 := fold_near hr xa x4 x1 (by rwa [abs_sub_comm])
      simp only [cfgs]
      rw [abs_le]; omega
    · have e1 := fold_near hr yb y2 y3 a2
      have e2 := fold_near hr ya y4 y1 (by rwa [abs_sub_comm])
      simp only [cfgs]
      rw [abs_le]; omega)
  have hfar := hk.far hb1 hrc
  rw [max_min_sq] at hfar
  have h1 := hd n le_rfl
  rw [abs_le] at h1
  have h2 : (⌊c.boundary_radius / g.resolution⌋ : ℝ) + 1 ≤ √(sqCells (cfgs n) i j : ℝ) := by
    apply Real.le_sqrt_of_sq_le
    rw [pow_two]
    exact_mod_cast hfar
  nlinarith

/-- C117 in the plane: a robot inside the map that starts further from an occupied cell than the padding (and half a
cell's diagonal), moves by at most one cell along each axis from check to check and passes every check has the
obstacle outside its boundary radius (less half a cell's diagonal) ever after, although single checks miss cells. -/
theorem C117_motion (c : Collision ℝ) (g : GridMap ℝ) (hs : Sensible c g) (i j : Int)
    (ho : Occupied c.occupied_threshold g i j) (hsr : c.boundary_radius + c.obstacle_threshold ≤ c.search_radius)
    (hb : g.resolution ≤ c.boundary_radius) (hp : 3 * g.resolution ≤ c.obstacle_threshold)
    (ps : Nat → V3 ℝ) (n : Nat) (hin : ∀ k ≤ n, InRect g (ps k).c0 (ps k).c1)
    (hstep : ∀ k < n, |(ps k).c0 - (ps (k + 1)).c0| ≤ g.resolution ∧ |(ps k).c1 - (ps (k + 1)).c1| ≤ g.resolution ∧
      c.collisionCheck g (ps (k + 1)) = .ok false)
    (h0 : c.boundary_radius + c.obstacle_threshold + √2 / 2 * g.resolution <
      centreDist g i j (ps 0).c0 (ps 0).c1) :
    c.boundary_radius - √2 / 2 * g.resolution < centreDist g i j (ps n).c0 (ps n).c1 := by
  have hr := hs.res
  have h3 : ⌊c.boundary_radius / g.resolution⌋ + 3 ≤ ⌊(c.boundary_radius + c.obstacle_threshold) / g.resolution⌋ := by
    rw [Int.le_floor, le_div_iff₀ hr]
    push_cast
    have := Int.floor_le (c.boundary_radius / g.resolution)
    rw [le_div_iff₀ hr] at this
    linarith
  have hb1 : 1 ≤ ⌊c.boundary_radius / g.resolution⌋ := by
    rw [Int.le_floor]; push_cast; rw [le_div_iff₀ hr]; linarith
  exact slip_motion c g hs i j ho hsr hb (by omega) (sealed_three hb1 h3) ps n hin hstep h0

/-- C117 with a padding of two cells, which is enough for robots of fewer than 22 cells. -/
theorem C117_two (c : Collision ℝ) (g : GridMap ℝ) (hs : Sensible c g) (i j : Int)
    (ho : Occupied c.occupied_threshold g i j) (hsr : c.boundary_radius + c.obstacle_threshold ≤ c.search_radius)
    (hb : g.resolution ≤ c.boundary_radius) (hb' : c.boundary_radius < 22 * g.resolution)
    (hp : 2 * g.resolution ≤ c.obstacle_threshold)
    (ps : Nat → V3 ℝ) (n : Nat) (hin : ∀ k ≤ n, InRect g (ps k).c0 (ps k).c1)
    (hstep : ∀ k < n, |(ps k).c0 - (ps (k + 1)).c0| ≤ g.resolution ∧ |(ps k).c1 - (ps (k + 1)).c1| ≤ g.resolution ∧
      c.collisionCheck g (ps (k + 1)) = .ok false)
    (h0 : c.boundary_radius + c.obstacle_threshold + √2 / 2 * g.resolution <
      centreDist g i j (ps 0).c0 (ps 0).c1) :
    c.boundary_radius - √2 / 2 * g.resolution < centreDist g i j (ps n).c0 (ps n).c1 := by
  have hr := hs.res
  have h3 : ⌊c.boundary_radius / g.resolution⌋ + 2 ≤ ⌊(c.boundary_radius + c.obstacle_threshold) / g.resolution⌋ := by
    rw [Int.le_floor, le_div_iff₀ hr]
    push_cast
    have := Int.floor_le (c.boundary_radius / g.resolution)
    rw [le_div_iff₀ hr] at this
    linarith
  have hb1 : 1 ≤ ⌊c.boundary_radius / g.resolution⌋ := by
    rw [Int.le_floor]; push_cast; rw [le_div_iff₀ hr]; linarith
  have hb2 : ⌊c.boundary_radius / g.resolution⌋ < 22 := by
    rw [Int.floor_lt]; push_cast; rw [div_lt_iff₀ hr]; linarith
  exact slip_motion c g hs i j ho hsr hb h3 (sealed_two hb1 (by omega) h3) ps n hin hstep h0

/-! ## In closed loop -/

/-- Consecutive poses of a driven robot. -/
theorem driven_chain {T ρ : ℝ} (hT : 0 ≤ T) (hρ : 0 ≤ ρ) {es : List (Event ℝ)} {os : List (List (Out ℝ))}
    {l : Option (V3 ℝ × List (V3 ℝ))} (hd : Driven T es os l)
    (hslow : ∀ o ∈ os, ∀ u ∈ twists o, speed u * T ≤ ρ) :
    (poses es).IsChain (fun p q => |p.c0 - q.c0| ≤ ρ ∧ |p.c1 - q.c1| ≤ ρ) ∧ (l = none → poses es = []) ∧
    ∀ p us, l = some (p, us) → (poses es).getLast? = some p ∧ ∀ u ∈ us, speed u * T ≤ ρ := by
  induction hd with
  | nil => exact ⟨.nil, fun _ => rfl, by simp⟩
  | @callback es os l e o hd' he ih =>
    obtain ⟨h1, h2, h3⟩ := ih fun o ho => hslow o (by simp [ho])
    have hp : poses (es ++ [e]) = poses es := by
      rw [poses_snoc, pose_none_of_not_tick he]; simp
    rw [hp]
    exact ⟨h1, h2, h3⟩
  | @first es os p e o hd' he ih =>
    obtain ⟨-, h2, -⟩ := ih fun o ho => hslow o (by simp [ho])
    have hp : poses (es ++ [e]) = [p] := by rw [poses_snoc, h2 rfl, he]; rfl
    rw [hp]
    refine ⟨.singleton _, by simp, ?_⟩
    rintro p' us hl
    cases hl
    exact ⟨rfl, hslow o (by simp)⟩
  | @next es os p us q e o hd' he hmv ih =>
    obtain ⟨h1, -, h3⟩ := ih fun o ho => hslow o (by simp [ho])
    obtain ⟨hlast, hus⟩ := h3 p us rfl
    have hp : poses (es ++ [e]) = poses es ++ [q] := by rw [poses_snoc, he]; rfl
    rw [hp]
    refine ⟨?_, by simp, ?_⟩
    · rw [List.isChain_append]
      refine ⟨h1, .singleton _, ?_⟩
      intro x hx y hy
      rw [hlast] at hx
      simp only [Option.mem_def, Option.some.injEq, List.head?_cons] at hx hy
      subst hx; subst hy
      rcases us with _ | ⟨u, us⟩
      · obtain ⟨e0, e1, -⟩ := hmv.1 rfl
        rw [e0, e1]; simpa using hρ
      · obtain ⟨e0, e1, -⟩ := hmv.2 u (by simp)
        have := C76_flow p u T
        rw [abs_of_nonneg hT] at this
        have := planar_le (this.trans (hus u (by simp)))
        rw [e0, e1, abs_sub_comm p.c0, abs_sub_comm p.c1]
        exact this
    · rintro p' us' hl
      cases hl
      exact ⟨by simp, hslow o (by simp)⟩

variable {es : List (Event ℝ)} {os : List (List (Out ℝ))} {t : Expl ℝ}

/-- C117 for the nodes: on a map that does not change, with twists that move the robot by at most one cell per period,
an obstacle the robot starts away from stays outside its boundary radius (less half a cell's diagonal) at every
iteration. -/
theorem C117_closed_loop {p : Params ℝ} {n : Node ℝ} {o0 : List (Out ℝ)}
    (hn : Node.cart p = .ok (n, o0) ∨ Node.omni p = .ok (n, o0)) (hv : 0 < p.val_dt) (hd : 0 < p.dwa_dt)
    {T : ℝ} (hTv : Instant T p.val_dt p.val_horizon) (hTd : Instant T p.dwa_dt p.dwa_horizon)
    (ht : Trace n.expl es os t) {l : Option (V3 ℝ × List (V3 ℝ))} (hdr : Driven T es os l)
    (m : OccupancyGrid ℝ) (hmaps : ∀ m' ∈ maps es, m' = m)
    (hw : ∀ o ∈ os, ∀ u ∈ twists o, Measurable u)
    (hfirst : ∀ x, (poses es).head? = some x → n.expl.collision.collisionCheck (mapOf m) x = .ok false)
    (hs : Sensible n.expl.collision (mapOf m))
    (hsr : n.expl.collision.boundary_radius + n.expl.collision.obstacle_threshold ≤ n.expl.collision.search_radius)
    (hb : m.resolution ≤ n.expl.collision.boundary_radius)
    (hp : 3 * m.resolution ≤ n.expl.collision.obstacle_threshold ∨
      2 * m.resolution ≤ n.expl.collision.obstacle_threshold ∧ n.expl.collision.boundary_radius < 22 * m.resolution)
    (hslow : ∀ o ∈ os, ∀ u ∈ twists o, speed u * T ≤ m.resolution)
    (hin : ∀ x ∈ poses es, InRect (mapOf m) x.c0 x.c1) (i j : Int)
    (ho : Occupied n.expl.collision.occupied_threshold (mapOf m) i j)
    (h0 : ∀ x, (poses es).head? = some x → n.expl.collision.boundary_radius + n.expl.collision.obstacle_threshold +
      √2 / 2 * m.resolution < centreDist (mapOf m) i j x.c0 x.c1) :
    ∀ x ∈ poses es, n.expl.collision.boundary_radius - √2 / 2 * m.resolution <
      centreDist (mapOf m) i j x.c0 x.c1 := by
  have hfree := C89_closed_loop_partial hn hv hd hTv hTd ht hdr m hmaps hw hfirst
  have hT : 0 ≤ T := by obtain ⟨k, rfl, -⟩ := hTv; positivity
  obtain ⟨hch, -, -⟩ := driven_chain hT hs.res.le hdr hslow
  intro x hx
  obtain ⟨k, hk, rfl⟩ := List.getElem_of_mem hx
  rw [List.isChain_iff_getElem] at hch
  let ps : Nat → V3 ℝ := fun k => (poses es).getD k ⟨0, 0, 0⟩
  have hps : ∀ k, (h : k < (poses es).length) → ps k = (poses es)[k] := fun k h => by
    simp [ps, List.getD, List.getElem?_eq_getElem h]
  have hin' : ∀ k' ≤ k, InRect (mapOf m) (ps k').c0 (ps k').c1 := fun k' hk' => by
    rw [hps k' (by omega)]; exact hin _ (List.getElem_mem _)
  have hst : ∀ k' < k, |(ps k').c0 - (ps (k' + 1)).c0| ≤ (mapOf m).resolution ∧
      |(ps k').c1 - (ps (k' + 1)).c1| ≤ (mapOf m).resolution ∧
      n.expl.collision.collisionCheck (mapOf m) (ps (k' + 1)) = .ok false := fun k' hk' => by
    rw [hps k' (by omega), hps (k' + 1) (by omega)]
    obtain ⟨a, b⟩ := hch k' (by omega)
    exact ⟨a, b, hfree _ (List.getElem_mem _)⟩
  have h0' : n.expl.collision.boundary_radius + n.expl.collision.obstacle_threshold +
      √2 / 2 * (mapOf m).resolution < centreDist (mapOf m) i j (ps 0).c0 (ps 0).c1 := by
    rw [hps 0 (by omega)]
    exact h0 _ (by rw [List.head?_eq_getElem?, List.getElem?_eq_getElem (by omega)])
  rw [← hps k hk]
  rcases hp with hp | ⟨hp, hp'⟩
  · exact C117_motion _ _ hs i j ho hsr hb hp ps k hin' hst h0'
  · exact C117_two _ _ hs i j ho hsr hb hp' hp ps k hin' hst h0'

/-- C117 for the shipped radii (config/explore_omni.yaml:35-37, config/explore_cart.yaml:29-31) and any map of cells
of at most 10 cm: an obstacle farther away than the padded radius never comes within 0.7 m less half a cell's diagonal,
in steps of at most a cell. -/
theorem C117_shipped (c : Collision ℝ) (hc : c.boundary_radius = 0.7) (hc1 : c.search_radius = 1)
    (hc2 : c.obstacle_threshold = 0.2) (g : GridMap ℝ) (hs : Sensible c g) (hg : g.resolution ≤ 0.1) (i j : Int)
    (ho : Occupied c.occupied_threshold g i j) (ps : Nat → V3 ℝ) (n : Nat)
    (hin : ∀ k ≤ n, InRect g (ps k).c0 (ps k).c1)
    (hstep : ∀ k < n, |(ps k).c0 - (ps (k + 1)).c0| ≤ g.resolution ∧ |(ps k).c1 - (ps (k + 1)).c1| ≤ g.resolution ∧
      c.collisionCheck g (ps (k + 1)) = .ok false)
    (h0 : 0.9 + √2 / 2 * g.resolution < centreDist g i j (ps 0).c0 (ps 0).c1) :
    0.7 - √2 / 2 * g.resolution < centreDist g i j (ps n).c0 (ps n).c1 := by
  have h0' : c.boundary_radius + c.obstacle_threshold + √2 / 2 * g.resolution <
      centreDist g i j (ps 0).c0 (ps 0).c1 := by
    rw [hc, hc2]
    norm_num at h0 ⊢
    exact h0
  rw [← hc]
  rcases le_or_gt (3 * g.resolution) 0.2 with h | h
  · exact C117_motion c g hs i j ho (by rw [hc, hc1, hc2]; norm_num) (by rw [hc]; norm_num at hg ⊢; linarith)
      (by rw [hc2]; exact h) ps n hin hstep h0'
  · exact C117_two c g hs i j ho (by rw [hc, hc1, hc2]; norm_num) (by rw [hc]; norm_num at hg ⊢; linarith)
      (by rw [hc]; norm_num at h ⊢; linarith) (by rw [hc2]; norm_num at hg ⊢; linarith) ps n hin hstep h0'

/-! ## Cases, and a padding that is not enough -/

/-- A map of 20 × 20 unit cells with a pillar in the corner cell. -/
def pillarGrid : GridMap ℝ :=
  { xsize := 20, ysize := 20, resolution := 1, xmin := 0, ymin := 0, xmax := 20, ymax := 20,
    data := 100 :: List.replicate 399 0 }

theorem pillarGrid_wf : WellFormed pillarGrid := by
  refine ⟨by decide, ?_⟩
  change (100 :: List.replicate 399 0 : List Int8).length = 400
  rw [List.length_cons, List.length_replicate]

theorem pillarGrid_occupied (i j : Int) : Occupied (4 / 5 : ℝ) pillarGrid i j ↔ i = 0 ∧ j = 0 := by
  constructor
  · rintro ⟨h1, h2, h3, h4, v, hv, hl⟩
    by_contra hn
    have hi : i < 20 := h2
    have hj : j < 20 := h4
    have hv0 : v = 0 := by
      unfold cellAt at hv
      simp only [pillarGrid] at hv
      rw [show (20 : UInt32).toNat = 20 from rfl] at hv
      obtain ⟨k, hk⟩ : ∃ k, i.toNat * 20 + j.toNat = k + 1 := ⟨i.toNat * 20 + j.toNat - 1, by omega⟩
      rw [hk, List.getElem?_cons_succ, List.getElem?_replicate] at hv
      split at hv
      · exact (Option.some.inj hv).symm
      · cases hv
    subst hv0
    rw [real_lt_false, show ((0 : Int8).toInt) = 0 from rfl] at hl
    norm_num at hl
  · rintro ⟨rfl, rfl⟩
    refine ⟨by norm_num, by decide, by norm_num, by decide, 100, rfl, ?_⟩
    rw [real_lt_false, show ((100 : Int8).toInt) = 100 from by decide]
    norm_num

/-- A check at the centre of cell `(a, b)`. -/
theorem pillar_check (c : Collision ℝ) (hs : Sensible c pillarGrid) (ht : c.occupied_threshold = 4 / 5) (a b : Nat)
    (ha : a < 20) (hb : b < 20) (x y θ : ℝ) (hx : x = a + 1 / 2) (hy : y = b + 1 / 2)
    (h : ∀ r, 1 ≤ r → ⌊c.boundary_radius⌋ ≤ r → r ≤ ⌊c.search_radius⌋ → OnRing r (0 - a) (0 - b) →
      ⌊c.boundary_radius + c.obstacle_threshold⌋ * ⌊c.boundary_radius + c.obstacle_threshold⌋ <
        (0 - (a : Int)) * (0 - a) + (0 - (b : Int)) * (0 - b)) :
    c.collisionCheck pillarGrid ⟨x, y, θ⟩ = .ok false := by
  have ha' : (a : ℝ) ≤ 19 := by exact_mod_cast (show a ≤ 19 by omega)
  have hb' : (b : ℝ) ≤ 19 := by exact_mod_cast (show b ≤ 19 by omega)
  have ha0 : (0 : ℝ) ≤ a := a.cast_nonneg
  have hb0 : (0 : ℝ) ≤ b := b.cast_nonneg
  have hin : InRect pillarGrid x y := by
    simp only [InRect, pillarGrid, show (20 : UInt32).toNat = 20 from rfl]
    norm_num
    refine ⟨by linarith, by linarith, by linarith, by linarith⟩
  obtain ⟨i, j, hc, hr, ⟨-, x1, x2⟩, -, y1, y2⟩ := config_rect c pillarGrid hs ⟨x, y, θ⟩ hin
  simp only [pillarGrid, mul_one, zero_add, show (20 : UInt32).toNat = 20 from rfl] at x1 x2 y1 y2
  have hj : j = a := by
    have h1 : (j : ℝ) < a + 1 := by linarith
    have h2 : (a : ℝ) < j + 1 := by
      rcases x2 with x2 | ⟨-, x2⟩
      · linarith
      · push_cast at x2; linarith
    have h1' : j < a + 1 := by exact_mod_cast h1
    have h2' : a < j + 1 := by exact_mod_cast h2
    omega
  have hi : i = b := by
    have h1 : (i : ℝ) < b + 1 := by linarith
    have h2 : (b : ℝ) < i + 1 := by
      rcases y2 with y2 | ⟨-, y2⟩
      · linarith
      · push_cast at y2; linarith
    have h1' : i < b + 1 := by exact_mod_cast h1
    have h2' : b < i + 1 := by exact_mod_cast h2
    omega
  subst hj; subst hi
  obtain ⟨v, hv⟩ := (C30_no_failure c pillarGrid hs ⟨x, y, θ⟩ hin).1
  cases v with
  | false => exact hv
  | true =>
    exfalso
    rw [C26_exact_partial c pillarGrid pillarGrid_wf _ _ hc hr] at hv
    obtain ⟨k, l, r, ho, h1, h2, h3, hring, h4⟩ := hv
    rw [ht, pillarGrid_occupied] at ho
    obtain ⟨rfl, rfl⟩ := ho
    simp only [show pillarGrid.resolution = 1 from rfl, div_one] at h2 h3 h4 hring
    exact absurd h4 (not_le.mpr (h r h1 h2 h3 hring))

/-- A detector with a padding of three cells. -/
noncomputable def thickDetector : Collision ℝ := ⟨3, 6, 3, 4 / 5⟩

theorem thick_sensible : Sensible thickDetector pillarGrid := by
  refine ⟨pillarGrid_wf, ?_, by decide, by decide, by decide, by decide, ?_, ?_, ?_, ?_, ?_⟩ <;>
    norm_num [thickDetector, pillarGrid]

/-- The hypotheses of `C117_motion` are met: driving one cell away from the pillar. -/
example : ∃ ps : Nat → V3 ℝ, (∀ k ≤ 1, InRect pillarGrid (ps k).c0 (ps k).c1) ∧
    (∀ k < 1, |(ps k).c0 - (ps (k + 1)).c0| ≤ pillarGrid.resolution ∧
      |(ps k).c1 - (ps (k + 1)).c1| ≤ pillarGrid.resolution ∧
      thickDetector.collisionCheck pillarGrid (ps (k + 1)) = .ok false) ∧
    thickDetector.boundary_radius + thickDetector.obstacle_threshold + √2 / 2 * pillarGrid.resolution <
      centreDist pillarGrid 0 0 (ps 0).c0 (ps 0).c1 ∧
    pillarGrid.resolution ≤ thickDetector.boundary_radius ∧
    3 * pillarGrid.resolution ≤ thickDetector.obstacle_threshold ∧
    Occupied thickDetector.occupied_threshold pillarGrid 0 0 ∧
    thickDetector.boundary_radius + thickDetector.obstacle_threshold ≤ thickDetector.search_radius := by
  refine ⟨fun k => ⟨18.5 - k, 18.5, 0⟩, ?_, ?_, ?_, ?_, ?_, (pillarGrid_occupied 0 0).mpr ⟨rfl, rfl⟩, ?_⟩
  · intro k hk
    obtain rfl | rfl : k = 0 ∨ k = 1 := by omega
    all_goals
      simp only [InRect, pillarGrid, show (20 : UInt32).toNat = 20 from rfl]
      norm_num
  · intro k hk
    obtain rfl : k = 0 := by omega
    refine ⟨by norm_num [pillarGrid], by norm_num [pillarGrid], ?_⟩
    refine pillar_check thickDetector thick_sensible rfl 17 18 (by norm_num) (by norm_num) _ _ _
      (by norm_num) (by norm_num) fun r _ _ _ _ => ?_
    norm_num [thickDetector]
  · have : √2 ≤ 2 := by rw [Real.sqrt_le_left (by norm_num)]; norm_num
    have h : (18 : ℝ) ≤ centreDist pillarGrid 0 0 (18.5 - (0 : Nat)) 18.5 := by
      apply Real.le_sqrt_of_sq_le
      norm_num [pillarGrid]
    refine lt_of_lt_of_le ?_ h
    norm_num [thickDetector, pillarGrid]
    linarith
  · norm_num [thickDetector, pillarGrid]
  · norm_num [thickDetector, pillarGrid]
  · norm_num [thickDetector]

/-- A detector with a padding of two cells around a boundary radius of 22. -/
noncomputable def slimDetector : Collision ℝ := ⟨22, 24, 2, 4 / 5⟩

theorem slim_sensible : Sensible slimDetector pillarGrid := by
  refine ⟨pillarGrid_wf, ?_, by decide, by decide, by decide, by decide, ?_, ?_, ?_, ?_, ?_⟩ <;>
    norm_num [slimDetector, pillarGrid]

/-- No circle from 22 to 24 passes through the diagonal cells up to 16. -/
theorem slim_diagonal (a : Int) (h0 : 0 ≤ a) (h1 : a ≤ 16) (r : Int) (hr : 22 ≤ r) : ¬ OnRing r (0 - a) (0 - a) := by
  rintro ⟨h2, h3, -⟩
  rw [max_self, min_self, zero_sub, abs_neg, abs_of_nonneg h0] at h2 h3
  have h4 : 484 ≤ r * r := by nlinarith
  have h5 : a * a ≤ 256 := by nlinarith
  rcases lt_or_ge a 16 with ha | ha
  · have : a * a ≤ 225 := by nlinarith
    omega
  · have : a = 16 := by omega
    subst this
    rcases lt_or_ge r 23 with hr' | hr'
    · have : r = 22 := by omega
      subst this
      omega
    · have : 529 ≤ r * r := by nlinarith
      omega

/-- C117, the padding matters: with two cells around a boundary radius of 22 cells a robot drives diagonally, one
cell at a time, passing every check, from beyond the padding onto the pillar. -/
theorem C117_sharp : ∃ (c : Collision ℝ) (g : GridMap ℝ) (i j : Int) (ps : Nat → V3 ℝ) (n : Nat),
    Sensible c g ∧ Occupied c.occupied_threshold g i j ∧
    c.boundary_radius + c.obstacle_threshold ≤ c.search_radius ∧ g.resolution ≤ c.boundary_radius ∧
    2 * g.resolution ≤ c.obstacle_threshold ∧ (∀ k ≤ n, InRect g (ps k).c0 (ps k).c1) ∧
    (∀ k < n, |(ps k).c0 - (ps (k + 1)).c0| ≤ g.resolution ∧ |(ps k).c1 - (ps (k + 1)).c1| ≤ g.resolution ∧
      c.collisionCheck g (ps (k + 1)) = .ok false) ∧
    c.boundary_radius + c.obstacle_threshold + √2 / 2 * g.resolution < centreDist g i j (ps 0).c0 (ps 0).c1 ∧
    centreDist g i j (ps n).c0 (ps n).c1 = 0 := by
  refine ⟨slimDetector, pillarGrid, 0, 0, fun k => ⟨18.5 - k, 18.5 - k, 0⟩, 18, slim_sensible,
    (pillarGrid_occupied 0 0).mpr ⟨rfl, rfl⟩, ?_, ?_, ?_, ?_, ?_, ?_, ?_⟩
  · norm_num [slimDetector]
  · norm_num [slimDetector, pillarGrid]
  · norm_num [slimDetector, pillarGrid]
  · intro k hk
    have h1 : (k : ℝ) ≤ 18 := by exact_mod_cast hk
    have h2 : (0 : ℝ) ≤ k := k.cast_nonneg
    simp only [InRect, pillarGrid, show (20 : UInt32).toNat = 20 from rfl]
    refine ⟨?_, ?_, ?_, ?_⟩ <;> norm_num <;> linarith
  · intro k hk
    have e1 : |(18.5 - (k : ℝ)) - (18.5 - ((k + 1 : Nat) : ℝ))| ≤ 1 := by
      rw [show (18.5 - (k : ℝ)) - (18.5 - ((k + 1 : Nat) : ℝ)) = 1 by push_cast; ring, abs_one]
    refine ⟨e1, e1, ?_⟩
    have e : ((17 - k : Nat) : ℝ) = 17 - k := by rw [Nat.cast_sub (by omega)]; norm_num
    refine pillar_check slimDetector slim_sensible rfl (17 - k) (17 - k) (by omega) (by omega) _ _ _
      (by rw [e]; push_cast; ring) (by rw [e]; push_cast; ring) fun r _ hr _ hring => ?_
    rcases Nat.eq_zero_or_pos k with rfl | hk0
    · norm_num [slimDetector]
    · refine absurd hring (slim_diagonal _ (by omega) (by omega) r ?_)
      simpa [slimDetector] using hr
  · have h2 : √2 * √2 = 2 := Real.mul_self_sqrt (by norm_num)
    have h3 : √2 ≤ 1.5 := by rw [Real.sqrt_le_left (by norm_num)]; norm_num
    refine lt_of_lt_of_le (b := 25) ?_ ?_
    · norm_num [slimDetector, pillarGrid]
      linarith
    · apply Real.le_sqrt_of_sq_le
      norm_num [pillarGrid]
  · norm_num [centreDist, pillarGrid]

/-! ### Driving along a row of that map -/

/-- The message with that map. -/
def pillarMsg : OccupancyGrid ℝ := ⟨20, 20, 1, 0, 0, 100 :: List.replicate 399 0⟩

theorem pillarMsg_map : mapOf pillarMsg = pillarGrid := by
  simp only [mapOf, pillarMsg, pillarGrid, real_mul, real_add, real_ofInt, show (20 : UInt32).toNat = 20 from rfl]
  norm_num

noncomputable def pillarParams : Params ℝ :=
  { driveParams with boundary_radius := 3, search_radius := 6, obstacle_threshold := 3 }

theorem pillar_sane : Sane pillarParams := by
  constructor <;> simp only [pillarParams, driveParams, sideParams] <;> norm_num

theorem pillar_collision : Collision.new pillarParams.boundary_radius pillarParams.search_radius
    pillarParams.obstacle_threshold pillarParams.occupied_threshold = .ok thickDetector := by
  simp only [pillarParams, driveParams, sideParams, thickDetector, Collision.new]
  norm_num

theorem pillar_starts : ∃ n o, Node.omni pillarParams = .ok (n, o) := by
  refine (C78_starts_omni _ pillar_sane).mpr ⟨by simp [pillarParams, driveParams, sideParams], ?_, ?_, ?_, ?_⟩
  · intro t ht
    simp only [pillarParams, driveParams, sideParams, List.mem_singleton] at ht
    subst ht
    norm_num
  all_goals simp only [pillarParams, driveParams, sideParams]; norm_num

theorem pillar_within {u : V3 ℝ} (h : WithinParams pillarParams u) : |u.c0| ≤ 1 ∧ u.c1 = 0 ∧ u.c2 = 0 :=
  drive_within h

theorem pillar_fits : TargetGridFits (mapOf pillarMsg) 1 := by
  rw [pillarMsg_map]
  have hf : ⌊(20:ℝ) + 1 / 2⌋₊ = 20 := by
    rw [Nat.floor_eq_iff (by norm_num)]; constructor <;> norm_num
  simp only [TargetGridFits, pillarGrid]
  norm_num
  rw [show (41:ℝ)/2 = 20 + 1/2 by norm_num, hf]
  norm_num

/-- a robot heading along the x axis -/
noncomputable def rowTf (x : ℝ) : TransformMsg ℝ := ⟨x, 18.5, 0, 0, 0, 1⟩

theorem row_pose (x : ℝ) (draws : List Nat) :
    (Event.tick (some (rowTf x)) draws).pose? = some ⟨x, 18.5, 0⟩ := by
  show some (⟨x, 18.5, getYaw (0:ℝ) 0 0 1⟩ : V3 ℝ) = _
  rw [midTf_yaw]

theorem row_clear : thickDetector.collisionCheck (mapOf pillarMsg) ⟨10.5, 18.5, 0⟩ = .ok false := by
  rw [pillarMsg_map]
  refine pillar_check thickDetector thick_sensible rfl 10 18 (by norm_num) (by norm_num) _ _ _
    (by norm_num) (by norm_num) fun r _ _ _ _ => ?_
  norm_num [thickDetector]

theorem pillar_run {n : Node ℝ} {o : List (Out ℝ)} (hn : Node.omni pillarParams = .ok (n, o)) (xs : List ℝ)
    (hxs : ∀ x ∈ xs, 10 ≤ x ∧ x ≤ 11) :
    ∃ os t, Trace n.expl (.map pillarMsg :: xs.map fun x => .tick (some (rowTf x)) []) os t ∧
      ∀ o ∈ os, ∀ u ∈ twists o, WithinParams pillarParams u := by
  have split : ∀ (pre post : List (Event ℝ)) (tf : Option (TransformMsg ℝ)) (draws : List Nat),
      (.map pillarMsg :: xs.map fun x => Event.tick (some (rowTf x)) []) = pre ++ .tick tf draws :: post →
      draws = [] ∧ maps pre = [pillarMsg] ∧ ∃ x ∈ xs, tf = some (rowTf x) := by
    intro pre post tf draws h
    cases pre with
    | nil => simp at h
    | cons a pre =>
      simp only [List.cons_append, List.cons.injEq] at h
      obtain ⟨rfl, h⟩ := h
      have hm : Event.tick tf draws ∈ xs.map fun x => Event.tick (some (rowTf x)) [] := by rw [h]; simp
      have hpre : ∀ e ∈ pre, e ∈ xs.map fun x => Event.tick (some (rowTf x)) [] := by
        intro e he; rw [h]; simp [he]
      obtain ⟨x, hx, hxe⟩ := List.mem_map.mp hm
      simp only [Event.tick.injEq] at hxe
      refine ⟨hxe.2.symm, ?_, x, hx, hxe.1.symm⟩
      have : maps pre = [] := by
        unfold maps
        rw [List.filterMap_eq_nil_iff]
        intro e he
        obtain ⟨y, -, rfl⟩ := List.mem_map.mp (hpre e he)
        rfl
      simp only [maps, List.filterMap_cons, Event.map?] at this ⊢
      rw [this]
  have hrec : RecoverableAll pillarParams ⟨0, 0, 0⟩ := by
    simp only [RecoverableAll, Recoverable, pillarParams, driveParams, sideParams]
    norm_num
  have hodo : ∀ v ∈ odoms (.map pillarMsg :: xs.map fun x => Event.tick (some (rowTf x)) []),
      RecoverableAll pillarParams v := by
    intro v hv
    simp only [odoms, List.mem_filterMap, List.mem_cons, List.mem_map] at hv
    obtain ⟨e, rfl | ⟨x, -, rfl⟩, he⟩ := hv <;> simp [Event.odom?] at he
  have hrun := C77_omni_partial pillarParams n o thickDetector
    (.map pillarMsg :: xs.map fun x => .tick (some (rowTf x)) []) pillar_sane pillar_collision hrec hodo hn 1
    (fun u hu => by
      obtain ⟨a, b, -⟩ := pillar_within hu
      unfold speed
      rw [b]
      simpa [Real.sqrt_sq_eq_abs] using a)
    (by
      intro pre tf draws post h
      obtain ⟨rfl, hm, -⟩ := split _ _ _ _ h
      refine ⟨rfl, by simp, fun m hm' => ?_⟩
      rw [hm, List.getLast?_singleton, Option.some.injEq] at hm'
      subst hm'
      exact ⟨pillarMsg_map ▸ thick_sensible, pillar_fits⟩)
    (by
      intro pre tf draws post m x h hm' hx
      obtain ⟨rfl, hm, y, hy, rfl⟩ := split _ _ _ _ h
      rw [hm, List.getLast?_singleton, Option.some.injEq] at hm'
      subst hm'
      rw [poses_snoc, row_pose] at hx
      simp only [Option.toList_some, List.getLast?_append, List.getLast?_singleton, Option.some_or,
        Option.some.injEq] at hx
      subst hx
      obtain ⟨h1, h2⟩ := hxs y hy
      rw [pillarMsg_map]
      simp only [Room, pillarGrid, pillarParams, driveParams, sideParams]
      norm_num
      constructor <;> linarith)
  obtain ⟨n', out, hrun⟩ := hrun
  have hlim : LimitsOk pillarParams := by
    simp [LimitsOk, WithinParams, pillarParams, driveParams, sideParams]
  have hin := C70_omni_partial pillarParams n n' o out _ hlim hrec hodo hn hrun
  obtain ⟨_, _, _, _, _, _, _, -, -, -, hup⟩ := omni_ok hn
  have hup' : n.up = true := by
    rw [hup]
    have : Flt.lt pillarParams.ec_horizon pillarParams.dwa_horizon = false := by
      rw [real_lt_false]
      simp only [pillarParams, driveParams, sideParams]
      norm_num
    rw [this]
    rfl
  have h1 := (node_run_up n n' hup' _ out hrun).1
  rw [run_iff_trace] at h1
  obtain ⟨os, ht, rfl⟩ := h1
  refine ⟨os, _, ht, fun o' ho' u hu => hin u ?_⟩
  simp only [twists, List.mem_filterMap, List.mem_flatten] at hu ⊢
  obtain ⟨x, hx, hux⟩ := hu
  exact ⟨x, ⟨o', ho', hx⟩, hux⟩

/-- The hypotheses of `C117_closed_loop` are met by a history with a map and two iterations, of which
the first publishes a twist and the second finds the robot where that twist took it. -/
example : ∃ (n : Node ℝ) (o0 : List (Out ℝ)) (es : List (Event ℝ)) (os : List (List (Out ℝ))) (t : Expl ℝ)
    (l : Option (V3 ℝ × List (V3 ℝ))), Node.omni pillarParams = .ok (n, o0) ∧
    Instant 0.1 pillarParams.val_dt pillarParams.val_horizon ∧
    Instant 0.1 pillarParams.dwa_dt pillarParams.dwa_horizon ∧ Trace n.expl es os t ∧ Driven 0.1 es os l ∧
    (∀ m' ∈ maps es, m' = pillarMsg) ∧ (∀ o ∈ os, ∀ u ∈ twists o, Measurable u) ∧
    (∀ x, (poses es).head? = some x → n.expl.collision.collisionCheck (mapOf pillarMsg) x = .ok false) ∧
    Sensible n.expl.collision (mapOf pillarMsg) ∧
    n.expl.collision.boundary_radius + n.expl.collision.obstacle_threshold ≤ n.expl.collision.search_radius ∧
    pillarMsg.resolution ≤ n.expl.collision.boundary_radius ∧
    3 * pillarMsg.resolution ≤ n.expl.collision.obstacle_threshold ∧
    (∀ o ∈ os, ∀ u ∈ twists o, speed u * 0.1 ≤ pillarMsg.resolution) ∧
    (∀ x ∈ poses es, InRect (mapOf pillarMsg) x.c0 x.c1) ∧
    Occupied n.expl.collision.occupied_threshold (mapOf pillarMsg) 0 0 ∧
    (∀ x, (poses es).head? = some x → n.expl.collision.boundary_radius + n.expl.collision.obstacle_threshold +
      √2 / 2 * pillarMsg.resolution < centreDist (mapOf pillarMsg) 0 0 x.c0 x.c1) ∧
    (poses es).length = 2 ∧ twists os.flatten ≠ [] := by
  obtain ⟨n, o0, hn⟩ := pillar_starts
  obtain ⟨os1, t1, ht1, hin1⟩ := pillar_run hn [10.5] (by intro x hx; simp at hx; subst hx; norm_num)
  obtain ⟨_, _, _, target, collision, ec, dwa, -, -, he, -⟩ := omni_ok hn
  have hst : n.expl = (Expl.start ec collision dwa target pillarParams.map_frame_id pillarParams.val_dt
      pillarParams.val_horizon).1 := by rw [← he]
  have hcoll : n.expl.collision = thickDetector := by
    obtain ⟨_, _, _, _, collision, _, _, ⟨-, -, -, -, hc⟩, -, -, he, -⟩ := omni_parts hn
    rw [pillar_collision, Res.ok.injEq] at hc
    have h1 := congrArg (fun r => r.1.collision) he
    rw [hc]
    exact h1
  -- the first iteration
  obtain ⟨osa, o1, ta, rfl, hta, hs1⟩ := Trace.unsnoc (es := [.map pillarMsg])
    (e := .tick (some (rowTf 10.5)) []) ht1
  obtain ⟨osb, oa, tb, rfl, htb, hsa⟩ := Trace.unsnoc (es := []) (e := .map pillarMsg) hta
  have hosb : osb = [] := (Trace.det htb .nil).1
  subst hosb
  have hone : (twists o1).length = 1 := by
    rw [hst] at hta
    rw [C67_one_per_iteration hta hs1, if_pos]
    refine ⟨rfl, by simp [maps, Event.map?], ?_⟩
    rw [poses_snoc, row_pose]
    simp
  obtain ⟨u, hu⟩ := List.length_eq_one_iff.mp hone
  obtain ⟨hu0, hu1, hu2⟩ := pillar_within (hin1 o1 (by simp) u (by rw [hu]; simp))
  have hu0 := abs_le.mp hu0
  -- the second
  obtain ⟨os2, t2, ht2, hin2⟩ := pillar_run hn [10.5, 10.5 + 0.1 * u.c0] (by
    intro x hx
    simp only [List.mem_cons, List.not_mem_nil, or_false] at hx
    rcases hx with rfl | rfl <;> norm_num
    constructor <;> linarith)
  obtain ⟨osc, o2, tc, rfl, htc, hs2⟩ := Trace.unsnoc
    (es := [.map pillarMsg] ++ [.tick (some (rowTf 10.5)) []])
    (e := .tick (some (rowTf (10.5 + 0.1 * u.c0))) []) ht2
  obtain ⟨rfl, -⟩ := Trace.det htc ht1
  have hfirst : Driven 0.1 ([] ++ [.map pillarMsg] ++ [.tick (some (rowTf 10.5)) []]) ([] ++ [oa] ++ [o1])
      (some (⟨10.5, 18.5, 0⟩, twists o1)) :=
    .first (.callback .nil rfl) (row_pose _ _)
  refine ⟨n, o0, _, _, t2, _, hn, ⟨0, ?_, ?_⟩, ⟨0, ?_, ?_⟩, ht2, .next hfirst (row_pose _ _) ?_, ?_, ?_, ?_,
    ?_, ?_, ?_, ?_, ?_, ?_, ?_, ?_, ?_, ?_⟩
  · simp only [pillarParams, driveParams, sideParams]; norm_num
  · simp only [pillarParams, driveParams, sideParams]; norm_num
  · simp only [pillarParams, driveParams, sideParams]; norm_num
  · simp only [pillarParams, driveParams, sideParams]; norm_num
  · rw [hu]
    refine ⟨by simp, ?_⟩
    intro v hv
    rw [List.mem_singleton] at hv
    subst hv
    simp only [flow, hu1, hu2, if_true]
    refine ⟨by simp; ring, by simp, 0, by simp⟩
  · simp [maps, Event.map?]
  · intro o ho v hv
    exact .inl (pillar_within (hin2 o ho v hv)).2.2
  · intro x hx
    have hp : (poses (.map pillarMsg :: [10.5, 10.5 + 0.1 * u.c0].map fun x =>
        Event.tick (some (rowTf x)) [])).head? = some ⟨10.5, 18.5, 0⟩ := row_pose 10.5 []
    rw [hp, Option.some.injEq] at hx
    rw [hcoll, ← hx]
    exact row_clear
  · rw [hcoll, pillarMsg_map]; exact thick_sensible
  · rw [hcoll]; norm_num [thickDetector]
  · rw [hcoll, show pillarMsg.resolution = 1 from rfl]; norm_num [thickDetector]
  · rw [hcoll, show pillarMsg.resolution = 1 from rfl]; norm_num [thickDetector]
  · intro o ho v hv
    obtain ⟨a, b, -⟩ := pillar_within (hin2 o ho v hv)
    have : speed v ≤ 1 := by
      unfold speed
      rw [b]
      simpa [Real.sqrt_sq_eq_abs] using a
    rw [show pillarMsg.resolution = 1 from rfl]
    linarith
  · intro x hx
    have hp : poses (.map pillarMsg :: [10.5, 10.5 + 0.1 * u.c0].map fun x => Event.tick (some (rowTf x)) []) =
        [⟨10.5, 18.5, 0⟩, ⟨10.5 + 0.1 * u.c0, 18.5, 0⟩] := by
      change ((Event.tick (some (rowTf 10.5)) []).pose?.toList ++
        (Event.tick (some (rowTf (10.5 + 0.1 * u.c0))) []).pose?.toList) = _
      rw [row_pose, row_pose]
      rfl
    have hx' : x ∈ [(⟨10.5, 18.5, 0⟩ : V3 ℝ), ⟨10.5 + 0.1 * u.c0, 18.5, 0⟩] := hp ▸ hx
    rw [pillarMsg_map]
    simp only [InRect, pillarGrid, show (20 : UInt32).toNat = 20 from rfl]
    simp only [List.mem_cons, List.not_mem_nil, or_false] at hx'
    rcases hx' with rfl | rfl
    · norm_num
    · refine ⟨?_, ?_, ?_, ?_⟩ <;> norm_num <;> linarith
  · rw [hcoll, pillarMsg_map]; exact (pillarGrid_occupied 0 0).mpr ⟨rfl, rfl⟩
  · intro x hx
    have hp : (poses (.map pillarMsg :: [10.5, 10.5 + 0.1 * u.c0].map fun x =>
        Event.tick (some (rowTf x)) [])).head? = some ⟨10.5, 18.5, 0⟩ := row_pose 10.5 []
    rw [hp, Option.some.injEq] at hx
    rw [hcoll, ← hx, pillarMsg_map, show pillarMsg.resolution = 1 from rfl]
    have h3 : √2 ≤ 2 := by rw [Real.sqrt_le_left (by norm_num)]; norm_num
    refine lt_of_lt_of_le (b := 10) ?_ ?_
    · norm_num [thickDetector]
      linarith
    · apply Real.le_sqrt_of_sq_le
      norm_num [pillarGrid]
  · rfl
  · intro h
    have : u ∈ twists ([oa] ++ [o1] ++ [o2]).flatten := by
      simp only [List.flatten_append, List.flatten_singleton, twists_append, List.mem_append]
      left; right
      rw [hu]; simp
    simp only [List.nil_append] at h
    rw [h] at this
    simp at this

end Ergodic
