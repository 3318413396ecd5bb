import Verif.Props.Collision
import Verif.Props.RoundedCounts

/-!
# Property C87: collision checks with rounding

C25, C26 and C30 in metres are about exact arithmetic.  With rounding the robot may be attributed to
the neighbouring cell when it is at the border of two cells, and the radii may lose a cell (C81).
-/

namespace Ergodic
variable {M : Machine}

/-- The collision detector and the map hold finite numbers: cells of side `r` from `(ax, ay)`, boundary
radius `b`, search radius `s`, obstacle threshold `o`, sensible as in `Sensible`. -/
structure SensibleRd (c : Collision (RDbl M)) (g : GridMap (RDbl M)) (ax ay r b s o : ℝ) : Prop where
  wf : WellFormed g
  placed : Placed g ax ay r
  normal : minNormal ≤ r
  x0 : g.xsize ≠ 0
  y0 : g.ysize ≠ 0
  xsize : g.xsize.toNat ≤ 2 ^ 30
  ysize : g.ysize.toNat ≤ 2 ^ 30
  bnd : c.boundary_radius = .fin b
  search : c.search_radius = .fin s
  obs : c.obstacle_threshold = .fin o
  bnd0 : 0 ≤ b
  obs0 : 0 ≤ o
  order : b ≤ s
  search1 : s ≤ 32767 * r
  col1 : b + o ≤ 32767 * r

/-- The point lies in the map. -/
def InMap (g : GridMap (RDbl M)) (ax ay r x y : ℝ) : Prop :=
  ax ≤ x ∧ x ≤ ax + g.xsize.toNat * r ∧ ay ≤ y ∧ y ≤ ay + g.ysize.toNat * r

/-- A length `x` in cells of side `r`. -/
noncomputable def cellsRd (M : Machine) (x r : ℝ) : ℤ := ⌊M.rnd (x / r)⌋

theorem cells_rd {x r : ℝ} (hr : 0 < r) (h0 : 0 ≤ x) (h1 : x ≤ 32768 * r) :
    castI32 (Flt.floor ((.fin x : RDbl M) /. .fin r)) = .ok (cellsRd M x r) ∧ 0 ≤ cellsRd M x r ∧
      cellsRd M x r ≤ 32768 ∧ cellsRd M x r * r ≤ x + r / 2 ^ 36 ∧ x < (cellsRd M x r + 1) * r := by
  have q0 : 0 ≤ x / r := div_nonneg h0 hr.le
  have q1 : x / r ≤ 32768 := by rw [div_le_iff₀ hr]; exact h1
  have r0 := M.rnd_nonneg q0
  have f0 := Int.floor_nonneg.mpr r0
  have f1 : ⌊M.rnd (x / r)⌋ ≤ 32768 := by
    have := M.rnd_le_int (n := 32768) (by norm_num) (by exact_mod_cast q1)
    have h2 := (Int.floor_le (M.rnd (x / r))).trans this
    exact_mod_cast h2
  have e := (M.err' (show minNormal ≤ 32768 from minNormal_le_one.trans (by norm_num))
    (x := x / r) (by rw [abs_of_nonneg q0]; exact q1)).2
  refine ⟨?_, f0, f1, ?_, ?_⟩
  · unfold castI32 cellsRd
    rw [RDbl.div_fin _ hr.ne', RDbl.floor_fin, RDbl.trunc_fin, realTrunc_intCast]
    dsimp only
    rw [if_pos (by omega)]
  · have h2 := (Int.floor_le (M.rnd (x / r))).trans e
    have h3 : (⌊M.rnd (x / r)⌋ - 1 / 2 ^ 37 : ℝ) ≤ x / r := by norm_num at h2 ⊢; linarith
    rw [le_div_iff₀ hr] at h3
    unfold cellsRd
    norm_num at h3 ⊢
    nlinarith
  · by_contra hc
    push Not at hc
    rw [← le_div_iff₀ hr] at hc
    have h2 : ((⌊M.rnd (x / r)⌋ + 1 : ℤ) : ℝ) ≤ x / r := by push_cast; exact hc
    have h3 := M.int_le_rnd (by rw [abs_le]; omega) h2
    have h4 := Int.lt_floor_add_one (M.rnd (x / r))
    push_cast at h3
    linarith

/-- A whole number of cells that fits is counted. -/
theorem le_cells_rd {x r : ℝ} {d : ℤ} (hr : 0 < r) (hd : |d| ≤ 2 ^ 53) (h : d * r ≤ x) :
    d ≤ cellsRd M x r := by
  unfold cellsRd
  rw [Int.le_floor]
  exact M.int_le_rnd hd (by rw [le_div_iff₀ hr]; exact h)

theorem cells_le_rd {x r : ℝ} {d : ℤ} (hr : 0 < r) (hd : |d| ≤ 2 ^ 53) (h : x ≤ d * r) :
    cellsRd M x r ≤ d := by
  unfold cellsRd
  have := M.rnd_le_int hd (show x / r ≤ d by rw [div_le_iff₀ hr]; exact h)
  have h2 := (Int.floor_le (M.rnd (x / r))).trans this
  exact_mod_cast h2

/-- The configuration of a search. -/
theorem config_rd {c : Collision (RDbl M)} {g : GridMap (RDbl M)} {ax ay r b s o x y : ℝ}
    (hs : SensibleRd c g ax ay r b s o) (hp : InMap g ax ay r x y) (th : RDbl M) :
    ∃ i j : UInt32, IsCell g i j ∧ InEnlargedCell ax ay r i j (r / 2 ^ 17) x y ∧
      ∃ cfg : CollisionConfig, c.config g ⟨.fin x, .fin y, th⟩ = .ok cfg ∧ InRange g cfg ∧
        cfg.cx = j.toNat ∧ cfg.cy = i.toNat ∧ cfg.r_bnd = cellsRd M b r ∧
        cfg.r_col = cellsRd M (M.rnd (b + o)) r ∧ cfg.r_max = cellsRd M s r := by
  have hr := hs.placed.positive
  obtain ⟨i, j, hw, hcell, hin⟩ := C80_located g ax ay r hs.placed hs.normal hs.x0 hs.y0 x y hp.1 hp.2.1
    hp.2.2.1 hp.2.2.2
  have hx := hs.xsize
  have hy := hs.ysize
  have hi : i.toNat ≤ 2 ^ 30 := by have := hcell.1; omega
  have hj : j.toNat ≤ 2 ^ 30 := by have := hcell.2; omega
  have hs1 := hs.search1
  have hc1 := hs.col1
  have hb0 := hs.bnd0
  have ho0 := hs.obs0
  have hor := hs.order
  have hbo : M.rnd (b + o) ≤ 32768 * r := by
    have := (M.err' (show minNormal ≤ 32767 * r by linarith [hs.normal]) (x := b + o) (by
      rw [abs_of_nonneg (by linarith)]; exact hc1)).2
    norm_num at this
    linarith
  obtain ⟨e1, -, -⟩ := cells_rd (M := M) hr hb0 (by linarith)
  obtain ⟨e2, -, -⟩ := cells_rd (M := M) hr (M.rnd_nonneg (by linarith : 0 ≤ b + o)) hbo
  obtain ⟨e3, -, -⟩ := cells_rd (M := M) hr (hb0.trans hor) (by linarith)
  refine ⟨i, j, hcell, hin,
    { r_bnd := cellsRd M b r, r_col := cellsRd M (M.rnd (b + o)) r, r_max := cellsRd M s r,
      cx := j.toNat, cy := i.toNat }, ?_, ?_, rfl, rfl, rfl, rfl, rfl⟩
  · unfold Collision.config
    rw [hw, hs.bnd, hs.search, hs.obs, hs.placed.resolution, RDbl.add_fin]
    rw [Res.ok_bind, e1, Res.ok_bind, e2, Res.ok_bind, e3, Res.ok_bind, u2i_small (by dsimp only; omega),
      u2i_small (by dsimp only; omega)]
  · refine ⟨by simp, by simp, by simp only; omega, by simp only; omega, uint32_pos_iff.mp hs.x0,
      uint32_pos_iff.mp hs.y0, hx, hy, ?_⟩
    exact cells_le_rd hr (by norm_num) (by exact_mod_cast hs1)

/-- C87, no failure: with any rounding to nearest, for every pose in the map none of the three queries
throws, runs forever or has undefined behaviour. -/
theorem C87_no_failure {c : Collision (RDbl M)} {g : GridMap (RDbl M)} {ax ay r b s o x y : ℝ}
    (hs : SensibleRd c g ax ay r b s o) (hp : InMap g ax ay r x y) (th : RDbl M) :
    (∃ v, c.collisionCheck g ⟨.fin x, .fin y, th⟩ = .ok v) ∧
    (∃ v, c.minDistance g ⟨.fin x, .fin y, th⟩ = .ok v) ∧
    (∃ v, c.minDirection g ⟨.fin x, .fin y, th⟩ = .ok v) := by
  obtain ⟨i, j, -, -, cfg, hcfg, hr, -⟩ := config_rd hs hp th
  exact C30_no_failure_any c g hs.wf _ cfg hcfg hr

/-- C87, soundness: with any rounding to nearest, a reported collision comes with an occupied cell whose
centre is within boundary radius plus obstacle threshold, and `2^-30` of a cell, of the centre of the
cell the robot is in; the robot is at most `2^-17` of a cell outside that cell. -/
theorem C87_sound {c : Collision (RDbl M)} {g : GridMap (RDbl M)} {ax ay r b s o x y : ℝ}
    (hs : SensibleRd c g ax ay r b s o) (hp : InMap g ax ay r x y) (th : RDbl M)
    (h : c.collisionCheck g ⟨.fin x, .fin y, th⟩ = .ok true) :
    ∃ (i j : UInt32) (k l : Int), IsCell g i j ∧ InEnlargedCell ax ay r i j (r / 2 ^ 17) x y ∧
      Occupied c.occupied_threshold g k l ∧
      ((k : ℝ) * r - i.toNat * r) ^ 2 + ((l : ℝ) * r - j.toNat * r) ^ 2 ≤ (b + o + r / 2 ^ 30) ^ 2 := by
  obtain ⟨i, j, hcell, hin, cfg, hcfg, hr, ex, ey, -, ec, -⟩ := config_rd hs hp th
  obtain ⟨k, l, ho, hd⟩ := C25_sound c g hs.wf _ cfg hcfg hr h
  refine ⟨i, j, k, l, hcell, hin, ho, ?_⟩
  rw [ex, ey, ec] at hd
  have hr0 := hs.placed.positive
  have hb0 := hs.bnd0
  have ho0 := hs.obs0
  have er := (M.err' (show minNormal ≤ 32767 * r by linarith [hs.normal]) (x := b + o) (by
      rw [abs_of_nonneg (by linarith)]; exact hs.col1)).2
  have hc1 := hs.col1
  obtain ⟨-, c0, -, c1, -⟩ := cells_rd (M := M) hr0 (M.rnd_nonneg (by linarith : 0 ≤ b + o)) (by
    norm_num at er; linarith)
  have hd' : ((l : ℝ) - j.toNat) * (l - j.toNat) + ((k : ℝ) - i.toNat) * (k - i.toNat) ≤
      (cellsRd M (M.rnd (b + o)) r : ℝ) * cellsRd M (M.rnd (b + o)) r := by exact_mod_cast hd
  have c0' : (0 : ℝ) ≤ cellsRd M (M.rnd (b + o)) r := by exact_mod_cast c0
  have c2 : cellsRd M (M.rnd (b + o)) r * r ≤ b + o + r / 2 ^ 30 := by
    norm_num at er c1 ⊢; linarith
  calc _ = (((l : ℝ) - j.toNat) * (l - j.toNat) + ((k : ℝ) - i.toNat) * (k - i.toNat)) * r ^ 2 := by ring
    _ ≤ (cellsRd M (M.rnd (b + o)) r : ℝ) * cellsRd M (M.rnd (b + o)) r * r ^ 2 := by gcongr
    _ = (cellsRd M (M.rnd (b + o)) r * r) ^ 2 := by ring
    _ ≤ _ := by
      have : 0 ≤ cellsRd M (M.rnd (b + o)) r * r := by positivity
      gcongr

/-- `C87` full statement: with lengths given as decimal numbers, an occupied cell straight ahead of the
robot cell at a distance between the boundary radius and the boundary radius plus the obstacle
threshold is reported. -/
def C87_statement : Prop :=
  ∀ (b s o t r : Int) (e : Nat) (g : GridMap (RDbl ieee)) (ax ay x y : ℝ) (th : RDbl ieee)
    (i j : UInt32) (d : Int),
    SensibleRd ⟨lit b e, lit s e, lit o e, lit t e⟩ g ax ay (ieee.rnd (r / 10 ^ e))
      (ieee.rnd (b / 10 ^ e)) (ieee.rnd (s / 10 ^ e)) (ieee.rnd (o / 10 ^ e)) →
    InMap g ax ay (ieee.rnd (r / 10 ^ e)) x y → g.world2Grid (.fin x) (.fin y) = .ok (i, j) →
    b ≤ d * r → d * r ≤ b + o → d * r ≤ s → 1 ≤ d →
    Occupied (lit t e : RDbl ieee) g i.toNat (j.toNat + d) →
    Collision.collisionCheck ⟨lit b e, lit s e, lit o e, lit t e⟩ g ⟨.fin x, .fin y, th⟩ = .ok true

/-- C87 (missing: cells exactly at the limit, and cells off the axes): with any rounding to nearest, an
occupied cell straight ahead, behind, left or right of the robot cell is reported when the distance of the
centres is not below the boundary radius, within the search radius, and below boundary radius plus obstacle
threshold by `2^-30` of a cell. -/
theorem C87_axis_partial {c : Collision (RDbl M)} {g : GridMap (RDbl M)} {ax ay r b s o x y : ℝ}
    (hs : SensibleRd c g ax ay r b s o) (hp : InMap g ax ay r x y) (th : RDbl M) (i j : UInt32)
    (hc : g.world2Grid (.fin x) (.fin y) = .ok (i, j)) (d : Int) (hd1 : 1 ≤ d) (hb : b ≤ d * r)
    (hs' : d * r ≤ s) (ho : d * r + r / 2 ^ 30 ≤ b + o)
    (hocc : Occupied c.occupied_threshold g i.toNat (j.toNat + d) ∨
      Occupied c.occupied_threshold g i.toNat (j.toNat - d) ∨
      Occupied c.occupied_threshold g (i.toNat + d) j.toNat ∨
      Occupied c.occupied_threshold g (i.toNat - d) j.toNat) :
    c.collisionCheck g ⟨.fin x, .fin y, th⟩ = .ok true := by
  obtain ⟨i', j', -, -, cfg, hcfg, hr, ex, ey, eb, ec, em⟩ := config_rd hs hp th
  have hr0 := hs.placed.positive
  have hb0 := hs.bnd0
  have ho0 := hs.obs0
  have hcell : u2i j = cfg.cx ∧ u2i i = cfg.cy := by
    unfold Collision.config at hcfg
    rw [hc, Res.ok_bind] at hcfg
    obtain ⟨rb, -, hcfg⟩ := Res.bind_eq_ok.mp hcfg
    obtain ⟨rc, -, hcfg⟩ := Res.bind_eq_ok.mp hcfg
    obtain ⟨rm, -, hcfg⟩ := Res.bind_eq_ok.mp hcfg
    simp only [Res.ok.injEq] at hcfg
    subst hcfg
    exact ⟨rfl, rfl⟩
  have small : ∀ u : UInt32, 0 ≤ u2i u → u2i u = u.toNat := by
    intro u hu
    have := uint32_lt u
    unfold u2i at hu ⊢
    split
    · rfl
    · next h => rw [if_neg h] at hu; omega
  rw [small j (by rw [hcell.1]; exact hr.cx0), small i (by rw [hcell.2]; exact hr.cy0)] at hcell
  have hd2 : d ≤ 32767 := by
    have := hs'.trans hs.search1
    have := le_of_mul_le_mul_right this hr0
    exact_mod_cast this
  have er := (M.err' (show minNormal ≤ 32767 * r by linarith [hs.normal]) (x := b + o) (by
      rw [abs_of_nonneg (by linarith)]; exact hs.col1)).1
  rw [hcell.1, hcell.2] at hocc
  refine C26_axis_partial c g hs.wf _ cfg hcfg hr d hd1 ?_ ?_ ?_ hocc
  · rw [eb]; exact cells_le_rd hr0 (by rw [abs_le]; omega) hb
  · rw [em]; exact le_cells_rd hr0 (by rw [abs_le]; omega) hs'
  · rw [ec]
    refine le_cells_rd hr0 (by rw [abs_le]; omega) ?_
    norm_num at er ho
    linarith

/-- C87, the threshold: for a threshold of `m` percent, a stored value `v` is an obstacle exactly when it is at
least `m`, with any rounding to nearest. -/
theorem C87_threshold (m v : Int) (hm : |m| ≤ 1000) (hv : |v| ≤ 1000) :
    Flt.lt (Flt.ofInt v /. lit 100 0 : RDbl M) (lit m 2) = false ↔ m ≤ v := by
  have h100 : (lit 100 0 : RDbl M) = .fin 100 := by
    rw [RDbl.lit_fin]
    have := M.int 100 (by norm_num)
    push_cast at this ⊢
    rw [pow_zero, div_one, this]
  rw [h100, RDbl.ofInt_fin, M.int v (by omega), RDbl.div_fin _ (by norm_num), RDbl.lit_fin,
    RDbl.lt_fin_false]
  norm_num
  constructor
  · intro h
    by_contra hc
    push Not at hc
    have hc' : (v : ℝ) + 1 ≤ m := by exact_mod_cast hc
    have bm : |(m : ℝ)| ≤ 1000 := by exact_mod_cast hm
    have bv : |(v : ℝ)| ≤ 1000 := by exact_mod_cast hv
    rw [abs_le] at bm bv
    have h10 : minNormal ≤ 10 := minNormal_le_one.trans (by norm_num)
    have e1 := (M.err' h10 (x := (v : ℝ) / 100) (by rw [abs_le]; constructor <;> linarith)).2
    have e2 := (M.err' h10 (x := (m : ℝ) / 100) (by rw [abs_le]; constructor <;> linarith)).1
    norm_num at e1 e2
    linarith
  · intro h
    have : (m : ℝ) ≤ v := by exact_mod_cast h
    exact M.mono (by linarith)

/-! ## the counterexample -/

/-- A corridor of ten cells of side `r`, the last one occupied. -/
def corridor (M : Machine) (r : ℝ) : GridMap (RDbl M) :=
  { xsize := 10, ysize := 1, resolution := .fin r, xmin := .fin 0, ymin := .fin 0,
    xmax := .nan, ymax := .nan, data := List.replicate 9 0 ++ [100] }

theorem corridor_wf (r : ℝ) : WellFormed (corridor M r) := by
  constructor <;> simp [corridor, Fits, numCells]

theorem corridor_occupied {r : ℝ} {t : Int} (h0 : 1 ≤ t) (h1 : t ≤ 10) (i j : Int) :
    Occupied (lit t 1 : RDbl M) (corridor M r) i j ↔ i = 0 ∧ j = 9 := by
  have ht : (lit t 1 : RDbl M) = lit (10 * t) 2 := by
    rw [RDbl.lit_fin, RDbl.lit_fin]
    congr 2
    push_cast
    ring
  rw [ht]
  constructor
  · rintro ⟨h1, h2, h3, h4, v, hv, hlt⟩
    have h2' : i < 1 := h2
    have h4' : j < 10 := h4
    obtain rfl : i = 0 := by omega
    refine ⟨rfl, ?_⟩
    by_contra hc
    have hv0 : v = 0 := by
      have hj : j.toNat < 9 := by omega
      have : (corridor M r).data[j.toNat]? = some 0 := by
        unfold corridor
        rw [List.getElem?_append_left (by simpa using hj), List.getElem?_replicate, if_pos hj]
      unfold cellAt at hv
      rw [show (0 : Int).toNat * (corridor M r).xsize.toNat + j.toNat = j.toNat by simp, this] at hv
      simpa using hv.symm
    subst hv0
    rw [C87_threshold _ _ (by rw [abs_le]; omega) (by decide)] at hlt
    rw [show ((0 : Int8).toInt) = 0 from by decide] at hlt
    omega
  · rintro ⟨rfl, rfl⟩
    refine ⟨by norm_num, by simp [corridor], by norm_num, by simp [corridor], 100, rfl, ?_⟩
    rw [C87_threshold _ _ (by rw [abs_le]; omega) (by decide), show ((100 : Int8).toInt) = 100 from by decide]
    omega

theorem ieee_tenth' : ieee.rnd (((1 : Int) : ℝ) / 10 ^ 1) = 3602879701896397 / 2 ^ 55 := by
  rw [← ieee_tenth]; norm_num

/-- The shipped boundary radius and obstacle threshold add up to
`0.8999999999999999`: eight cells of 0.1 with binary64 rounding. -/
theorem nine_tenths : cellsRd ieee (ieee.rnd (ieee.rnd (((7 : Int) : ℝ) / 10 ^ 1) +
    ieee.rnd (((2 : Int) : ℝ) / 10 ^ 1))) (ieee.rnd (((1 : Int) : ℝ) / 10 ^ 1)) = 8 := by
  have e1 : ieee.rnd (((7 : Int) : ℝ) / 10 ^ 1) = 3152519739159347 / 2 ^ 52 := by
    show Ieee.rnd _ = _
    rw [Ieee.rnd_eq 6305039478318694 (-53) (by norm_num) (by norm_num [abs_of_pos])
      (by norm_num [abs_of_pos]) (by rw [abs_lt]; constructor <;> norm_num)]
    norm_num
  have e2 : ieee.rnd (((2 : Int) : ℝ) / 10 ^ 1) = 3602879701896397 / 2 ^ 54 := by
    show Ieee.rnd _ = _
    rw [Ieee.rnd_eq 7205759403792794 (-55) (by norm_num) (by norm_num [abs_of_pos])
      (by norm_num [abs_of_pos]) (by rw [abs_lt]; constructor <;> norm_num)]
    norm_num
  have e3 : ieee.rnd (3152519739159347 / 2 ^ 52 + 3602879701896397 / 2 ^ 54) =
      2026619832316723 / 2 ^ 51 := by
    show Ieee.rnd _ = _
    rw [Ieee.rnd_tie 8106479329266892 (-53) (by decide) (by norm_num) (by norm_num [abs_of_pos])
      (by norm_num [abs_of_pos]) (by norm_num)]
    norm_num
  have e4 : ieee.rnd (2026619832316723 / 2 ^ 51 / (3602879701896397 / 2 ^ 55)) =
      5066549580791807 / 2 ^ 49 := by
    show Ieee.rnd _ = _
    rw [Ieee.rnd_eq 5066549580791807 (-49) (by norm_num) (by norm_num [abs_of_pos])
      (by norm_num [abs_of_pos]) (by rw [abs_lt]; constructor <;> norm_num)]
    norm_num
  unfold cellsRd
  rw [e1, e2, e3, ieee_tenth', e4, Int.floor_eq_iff]
  norm_num

theorem minNormal_le_small : minNormal ≤ 1 / 100 := by
  unfold minNormal
  have := tiny_le 60 (by norm_num)
  calc _ ≤ 2 ^ 53 * (1 / 2 ^ 60 : ℝ) := mul_le_mul_of_nonneg_left this (by positivity)
    _ ≤ _ := by norm_num

/-- The shipped detector in the corridor, with any rounding to nearest. -/
theorem corridor_sensible : SensibleRd (⟨lit 7 1, lit 10 1, lit 2 1, lit 8 1⟩ : Collision (RDbl M))
    (corridor M (M.rnd (((1 : Int) : ℝ) / 10 ^ 1))) 0 0 (M.rnd (((1 : Int) : ℝ) / 10 ^ 1))
    (M.rnd (((7 : Int) : ℝ) / 10 ^ 1)) (M.rnd (((10 : Int) : ℝ) / 10 ^ 1))
    (M.rnd (((2 : Int) : ℝ) / 10 ^ 1)) := by
  have h1 : minNormal ≤ 1 := minNormal_le_one
  have e1 := M.err' h1 (x := ((1 : Int) : ℝ) / 10 ^ 1) (by norm_num [abs_of_pos])
  have e7 := M.err' h1 (x := ((7 : Int) : ℝ) / 10 ^ 1) (by norm_num [abs_of_pos])
  have e2 := M.err' h1 (x := ((2 : Int) : ℝ) / 10 ^ 1) (by norm_num [abs_of_pos])
  have hs := minNormal_le_small
  refine ⟨corridor_wf _, ⟨rfl, rfl, rfl, ?_⟩, ?_, show (10 : UInt32) ≠ 0 by decide,
    show (1 : UInt32) ≠ 0 by decide, by simp [corridor], by simp [corridor], rfl, rfl, rfl, ?_, ?_, ?_, ?_, ?_⟩
  all_goals norm_num at e1 e7 e2 ⊢
  all_goals linarith [e1.1, e7.1, e7.2, e2.1, e2.2]

/-- The robot in the first cell of the corridor. -/
theorem corridor_cell {r : ℝ} (hr : 1 / 20 ≤ r) : ∃ i j : UInt32,
    (corridor M r).world2Grid (.fin (1 / 32)) (.fin (1 / 32)) = .ok (i, j) ∧
      i.toNat = 0 ∧ j.toNat = 0 := by
  have hm := minNormal_le_small
  obtain ⟨i, j, h, hc, hin⟩ := C80_located (corridor M r) 0 0 r ⟨rfl, rfl, rfl, by linarith⟩ (by linarith)
    (show (10 : UInt32) ≠ 0 by decide) (show (1 : UInt32) ≠ 0 by decide) (1 / 32) (1 / 32) (by norm_num)
    (by simp [corridor]; linarith) (by norm_num) (by simp [corridor]; linarith)
  refine ⟨i, j, h, ?_, ?_⟩
  · have : i.toNat < 1 := hc.1
    omega
  · by_contra hj
    have hj' : (1 : ℝ) ≤ j.toNat := by exact_mod_cast Nat.one_le_iff_ne_zero.mpr hj
    have h2 := hin.1
    have h3 : r ≤ j.toNat * r := by nlinarith
    norm_num at h2
    linarith

/-- C87 is false: with the shipped radii on a map of resolution 0.1, an occupied cell straight ahead at
0.9 m, which is boundary radius plus obstacle threshold, is not reported. -/
theorem C87_refuted : ¬ C87_statement := by
  intro h
  have hr1 : (1 / 20 : ℝ) ≤ ieee.rnd (((1 : Int) : ℝ) / 10 ^ 1) := by rw [ieee_tenth']; norm_num
  obtain ⟨i, j, hij, i0, j0⟩ := corridor_cell (M := ieee) hr1
  have hp : InMap (corridor ieee (ieee.rnd (((1 : Int) : ℝ) / 10 ^ 1))) 0 0
      (ieee.rnd (((1 : Int) : ℝ) / 10 ^ 1)) (1 / 32) (1 / 32) := by
    refine ⟨by norm_num, ?_, by norm_num, ?_⟩ <;> simp only [corridor, UInt32.toNat_ofNat] <;> norm_num at hr1 ⊢ <;> linarith
  have := h 7 10 2 8 1 1 _ 0 0 (1 / 32) (1 / 32) (.fin 0) i j 9 corridor_sensible hp hij (by norm_num)
    (by norm_num) (by norm_num) (by norm_num) (by
      rw [corridor_occupied (by norm_num) (by norm_num), i0, j0]; norm_num)
  obtain ⟨i', j', -, -, cfg, hcfg, hr, ex, ey, -, ec, -⟩ := config_rd (M := ieee) corridor_sensible hp (.fin 0)
  obtain ⟨k, l, ho, hd⟩ := C25_sound _ _ (corridor_wf _) _ cfg hcfg hr this
  obtain ⟨rfl, rfl⟩ := (corridor_occupied (by norm_num) (by norm_num) k l).mp ho
  have hcx : u2i j = cfg.cx := by
    unfold Collision.config at hcfg
    rw [hij, Res.ok_bind] at hcfg
    obtain ⟨rb, -, hcfg⟩ := Res.bind_eq_ok.mp hcfg
    obtain ⟨rc, -, hcfg⟩ := Res.bind_eq_ok.mp hcfg
    obtain ⟨rm, -, hcfg⟩ := Res.bind_eq_ok.mp hcfg
    simp only [Res.ok.injEq] at hcfg
    subst hcfg
    rfl
  rw [u2i_small (by omega), j0] at hcx
  rw [ec, nine_tenths, ← hcx] at hd
  norm_num at hd
  nlinarith [mul_self_nonneg cfg.cy]

/-- The hypotheses of the theorems are met: the shipped detector in the corridor with the robot in the first
cell; the occupied cell is ahead. -/
example : ∃ r b s o : ℝ, SensibleRd (⟨lit 7 1, lit 10 1, lit 2 1, lit 8 1⟩ : Collision (RDbl M))
    (corridor M r) 0 0 r b s o ∧ InMap (corridor M r) 0 0 r (1 / 32) (1 / 32) ∧
    Occupied (lit 8 1 : RDbl M) (corridor M r) 0 9 := by
  have h1 : minNormal ≤ 1 := minNormal_le_one
  have e1 := (M.err' h1 (x := ((1 : Int) : ℝ) / 10 ^ 1) (by norm_num [abs_of_pos])).1
  refine ⟨_, _, _, _, corridor_sensible, ?_, (corridor_occupied (by norm_num) (by norm_num) 0 9).mpr ⟨rfl, rfl⟩⟩
  refine ⟨by norm_num, ?_, by norm_num, ?_⟩ <;> simp only [corridor, UInt32.toNat_ofNat] <;> norm_num at e1 ⊢ <;> linarith

end Ergodic
