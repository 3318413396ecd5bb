import Verif.Props.RoundedCollision

/-!
# Property C93: radii in cells on a map from a message

`nav_msgs/OccupancyGrid` carries the resolution as a `float32`, the radii of a collision check are
`double`s: a resolution of 0.1 arrives as `0.100000001490116…`.
-/

namespace Ergodic
variable {M : Machine}

/-- `r` is a binary32 number (24 bits) nearest to `d`. -/
def NearestSingle (d r : ℝ) : Prop :=
  ∃ m e : ℤ, 2 ^ 23 ≤ m ∧ m ≤ 2 ^ 24 ∧ r = m * 2 ^ e ∧ |d - r| ≤ 2 ^ e / 2

/-- The binary32 number nearest to a number differs from it by at most `2^-24` of itself. -/
theorem single_near {d r : ℝ} (h : NearestSingle d r) : 0 < r ∧ |d - r| ≤ r / 2 ^ 24 := by
  obtain ⟨m, e, h0, -, rfl, hd⟩ := h
  have hp : (0 : ℝ) < 2 ^ e := by positivity
  have hm : (2 ^ 23 : ℝ) ≤ m := by exact_mod_cast h0
  have h1 : 2 ^ 23 * (2 : ℝ) ^ e ≤ m * 2 ^ e := mul_le_mul_of_nonneg_right hm hp.le
  refine ⟨by linarith [mul_pos (show (0 : ℝ) < 2 ^ 23 by norm_num) hp], hd.trans ?_⟩
  norm_num at h1 ⊢
  linarith

/-- A number with at most seven decimal places is a binary32 number or differs from the nearest one
by at least `2^-48` of it. -/
theorem single_gap {p : ℤ} {f : ℕ} (hf : f ≤ 7) {r : ℝ} (h : NearestSingle ((p : ℝ) / 10 ^ f) r)
    (h1 : (p : ℝ) / 10 ^ f ≤ 1000) (hne : (p : ℝ) / 10 ^ f ≠ r) :
    r / 2 ^ 48 ≤ |(p : ℝ) / 10 ^ f - r| := by
  have hs := single_near h
  obtain ⟨m, e, h0, hm1, rfl, hd⟩ := h
  have hp : (0 : ℝ) < 2 ^ e := by positivity
  have hm : (2 ^ 23 : ℝ) ≤ m := by exact_mod_cast h0
  have hm' : (m : ℝ) ≤ 2 ^ 24 := by exact_mod_cast hm1
  have hle : 2 ^ 23 * (2 : ℝ) ^ e ≤ m * 2 ^ e := mul_le_mul_of_nonneg_right hm hp.le
  have he : e < 0 := by
    by_contra hc
    push Not at hc
    have h2 : (1 : ℝ) ≤ 2 ^ e := one_le_zpow₀ (by norm_num) hc
    have := (abs_le.mp hs.2).1
    norm_num at this hle
    linarith
  obtain ⟨k, rfl⟩ : ∃ k : ℕ, e = -(k : ℤ) := ⟨e.natAbs, by omega⟩
  rw [zpow_neg, zpow_natCast] at *
  have hk : (0 : ℝ) < 2 ^ k := by positivity
  have hten : (0 : ℝ) < 10 ^ f := by positivity
  have hten' : (10 : ℝ) ^ f ≤ 2 ^ 24 := by
    calc (10 : ℝ) ^ f ≤ 10 ^ 7 := pow_le_pow_right₀ (by norm_num) hf
      _ ≤ _ := by norm_num
  have hint : p * 2 ^ k - m * 10 ^ f ≠ 0 := by
    intro hc
    have : (p : ℝ) * 2 ^ k - m * 10 ^ f = 0 := by exact_mod_cast hc
    apply hne
    field_simp
    linarith
  have hone : (1 : ℝ) ≤ |(p : ℝ) * 2 ^ k - m * 10 ^ f| := by
    have := Int.one_le_abs hint
    exact_mod_cast this
  have hq : (p : ℝ) / 10 ^ f - m * (2 ^ k)⁻¹ = (p * 2 ^ k - m * 10 ^ f) / (10 ^ f * 2 ^ k) := by
    field_simp
  rw [hq, abs_div, abs_of_pos (mul_pos hten hk), le_div_iff₀ (mul_pos hten hk)]
  refine le_trans ?_ hone
  have : m * ((2 : ℝ) ^ k)⁻¹ / 2 ^ 48 * (10 ^ f * 2 ^ k) = m * 10 ^ f / 2 ^ 48 := by
    field_simp
  rw [this, div_le_one (by positivity)]
  calc (m : ℝ) * 10 ^ f ≤ 2 ^ 24 * 2 ^ 24 := mul_le_mul hm' hten' hten.le (by norm_num)
    _ = _ := by norm_num

/-- A length within `2^-50` of `N` times `d`, in cells of a side larger than `d`: one cell is lost. -/
theorem cells_larger {d r x : ℝ} {N : ℕ} (hN0 : N ≠ 0) (hN : N ≤ 32768) (hd0 : 0 < d)
    (hgap : r / 2 ^ 48 ≤ r - d) (hnear : r - d ≤ r / 2 ^ 24)
    (hx : |x - N * d| ≤ N * d / 2 ^ 50) : cellsRd M x r = N - 1 := by
  have n1 : (1 : ℝ) ≤ N := by exact_mod_cast Nat.one_le_iff_ne_zero.mpr hN0
  have n2 : (N : ℝ) ≤ 32768 := by exact_mod_cast hN
  have hr : 0 < r := by
    norm_num at hnear
    linarith
  rw [abs_le] at hx
  have m1 := mul_le_mul_of_nonneg_left hgap (show (0 : ℝ) ≤ N by linarith)
  have m2 := mul_le_mul_of_nonneg_left hnear (show (0 : ℝ) ≤ N by linarith)
  have m3 : (N : ℝ) * r ≤ 32768 * r := mul_le_mul_of_nonneg_right n2 hr.le
  have m4 : (0 : ℝ) < N * r := by positivity
  have m5 : (0 : ℝ) < N * d := by positivity
  rw [mul_sub, ← mul_div_assoc] at m1 m2
  have q1 : x / r ≤ N - N / 2 ^ 49 := by
    rw [div_le_iff₀ hr]
    norm_num at m1 m2 hx ⊢
    have : (N - N / 562949953421312 : ℝ) * r = N * r - N * r / 562949953421312 := by ring
    rw [this]
    linarith [hx.2]
  have q0 : ((N - 1 : ℤ) : ℝ) ≤ x / r := by
    rw [le_div_iff₀ hr]
    push_cast
    norm_num at m1 m2 hx ⊢
    rw [sub_mul]
    linarith [hx.1]
  have e := (M.err' (show minNormal ≤ N from minNormal_le_one.trans n1) (x := x / r) (by
    rw [abs_of_nonneg (le_trans (by push_cast; linarith) q0)]
    norm_num at q1 ⊢
    linarith)).2
  have lo := M.int_le_rnd (by rw [abs_le]; omega) q0
  unfold cellsRd
  rw [Int.floor_eq_iff]
  refine ⟨lo, ?_⟩
  push_cast
  norm_num at e q1
  linarith

/-- A length within `2^-50` of `N` times `d`, in cells of a side smaller than `d`: `N` cells. -/
theorem cells_smaller {d r x : ℝ} {N : ℕ} (hN : N ≤ 32768) (hr : 0 < r)
    (hgap : r / 2 ^ 48 ≤ d - r) (hnear : d - r ≤ r / 2 ^ 24)
    (hx : |x - N * d| ≤ N * d / 2 ^ 50) : cellsRd M x r = N := by
  have n0 : (0 : ℝ) ≤ N := by positivity
  have n2 : (N : ℝ) ≤ 32768 := by exact_mod_cast hN
  rw [abs_le] at hx
  have m1 := mul_le_mul_of_nonneg_left hgap n0
  have m2 := mul_le_mul_of_nonneg_left hnear n0
  have m3 : (N : ℝ) * r ≤ 32768 * r := mul_le_mul_of_nonneg_right n2 hr.le
  have m4 : (0 : ℝ) ≤ N * r := by positivity
  rw [mul_sub, ← mul_div_assoc] at m1 m2
  have q0 : ((N : ℤ) : ℝ) ≤ x / r := by
    rw [le_div_iff₀ hr, Int.cast_natCast]
    norm_num at m1 m2 hx ⊢
    linarith [hx.1]
  have q1 : x / r ≤ N + 15 / 16 := by
    rw [div_le_iff₀ hr, add_mul]
    norm_num at m1 m2 hx ⊢
    linarith [hx.2]
  have := M.floor_rnd (n := N) (by omega) (by simpa using q0) q1
  unfold cellsRd
  rw [Int.floor_eq_iff]
  exact_mod_cast this

/-- A decimal number as `double` is within `2^-52` of itself. -/
theorem decimal_near {x : ℝ} (h : minNormal ≤ x) : |M.rnd x - x| ≤ x / 2 ^ 52 := by
  exact M.err h (by rw [abs_of_pos (minNormal_pos.trans_le h)])

/-- The sum of two decimal numbers as `double`. -/
theorem sum_near {x y : ℝ} (hx : minNormal ≤ x) (hy : minNormal ≤ y) :
    |M.rnd (M.rnd x + M.rnd y) - (x + y)| ≤ (x + y) / 2 ^ 50 := by
  have x0 := minNormal_pos.trans_le hx
  have y0 := minNormal_pos.trans_le hy
  have ex := abs_le.mp (decimal_near (M := M) hx)
  have ey := abs_le.mp (decimal_near (M := M) hy)
  have hs : 0 ≤ M.rnd x + M.rnd y := add_nonneg (M.rnd_nonneg x0.le) (M.rnd_nonneg y0.le)
  have es := M.err' (show minNormal ≤ 2 * (x + y) by linarith) (x := M.rnd x + M.rnd y) (by
    rw [abs_of_nonneg hs]
    norm_num at ex ey
    linarith [ex.2, ey.2])
  rw [abs_le]
  norm_num at ex ey es ⊢
  constructor <;> linarith [ex.1, ex.2, ey.1, ey.2, es.1, es.2]

/-- `C93`, the detector: boundary radius, obstacle threshold and search radius are `Nb`, `No` and `Ns` cells of
`p/10^f` metres, each given as a decimal number and stored as `double`. -/
structure WholeCells (c : Collision (RDbl M)) (d : ℝ) (Nb No Ns : ℕ) : Prop where
  bnd : c.boundary_radius = .fin (M.rnd (Nb * d))
  obs : c.obstacle_threshold = .fin (M.rnd (No * d))
  search : c.search_radius = .fin (M.rnd (Ns * d))
  nb : Nb ≠ 0
  no : No ≠ 0
  order : Nb ≤ Ns
  small : Ns ≤ 32000
  sum : Nb + No ≤ 32000

/-- The map came in a message whose resolution is the `float32` nearest to `d`, and its numbers are finite. -/
structure FromMessage (g : GridMap (RDbl M)) (ax ay d r : ℝ) : Prop where
  wf : WellFormed g
  placed : Placed g ax ay r
  single : NearestSingle d r
  lower : 1 / 1000 ≤ d
  upper : d ≤ 1000
  x0 : g.xsize ≠ 0
  y0 : g.ysize ≠ 0
  xsize : g.xsize.toNat ≤ 2 ^ 30
  ysize : g.ysize.toNat ≤ 2 ^ 30

theorem minNormal_le_milli : minNormal ≤ 1 / 1000 := by
  unfold minNormal
  have := tiny_le 70 (by norm_num)
  calc _ ≤ 2 ^ 53 * (1 / 2 ^ 70 : ℝ) := mul_le_mul_of_nonneg_left this (by positivity)
    _ ≤ _ := by norm_num

theorem minNormal_le_cells {d : ℝ} {N : ℕ} (hN : N ≠ 0) (h : 1 / 1000 ≤ d) : minNormal ≤ N * d := by
  have n1 : (1 : ℝ) ≤ N := by exact_mod_cast Nat.one_le_iff_ne_zero.mpr hN
  have := minNormal_le_milli
  nlinarith

/-- Such a detector is sensible on such a map. -/
theorem message_sensible {c : Collision (RDbl M)} {g : GridMap (RDbl M)} {ax ay d r : ℝ} {Nb No Ns : ℕ}
    (hc : WholeCells c d Nb No Ns) (hg : FromMessage g ax ay d r) :
    SensibleRd c g ax ay r (M.rnd (Nb * d)) (M.rnd (Ns * d)) (M.rnd (No * d)) := by
  obtain ⟨hr, hn⟩ := single_near hg.single
  have hd := hg.lower
  have hn' := abs_le.mp hn
  have hm := minNormal_le_milli
  have hNs : Ns ≠ 0 := by have := hc.order; have := hc.nb; omega
  have b0 := minNormal_le_cells hc.nb hd
  have o0 := minNormal_le_cells hc.no hd
  have s0 := minNormal_le_cells hNs hd
  have eb := abs_le.mp (decimal_near (M := M) b0)
  have eo := abs_le.mp (decimal_near (M := M) o0)
  have es := abs_le.mp (decimal_near (M := M) s0)
  have hd0 : 0 ≤ d := by linarith
  have s1 : (Ns : ℝ) * d ≤ 32000 * d :=
    mul_le_mul_of_nonneg_right (by exact_mod_cast hc.small) hd0
  have s2 : ((Nb : ℝ) + No) * d ≤ 32000 * d :=
    mul_le_mul_of_nonneg_right (by exact_mod_cast hc.sum) hd0
  have s3 : (Nb : ℝ) * d ≤ Ns * d := mul_le_mul_of_nonneg_right (by exact_mod_cast hc.order) hd0
  rw [add_mul] at s2
  refine ⟨hg.wf, hg.placed, ?_, hg.x0, hg.y0, hg.xsize, hg.ysize, hc.bnd, hc.search, hc.obs,
    M.rnd_nonneg (by positivity), M.rnd_nonneg (by positivity), M.mono s3, ?_, ?_⟩
  · have hm' : minNormal ≤ 1 / 10000 := by
      unfold minNormal
      have := tiny_le 70 (by norm_num)
      calc _ ≤ 2 ^ 53 * (1 / 2 ^ 70 : ℝ) := mul_le_mul_of_nonneg_left this (by positivity)
        _ ≤ _ := by norm_num
    norm_num at hn'
    linarith [hn'.2]
  · norm_num at hn' es
    linarith [hn'.2, es.2]
  · norm_num at hn' eb eo
    linarith [hn'.2, eb.2, eo.2]

/-- `C93` full statement: on a map whose resolution is the `float32` nearest to a decimal number, a radius of
`N` cells is counted as `N` cells. -/
def C93_statement : Prop :=
  ∀ (p : ℤ) (f : ℕ) (ax ay r x y : ℝ) (Nb No Ns : ℕ) (c : Collision (RDbl ieee)) (g : GridMap (RDbl ieee))
    (th : RDbl ieee) (cfg : CollisionConfig), f ≤ 7 → FromMessage g ax ay ((p : ℝ) / 10 ^ f) r →
    WholeCells c ((p : ℝ) / 10 ^ f) Nb No Ns → InMap g ax ay r x y →
    c.config g ⟨.fin x, .fin y, th⟩ = .ok cfg → cfg.r_bnd = Nb ∧ cfg.r_col = Nb + No ∧ cfg.r_max = Ns

/-- C93 (missing: resolutions that are rounded up): with any rounding to nearest of `double`s, for every
decimal resolution with at most seven places that `float32` rounds down, the radii have the intended number
of cells. -/
theorem C93_down_partial {p : ℤ} {f : ℕ} (hf : f ≤ 7) {c : Collision (RDbl M)} {g : GridMap (RDbl M)}
    {ax ay r x y : ℝ} {Nb No Ns : ℕ} (hg : FromMessage g ax ay ((p : ℝ) / 10 ^ f) r)
    (hc : WholeCells c ((p : ℝ) / 10 ^ f) Nb No Ns) (hp : InMap g ax ay r x y) (th : RDbl M)
    (hdown : r < (p : ℝ) / 10 ^ f) :
    ∃ cfg, c.config g ⟨.fin x, .fin y, th⟩ = .ok cfg ∧
      cfg.r_bnd = Nb ∧ cfg.r_col = Nb + No ∧ cfg.r_max = Ns := by
  obtain ⟨i, j, -, -, cfg, hcfg, -, -, -, eb, ec, em⟩ := config_rd (message_sensible hc hg) hp th
  obtain ⟨hr, hn⟩ := single_near hg.single
  have hgap := single_gap hf hg.single hg.upper hdown.ne'
  rw [abs_of_pos (by linarith)] at hn hgap
  have hNs : Ns ≠ 0 := by have := hc.order; have := hc.nb; omega
  have hd0 : 0 ≤ (p : ℝ) / 10 ^ f := by linarith
  have weak : ∀ {N : ℕ}, N ≠ 0 → |M.rnd (N * ((p : ℝ) / 10 ^ f)) - N * ((p : ℝ) / 10 ^ f)| ≤
      N * ((p : ℝ) / 10 ^ f) / 2 ^ 50 := fun h =>
    (decimal_near (minNormal_le_cells h hg.lower)).trans
      (div_le_div_of_nonneg_left (by positivity) (by norm_num) (by norm_num))
  have hsum := hc.sum
  have hsm := hc.small
  refine ⟨cfg, hcfg, ?_, ?_, ?_⟩
  · rw [eb]
    exact cells_smaller (by omega) hr hgap hn (weak hc.nb)
  · rw [ec]
    have := cells_smaller (M := M) (N := Nb + No) (by omega) hr hgap hn (x := M.rnd _) (by
      have := sum_near (M := M) (minNormal_le_cells hc.nb hg.lower) (minNormal_le_cells hc.no hg.lower)
      rw [← add_mul] at this
      push_cast
      exact this)
    rw [this]
    push_cast
    rfl
  · rw [em]
    exact cells_smaller (by omega) hr hgap hn (weak hNs)

/-- C93: with any rounding to nearest of `double`s, for every decimal resolution with at most seven places that
`float32` rounds up, every radius is one cell short. -/
theorem C93_up {p : ℤ} {f : ℕ} (hf : f ≤ 7) {c : Collision (RDbl M)} {g : GridMap (RDbl M)}
    {ax ay r x y : ℝ} {Nb No Ns : ℕ} (hg : FromMessage g ax ay ((p : ℝ) / 10 ^ f) r)
    (hc : WholeCells c ((p : ℝ) / 10 ^ f) Nb No Ns) (hp : InMap g ax ay r x y) (th : RDbl M)
    (hup : (p : ℝ) / 10 ^ f < r) :
    ∃ cfg, c.config g ⟨.fin x, .fin y, th⟩ = .ok cfg ∧
      cfg.r_bnd = Nb - 1 ∧ cfg.r_col = Nb + No - 1 ∧ cfg.r_max = Ns - 1 := by
  obtain ⟨i, j, -, -, cfg, hcfg, -, -, -, eb, ec, em⟩ := config_rd (message_sensible hc hg) hp th
  obtain ⟨hr, hn⟩ := single_near hg.single
  have hgap := single_gap hf hg.single hg.upper hup.ne
  rw [abs_sub_comm, abs_of_pos (by linarith)] at hn hgap
  have hNs : Ns ≠ 0 := by have := hc.order; have := hc.nb; omega
  have hd0 : 0 < (p : ℝ) / 10 ^ f := by linarith [hg.lower]
  have weak : ∀ {N : ℕ}, N ≠ 0 → |M.rnd (N * ((p : ℝ) / 10 ^ f)) - N * ((p : ℝ) / 10 ^ f)| ≤
      N * ((p : ℝ) / 10 ^ f) / 2 ^ 50 := fun h =>
    (decimal_near (minNormal_le_cells h hg.lower)).trans
      (div_le_div_of_nonneg_left (by positivity) (by norm_num) (by norm_num))
  have hsum := hc.sum
  have hsm := hc.small
  have hnb := hc.nb
  refine ⟨cfg, hcfg, ?_, ?_, ?_⟩
  · rw [eb]
    exact cells_larger hc.nb (by omega) hd0 hgap hn (weak hc.nb)
  · rw [ec]
    have := cells_larger (M := M) (N := Nb + No) (by omega) (by omega) hd0 hgap hn (x := M.rnd _) (by
      have := sum_near (M := M) (minNormal_le_cells hc.nb hg.lower) (minNormal_le_cells hc.no hg.lower)
      rw [← add_mul] at this
      push_cast
      exact this)
    rw [this]
    push_cast
    rfl
  · rw [em]
    exact cells_larger hNs (by omega) hd0 hgap hn (weak hNs)

/-- A multiple of a binary32 number is a `double`. -/
theorem multiple_exact {d : ℝ} (h : NearestSingle d d) (h0 : 1 / 1000 ≤ d) {N : ℕ} (hN : N ≤ 2 ^ 29) :
    ieee.rnd (N * d) = N * d := by
  obtain ⟨m, e, m0, m1, hd, -⟩ := h
  refine Ieee.rnd_rep (N * m) e ?_ ?_ ?_
  · by_contra hc
    push Not at hc
    have h2 : (2 : ℝ) ^ e ≤ 2 ^ (-40 : ℤ) := zpow_le_zpow_right₀ (by norm_num) (by omega)
    have hm : (m : ℝ) ≤ 2 ^ 24 := by exact_mod_cast m1
    have : d ≤ 2 ^ 24 * 2 ^ (-40 : ℤ) := by
      rw [hd]
      exact mul_le_mul hm h2 (by positivity) (by norm_num)
    norm_num at this h0
    linarith
  · rw [abs_mul, abs_of_nonneg (by positivity : (0 : ℤ) ≤ N), abs_of_nonneg (by omega : (0 : ℤ) ≤ m)]
    calc (N : ℤ) * m ≤ 2 ^ 29 * 2 ^ 24 := mul_le_mul (by exact_mod_cast hN) m1 (by omega) (by norm_num)
      _ = _ := by norm_num
  · push_cast
    rw [hd]
    ring

/-- C93 (missing: resolutions that are rounded up): for a resolution that is a `float32` number, such as 0.25,
the radii have the intended number of cells. -/
theorem C93_exact_partial {c : Collision (RDbl ieee)} {g : GridMap (RDbl ieee)}
    {ax ay r x y : ℝ} {Nb No Ns : ℕ} (hg : FromMessage g ax ay r r)
    (hc : WholeCells c r Nb No Ns) (hp : InMap g ax ay r x y) (th : RDbl ieee) :
    ∃ cfg, c.config g ⟨.fin x, .fin y, th⟩ = .ok cfg ∧
      cfg.r_bnd = Nb ∧ cfg.r_col = Nb + No ∧ cfg.r_max = Ns := by
  obtain ⟨i, j, -, -, cfg, hcfg, -, -, -, eb, ec, em⟩ := config_rd (message_sensible hc hg) hp th
  have hr := (single_near hg.single).1
  have hsum := hc.sum
  have hsm := hc.small
  have hor := hc.order
  have count : ∀ {N : ℕ}, N ≤ 2 ^ 29 → cellsRd ieee (N * r) r = N := by
    intro N hN
    unfold cellsRd
    rw [mul_div_assoc, div_self hr.ne', mul_one, ieee.rnd_nat (by omega)]
    exact Int.floor_natCast N
  refine ⟨cfg, hcfg, ?_, ?_, ?_⟩
  · rw [eb, multiple_exact hg.single hg.lower (by omega)]
    exact count (by omega)
  · have := multiple_exact hg.single hg.lower (N := Nb + No) (by omega)
    push_cast at this
    rw [ec, multiple_exact hg.single hg.lower (by omega), multiple_exact hg.single hg.lower (by omega),
      ← add_mul, this]
    have := count (N := Nb + No) (by omega)
    push_cast at this
    exact this
  · rw [em, multiple_exact hg.single hg.lower (by omega)]
    exact count (by omega)

/-- The shipped resolutions of 0.1 m and 0.05 m are rounded up. -/
theorem single_tenth : NearestSingle (((1 : ℤ) : ℝ) / 10 ^ 1) (13421773 / 2 ^ 27) := by
  refine ⟨13421773, -27, by norm_num, by norm_num, by norm_num, ?_⟩
  rw [abs_le]
  constructor <;> norm_num

theorem single_twentieth : NearestSingle (((5 : ℤ) : ℝ) / 10 ^ 2) (13421773 / 2 ^ 28) := by
  refine ⟨13421773, -28, by norm_num, by norm_num, by norm_num, ?_⟩
  rw [abs_le]
  constructor <;> norm_num

/-- A resolution of 0.02 m is rounded down. -/
theorem single_fiftieth : NearestSingle (((2 : ℤ) : ℝ) / 10 ^ 2) (10737418 / 2 ^ 29) := by
  refine ⟨10737418, -29, by norm_num, by norm_num, by norm_num, ?_⟩
  rw [abs_le]
  constructor <;> norm_num

/-- The shipped detector: 7, 2 and 10 cells of 0.1 m. -/
theorem shipped_cells : WholeCells (⟨lit 7 1, lit 10 1, lit 2 1, lit 8 1⟩ : Collision (RDbl M))
    (((1 : ℤ) : ℝ) / 10 ^ 1) 7 2 10 := by
  refine ⟨?_, ?_, ?_, by norm_num, by norm_num, by norm_num, by norm_num, by norm_num⟩ <;>
  · rw [RDbl.lit_fin]
    norm_num

/-- The corridor of C87 as it arrives in a message. -/
theorem corridor_message {p : ℤ} {f : ℕ} {r : ℝ} (h : NearestSingle ((p : ℝ) / 10 ^ f) r)
    (h0 : 1 / 1000 ≤ (p : ℝ) / 10 ^ f) (h1 : (p : ℝ) / 10 ^ f ≤ 1000) :
    FromMessage (corridor M r) 0 0 ((p : ℝ) / 10 ^ f) r :=
  ⟨corridor_wf _, ⟨rfl, rfl, rfl, (single_near h).1⟩, h, h0, h1, show (10 : UInt32) ≠ 0 by decide,
    show (1 : UInt32) ≠ 0 by decide, by simp [corridor], by simp [corridor]⟩

theorem corridor_inMap {r : ℝ} (h : 1 / 100 ≤ r) : InMap (corridor M r) 0 0 r (1 / 128) (1 / 128) := by
  refine ⟨by norm_num, ?_, by norm_num, ?_⟩ <;> simp only [corridor, UInt32.toNat_ofNat] <;> norm_num <;> linarith

/-- The shipped radii on a map of 0.1 m per cell: 6, 8 and 9 cells, not 7, 9 and 10, whatever the rounding of
`double`s. -/
theorem C93_shipped (th : RDbl M) : ∃ cfg, Collision.config (⟨lit 7 1, lit 10 1, lit 2 1, lit 8 1⟩ : Collision (RDbl M))
    (corridor M (13421773 / 2 ^ 27)) ⟨.fin (1 / 128), .fin (1 / 128), th⟩ = .ok cfg ∧
      cfg.r_bnd = 6 ∧ cfg.r_col = 8 ∧ cfg.r_max = 9 := by
  obtain ⟨cfg, h, h1, h2, h3⟩ := C93_up (M := M) (by norm_num)
    (corridor_message single_tenth (by norm_num) (by norm_num)) shipped_cells (corridor_inMap (by norm_num)) th
    (by norm_num)
  exact ⟨cfg, h, by simpa using h1, by simpa using h2, by simpa using h3⟩

/-- C93 is false: with the shipped radii on a map of 0.1 m per cell every radius is one cell short. -/
theorem C93_refuted : ¬ C93_statement := by
  intro h
  obtain ⟨cfg, hcfg, h1, -⟩ := C93_shipped (M := ieee) (.fin 0)
  have := (h 1 1 0 0 _ _ _ 7 2 10 _ _ _ _ (by norm_num)
    (corridor_message single_tenth (by norm_num) (by norm_num)) shipped_cells (corridor_inMap (by norm_num)) hcfg).1
  rw [h1] at this
  norm_num at this

/-- C93: when every occupied cell is at least as far from the robot cell as boundary radius plus obstacle
threshold, in cells, and `float32` rounds the resolution up, no collision is reported; in particular not for
an occupied cell straight ahead at exactly that distance. -/
theorem C93_unreported {p : ℤ} {f : ℕ} (hf : f ≤ 7) {c : Collision (RDbl M)} {g : GridMap (RDbl M)}
    {ax ay r x y : ℝ} {Nb No Ns : ℕ} (hg : FromMessage g ax ay ((p : ℝ) / 10 ^ f) r)
    (hc : WholeCells c ((p : ℝ) / 10 ^ f) Nb No Ns) (hp : InMap g ax ay r x y) (th : RDbl M)
    (hup : (p : ℝ) / 10 ^ f < r) (i j : UInt32) (hij : g.world2Grid (.fin x) (.fin y) = .ok (i, j))
    (hfar : ∀ k l : Int, Occupied c.occupied_threshold g k l →
      ((Nb : ℤ) + No) ^ 2 ≤ (k - i.toNat) ^ 2 + (l - j.toNat) ^ 2) :
    c.collisionCheck g ⟨.fin x, .fin y, th⟩ = .ok false := by
  have hs := message_sensible hc hg
  obtain ⟨i', j', hcell, -, cfg, hcfg, hr, ex, ey, -⟩ := config_rd hs hp th
  obtain ⟨cfg', hcfg', -, hcol, -⟩ := C93_up hf hg hc hp th hup
  rw [hcfg] at hcfg'
  obtain rfl : cfg = cfg' := by simpa using hcfg'
  obtain ⟨⟨v, hv⟩, -⟩ := C87_no_failure hs hp th
  rw [hv]
  cases v with
  | false => rfl
  | true =>
    obtain ⟨k, l, ho, hd⟩ := C25_sound c g hs.wf _ cfg hcfg hr hv
    have hcx : u2i j = cfg.cx ∧ u2i i = cfg.cy := by
      unfold Collision.config at hcfg
      rw [hij, Res.ok_bind] at hcfg
      obtain ⟨rb, -, hcfg⟩ := Res.bind_eq_ok.mp hcfg
      obtain ⟨rc, -, hcfg⟩ := Res.bind_eq_ok.mp hcfg
      obtain ⟨rm, -, hcfg⟩ := Res.bind_eq_ok.mp hcfg
      simp only [Res.ok.injEq] at hcfg
      subst hcfg
      exact ⟨rfl, rfl⟩
    have small : ∀ u : UInt32, 0 ≤ u2i u → u2i u = u.toNat := by
      intro u hu
      have := uint32_lt u
      unfold u2i at hu ⊢
      split
      · rfl
      · next h => rw [if_neg h] at hu; omega
    rw [small j (by rw [hcx.1]; exact hr.cx0), small i (by rw [hcx.2]; exact hr.cy0)] at hcx
    have hf' := hfar k l ho
    rw [hcx.1, hcx.2] at hf'
    rw [hcol] at hd
    have hnb := Nat.one_le_iff_ne_zero.mpr hc.nb
    exfalso
    have : (1 : ℤ) ≤ Nb := by exact_mod_cast hnb
    have : (0 : ℤ) ≤ No := by positivity
    nlinarith

/-- The hypotheses are met: on the corridor with the shipped detector, whose occupied cell is nine cells
ahead of the robot; and with a resolution of 0.02 m the radii are the intended ones. -/
example (th : RDbl M) : Collision.collisionCheck (⟨lit 7 1, lit 10 1, lit 2 1, lit 8 1⟩ : Collision (RDbl M))
    (corridor M (13421773 / 2 ^ 27)) ⟨.fin (1 / 128), .fin (1 / 128), th⟩ = .ok false := by
  have hg : FromMessage (corridor M (13421773 / 2 ^ 27)) 0 0 (((1 : ℤ) : ℝ) / 10 ^ 1) (13421773 / 2 ^ 27) :=
    corridor_message single_tenth (by norm_num) (by norm_num)
  have hp : InMap (corridor M (13421773 / 2 ^ 27)) 0 0 (13421773 / 2 ^ 27) (1 / 128) (1 / 128) :=
    corridor_inMap (by norm_num)
  have hs := message_sensible shipped_cells hg
  obtain ⟨i, j, h, hcell, hin⟩ := C80_located _ 0 0 _ hs.placed hs.normal hs.x0 hs.y0 (1 / 128) (1 / 128) hp.1 hp.2.1
    hp.2.2.1 hp.2.2.2
  have hi : i.toNat = 0 := by have : i.toNat < 1 := hcell.1; omega
  have hj : j.toNat = 0 := by
    by_contra hj
    have hj' : (1 : ℝ) ≤ j.toNat := by exact_mod_cast Nat.one_le_iff_ne_zero.mpr hj
    have h2 := hin.1
    norm_num at h2
    linarith
  refine C93_unreported (by norm_num) hg shipped_cells hp th (by norm_num) i j h fun k l ho => ?_
  obtain ⟨rfl, rfl⟩ := (corridor_occupied (by norm_num) (by norm_num) k l).mp ho
  rw [hi, hj]
  norm_num

example (th : RDbl M) : ∃ cfg,
    Collision.config (⟨lit 70 2, lit 100 2, lit 20 2, lit 80 2⟩ : Collision (RDbl M))
      (corridor M (10737418 / 2 ^ 29)) ⟨.fin (1 / 128), .fin (1 / 128), th⟩ = .ok cfg ∧
      cfg.r_bnd = 35 ∧ cfg.r_col = 45 ∧ cfg.r_max = 50 := by
  obtain ⟨cfg, h, h1, h2, h3⟩ := C93_down_partial (M := M) (Nb := 35) (No := 10) (Ns := 50)
    (c := ⟨lit 70 2, lit 100 2, lit 20 2, lit 80 2⟩) (by norm_num)
    (corridor_message single_fiftieth (by norm_num) (by norm_num)) (by
      refine ⟨?_, ?_, ?_, by norm_num, by norm_num, by norm_num, by norm_num, by norm_num⟩ <;>
      · rw [RDbl.lit_fin]
        norm_num) (corridor_inMap (by norm_num)) th (by norm_num)
  exact ⟨cfg, h, by simpa using h1, by simpa using h2, by simpa using h3⟩

/-- A map of 0.25 m per cell, and radii of 0.75 m, 0.5 m and 2 m. -/
example : NearestSingle (1 / 4) (1 / 4) ∧
    WholeCells (⟨lit 75 2, lit 200 2, lit 50 2, lit 80 2⟩ : Collision (RDbl ieee)) (1 / 4) 3 2 8 := by
  constructor
  · refine ⟨8388608, -25, by norm_num, by norm_num, by norm_num, ?_⟩
    rw [abs_le]
    constructor <;> norm_num
  · refine ⟨?_, ?_, ?_, by norm_num, by norm_num, by norm_num, by norm_num, by norm_num⟩ <;>
    · rw [RDbl.lit_fin]
      norm_num

end Ergodic
