import Verif.Props.Grid
import Verif.Lemmas.Rounded

/-!
# Properties C79 and C80: cells and points with rounding

C07 and C08 are about exact arithmetic.  Here the same functions run on rounded numbers.
-/

namespace Ergodic
variable {M : Machine}

/-! ## C79 the cell of a cell centre -/

/-- `C79` full statement: with rounding, the cell of the centre of a cell is that cell, on every
map with a finite position and a positive resolution. -/
def C79_statement : Prop :=
  ∀ (g : GridMap (RDbl ieee)) (a b r : ℝ), Placed g a b r → ∀ (i j : UInt32), IsCell g i j →
    g.world2Grid (g.grid2World i j).c0 (g.grid2World i j).c1 = .ok (i, j)

theorem grid2World_rd {g : GridMap (RDbl M)} {a b r : ℝ} (h : Placed g a b r) (i j : UInt32) :
    (g.grid2World i j).c0 =
      .fin (M.rnd (M.rnd (M.rnd (j.toNat * r) + M.rnd (r / 2)) + a)) ∧
    (g.grid2World i j).c1 =
      .fin (M.rnd (M.rnd (M.rnd (i.toNat * r) + M.rnd (r / 2)) + b)) := by
  have h2 : (lit 2 0 : RDbl M) = .fin 2 := by simp
  have hn : ∀ u : UInt32, (Flt.ofInt (u.toNat : Int) : RDbl M) = .fin u.toNat := by
    intro u
    rw [RDbl.ofInt_fin, Int.cast_natCast, M.rnd_nat (by have := uint32_lt u; omega)]
  unfold GridMap.grid2World
  rw [h.xmin, h.ymin, h.resolution, h2, hn, hn, RDbl.div_fin _ (by norm_num)]
  simp

theorem world2Grid_rd {g : GridMap (RDbl M)} {a b r : ℝ} (h : Placed g a b r) {x y : ℝ}
    {n m : ℕ} (hn : n < 2 ^ 32) (hm : m < 2 ^ 32)
    (hx0 : (n : ℝ) ≤ M.rnd (M.rnd (x - a) / r)) (hx1 : M.rnd (M.rnd (x - a) / r) < n + 1)
    (hy0 : (m : ℝ) ≤ M.rnd (M.rnd (y - b) / r)) (hy1 : M.rnd (M.rnd (y - b) / r) < m + 1) :
    g.world2Grid (.fin x) (.fin y) = .ok (
      if UInt32.ofNat m = g.ysize then UInt32.ofNat m - 1 else UInt32.ofNat m,
      if UInt32.ofNat n = g.xsize then UInt32.ofNat n - 1 else UInt32.ofNat n) := by
  have hr := h.positive.ne'
  unfold GridMap.world2Grid
  rw [h.xmin, h.ymin, h.resolution, RDbl.sub_fin, RDbl.sub_fin, RDbl.div_fin _ hr,
    RDbl.div_fin _ hr, castU32_floor_rd hn hx0 hx1, castU32_floor_rd hm hy0 hy1]
  rfl

/-- C79 (missing: maps further than `2^44` cells from the origin): with any rounding to nearest,
the cell of the centre of a cell is that cell. -/
theorem C79_round_trip_partial (g : GridMap (RDbl M)) (a b r : ℝ) (h : Placed g a b r)
    (hx : NearOrigin a r g.xsize.toNat) (hy : NearOrigin b r g.ysize.toNat) (i j : UInt32)
    (hc : IsCell g i j) :
    g.world2Grid (g.grid2World i j).c0 (g.grid2World i j).c1 = .ok (i, j) := by
  rw [(grid2World_rd h i j).1, (grid2World_rd h i j).2]
  have cx := centre_rd M hx hc.2 (uint32_lt _)
  have cy := centre_rd M hy hc.1 (uint32_lt _)
  rw [world2Grid_rd h (uint32_lt j) (uint32_lt i) cx.1 cx.2 cy.1 cy.2]
  rw [uint32_ofNat_toNat, uint32_ofNat_toNat]
  have hj : j ≠ g.xsize := by intro h'; rw [h'] at hc; exact absurd hc.2 (lt_irrefl _)
  have hi : i ≠ g.ysize := by intro h'; rw [h'] at hc; exact absurd hc.1 (lt_irrefl _)
  rw [if_neg hj, if_neg hi]

/-- C79 (same omission), by index. -/
theorem C79_index_partial (g : GridMap (RDbl M)) (a b r : ℝ) (h : Placed g a b r)
    (hx : NearOrigin a r g.xsize.toNat) (hy : NearOrigin b r g.ysize.toNat) (k : UInt32)
    (hk : k.toNat < numCells g) :
    ∃ p, g.grid2WorldIdx k = .ok p ∧ g.world2RowMajor p.c0 p.c1 = .ok k := by
  obtain ⟨i, j, h1, h2, h3⟩ := C01_grid2RowMajor_rowMajor2Grid g k hk
  refine ⟨g.grid2World i j, ?_, ?_⟩
  · simp [GridMap.grid2WorldIdx, h1, GridMap.grid2World]
  · simp [GridMap.world2RowMajor, C79_round_trip_partial g a b r h hx hy i j h2, h3]

/-- a map of three by three cells of side `r` at `(a, a)` -/
def squareAt (M : Machine) (a r : ℝ) : GridMap (RDbl M) :=
  { xsize := 3, ysize := 3, resolution := .fin r, xmin := .fin a, ymin := .fin a,
    xmax := .nan, ymax := .nan, data := List.replicate 9 0 }

theorem squareAt_placed {a r : ℝ} (h : 0 < r) : Placed (squareAt M a r) a a r := ⟨rfl, rfl, rfl, h⟩

/-- The hypotheses hold for cells of five centimetres a kilometre from the origin. -/
example : Placed (squareAt M (-1000) (1 / 20)) (-1000) (-1000) (1 / 20) ∧
    NearOrigin (-1000) (1 / 20) (squareAt M (-1000) (1 / 20)).xsize.toNat ∧
    IsCell (squareAt M (-1000) (1 / 20)) 1 2 := by
  refine ⟨squareAt_placed (by norm_num), ⟨?_, ?_⟩,
    show (1 : UInt32).toNat < (3 : UInt32).toNat ∧ (2 : UInt32).toNat < (3 : UInt32).toNat by decide⟩
  · unfold minNormal
    have := tiny_le 60 (by norm_num)
    calc _ ≤ 2 ^ 53 * (1 / 2 ^ 60 : ℝ) := mul_le_mul_of_nonneg_left this (by positivity)
      _ ≤ _ := by norm_num
  · show |(-1000 : ℝ)| + ((3 : UInt32).toNat : ℝ) * (1 / 20) ≤ _
    rw [show (3 : UInt32).toNat = 3 from rfl]
    norm_num

/-- C79 is false: with cells of side 1 at `2^53`, the centre of cell 1 is computed as
`2^53 + 2`, which is in cell 2. -/
theorem C79_refuted : ¬ C79_statement := by
  intro hall
  have hp : Placed (squareAt ieee (2 ^ 53) 1) (2 ^ 53) (2 ^ 53) 1 := squareAt_placed one_pos
  have h := hall _ _ _ _ hp 1 1 (by unfold IsCell squareAt; decide)
  rw [(grid2World_rd hp 1 1).1, (grid2World_rd hp 1 1).2] at h
  have e1 : ieee.rnd (((1 : UInt32).toNat : ℝ) * 1) = 1 := by
    rw [show (1 : UInt32).toNat = 1 from rfl]; simp
  have e2 : ieee.rnd (1 / 2) = 1 / 2 := by
    show Ieee.rnd _ = _
    exact Ieee.rnd_rep 1 (-1) (by norm_num) (by norm_num) (by norm_num)
  have e3 : ieee.rnd (1 + 1 / 2) = 3 / 2 := by
    show Ieee.rnd _ = _
    rw [Ieee.rnd_rep 3 (-1) (by norm_num) (by norm_num) (by norm_num)]; norm_num
  have e4 : ieee.rnd (3 / 2 + 2 ^ 53) = 2 ^ 53 + 2 := by
    show Ieee.rnd _ = _
    rw [Ieee.rnd_eq (2 ^ 52 + 1) 1 (by norm_num) (by norm_num [abs_of_pos]) (by norm_num [abs_of_pos])
      (by norm_num)]
    norm_num
  have e5 : ieee.rnd (2 ^ 53 + 2 - 2 ^ 53) = 2 := by
    rw [show (2 : ℝ) ^ 53 + 2 - 2 ^ 53 = 2 by ring]; simp
  have e6 : ieee.rnd (2 / 1) = 2 := by rw [div_one]; simp
  rw [e1, e2, e3, e4, world2Grid_rd hp (n := 2) (m := 2) (by norm_num) (by norm_num)
    (by rw [e5, e6]; norm_num) (by rw [e5, e6]; norm_num) (by rw [e5, e6]; norm_num)
    (by rw [e5, e6]; norm_num)] at h
  revert h
  unfold squareAt
  decide

/-! ## C80 the cell of a point -/

/-- The point lies in the square of cell `(i, j)` enlarged by `d` on every side. -/
def InEnlargedCell (a b r : ℝ) (i j : UInt32) (d x y : ℝ) : Prop :=
  a + j.toNat * r - d ≤ x ∧ x ≤ a + (j.toNat + 1) * r + d ∧
  b + i.toNat * r - d ≤ y ∧ y ≤ b + (i.toNat + 1) * r + d

theorem fold_located {a r x : ℝ} {n : UInt32} {k : ℕ} (hr : 0 < r) (hn : n ≠ 0)
    (hk : k ≤ n.toNat) (h0 : k * r - r / 2 ^ 17 ≤ x - a) (h1 : x - a ≤ (k + 1) * r + r / 2 ^ 17)
    (hx : x ≤ a + n.toNat * r) :
    let u := if UInt32.ofNat k = n then UInt32.ofNat k - 1 else UInt32.ofNat k
    u.toNat < n.toNat ∧ a + u.toNat * r - r / 2 ^ 17 ≤ x ∧
      x ≤ a + (u.toNat + 1) * r + r / 2 ^ 17 := by
  have hb := uint32_lt n
  have ek := ofNat_toNat (show k < 2 ^ 32 by omega)
  intro u
  have hu : u.toNat < n.toNat := (fold_lt_iff hn).mpr (by rw [ek]; exact hk)
  refine ⟨hu, ?_⟩
  by_cases hkn : UInt32.ofNat k = n
  · have hn0 := uint32_pos_iff.mp hn
    have hun : u.toNat = n.toNat - 1 := by
      show (if _ then _ else _ : UInt32).toNat = _
      rw [if_pos hkn, hkn, UInt32.toNat_sub_of_le _ _ (by
        rw [UInt32.le_iff_toNat_le]; exact hn0)]
      rfl
    have hkn' : k = n.toNat := by rw [← ek, hkn]
    have hcast : (u.toNat : ℝ) = n.toNat - 1 := by
      rw [hun, Nat.cast_sub hn0]; simp
    rw [hcast]
    rw [hkn'] at h0
    constructor
    · linarith
    · have : 0 ≤ r / 2 ^ 17 := by positivity
      linarith
  · have hun : u.toNat = k := by
      show (if _ then _ else _ : UInt32).toNat = _
      rw [if_neg hkn, ek]
    rw [hun]
    constructor <;> linarith

/-- C80: with any rounding to nearest, every point of the closed map rectangle gets an existing
cell, and the point is at most `2^-17` of a cell outside the square of that cell. -/
theorem C80_located (g : GridMap (RDbl M)) (a b r : ℝ) (h : Placed g a b r) (hr : minNormal ≤ r)
    (hx : g.xsize ≠ 0) (hy : g.ysize ≠ 0) (x y : ℝ)
    (hx0 : a ≤ x) (hx1 : x ≤ a + g.xsize.toNat * r)
    (hy0 : b ≤ y) (hy1 : y ≤ b + g.ysize.toNat * r) :
    ∃ i j, g.world2Grid (.fin x) (.fin y) = .ok (i, j) ∧ IsCell g i j ∧
      InEnlargedCell a b r i j (r / 2 ^ 17) x y := by
  have hr0 := h.positive
  obtain ⟨n, hn, n0, n1, n2, n3⟩ := locate_rd M hr (uint32_lt g.xsize) hx0 (by linarith)
  obtain ⟨m, hm, m0, m1, m2, m3⟩ := locate_rd M hr (uint32_lt g.ysize) hy0 (by linarith)
  have bx := uint32_lt g.xsize
  have by' := uint32_lt g.ysize
  refine ⟨_, _, world2Grid_rd h (by omega) (by omega) n0 n1 m0 m1, ?_⟩
  have fx := fold_located hr0 hx hn n2 n3 hx1
  have fy := fold_located hr0 hy hm m2 m3 hy1
  exact ⟨⟨fy.1, fx.1⟩, fx.2.1, fx.2.2, fy.2.1, fy.2.2⟩

/-- C80: points up to half a cell beyond the upper edges still get an existing cell.  This covers
the computed limits `xmax` and `ymax`, see `C80_upper_corner`. -/
theorem C80_half_cell_beyond (g : GridMap (RDbl M)) (a b r : ℝ) (h : Placed g a b r)
    (hr : minNormal ≤ r) (hx : g.xsize ≠ 0) (hy : g.ysize ≠ 0) (x y : ℝ)
    (hx0 : a ≤ x) (hx1 : x ≤ a + (g.xsize.toNat + 1 / 2) * r)
    (hy0 : b ≤ y) (hy1 : y ≤ b + (g.ysize.toNat + 1 / 2) * r) :
    ∃ i j, g.world2Grid (.fin x) (.fin y) = .ok (i, j) ∧ IsCell g i j := by
  obtain ⟨n, hn, n0, n1, n2, n3⟩ := locate_rd M hr (uint32_lt g.xsize) hx0 hx1
  obtain ⟨m, hm, m0, m1, m2, m3⟩ := locate_rd M hr (uint32_lt g.ysize) hy0 hy1
  have bx := uint32_lt g.xsize
  have by' := uint32_lt g.ysize
  refine ⟨_, _, world2Grid_rd h (by omega) (by omega) n0 n1 m0 m1, ?_, ?_⟩
  · exact (fold_lt_iff hy).mpr (by rw [ofNat_toNat (by omega)]; exact hm)
  · exact (fold_lt_iff hx).mpr (by rw [ofNat_toNat (by omega)]; exact hn)

theorem upper_rd (M : Machine) {a r : ℝ} {n : UInt32} (h : NearOrigin a r n.toNat) :
    ∃ u : ℝ, axisUpper (.fin a : RDbl M) (.fin r) n = .fin u ∧
      a + n.toNat * r - r / 2 ≤ u ∧ u ≤ a + (n.toNat + 1 / 2) * r := by
  have hr : 0 < r := minNormal_pos.trans_le h.normal
  have ha := abs_nonneg a
  have hnr : 0 ≤ n.toNat * r := by positivity
  refine ⟨M.rnd (M.rnd (r * n.toNat) + a), ?_, ?_⟩
  · unfold axisUpper
    rw [RDbl.ofInt_fin, Int.cast_natCast, M.rnd_nat (by have := uint32_lt n; omega)]
    simp
  obtain ⟨B, hBdef⟩ : ∃ B, B = |a| + n.toNat * r + r := ⟨_, rfl⟩
  have hBr : B ≤ 2 ^ 45 * r := by have := h.near; norm_num at this ⊢; linarith
  have hB : minNormal ≤ B := h.normal.trans (by linarith)
  have haB := abs_le.mp (show |a| ≤ B - n.toNat * r by linarith)
  have e1 := M.err' hB (x := r * n.toNat) (by
    rw [abs_of_nonneg (by positivity)]; linarith)
  generalize M.rnd (r * n.toNat) = t at e1 ⊢
  have e2 := M.err' (show minNormal ≤ 2 * B by linarith) (x := t + a) (by
    rw [abs_le]; constructor <;> linarith [e1.1, e1.2, haB.1, haB.2])
  have hB2 : B / 2 ^ 52 ≤ r / 128 := by
    rw [div_le_div_iff₀ (by positivity) (by positivity)]; linarith
  constructor <;> linarith [e1.1, e1.2, e2.1, e2.2]

/-- C80: the upper corner a map computes for itself from a message is found in the last cell of
the last row, although the corner is rounded. -/
theorem C80_upper_corner (m : OccupancyGrid (RDbl M)) (a b r : ℝ)
    (hr : m.resolution = .fin r) (ha : m.originX = .fin a) (hb : m.originY = .fin b)
    (hx : NearOrigin a r m.width.toNat) (hy : NearOrigin b r m.height.toNat)
    (hw : m.width ≠ 0) (hh : m.height ≠ 0) (g : GridMap (RDbl M)) (hg : GridMap.ofMsg m = .ok g) :
    ∃ i j, g.world2Grid g.xmax g.ymax = .ok (i, j) ∧
      i.toNat = g.ysize.toNat - 1 ∧ j.toNat = g.xsize.toNat - 1 := by
  have hg' : g = GridMap.assign m := by
    unfold GridMap.ofMsg at hg
    dsimp only at hg
    split at hg
    · cases hg
    · exact (Res.ok.inj hg).symm
  have hr0 : 0 < r := minNormal_pos.trans_le hx.normal
  have hp : Placed g a b r := by rw [hg']; exact ⟨ha, hb, hr, hr0⟩
  obtain ⟨u, hu, u0, u1⟩ := upper_rd M hx
  obtain ⟨v, hv, v0, v1⟩ := upper_rd M hy
  have hgx : g.xmax = .fin u := by rw [hg', ← hu, ← ha, ← hr]; rfl
  have hgy : g.ymax = .fin v := by rw [hg', ← hv, ← hb, ← hr]; rfl
  have hsx : g.xsize = m.width := by rw [hg']; rfl
  have hsy : g.ysize = m.height := by rw [hg']; rfl
  have wx := uint32_pos_iff.mp hw
  have wy := uint32_pos_iff.mp hh
  have wx' : (1 : ℝ) ≤ m.width.toNat := by exact_mod_cast wx
  have wy' : (1 : ℝ) ≤ m.height.toNat := by exact_mod_cast wy
  have wxr := mul_le_mul_of_nonneg_right wx' hr0.le
  have wyr := mul_le_mul_of_nonneg_right wy' hr0.le
  obtain ⟨n, hn, n0, n1, n2, n3⟩ := locate_rd M hx.normal (uint32_lt m.width)
    (show a ≤ u by linarith) u1
  obtain ⟨k, hk, k0, k1, k2, k3⟩ := locate_rd M hy.normal (uint32_lt m.height)
    (show b ≤ v by linarith) v1
  have bx := uint32_lt m.width
  have by' := uint32_lt m.height
  have key : ∀ (w : UInt32) (t : ℕ) (x c : ℝ), w ≠ 0 → t ≤ w.toNat →
      x - c ≤ (t + 1) * r + r / 2 ^ 17 → c + w.toNat * r - r / 2 ≤ x →
      (if UInt32.ofNat t = w then UInt32.ofNat t - 1 else UInt32.ofNat t).toNat = w.toNat - 1 := by
    intro w t x c hw ht h1 h2
    have hb := uint32_lt w
    have et := ofNat_toNat (show t < 2 ^ 32 by omega)
    have hlt : (w.toNat : ℝ) < t + 2 := by
      have h17 : r / 2 ^ 17 ≤ r / 4 := by
        rw [div_le_div_iff₀ (by positivity) (by positivity)]; linarith
      by_contra hc
      push Not at hc
      have := mul_le_mul_of_nonneg_right hc hr0.le
      linarith
    have hlt' : w.toNat < t + 2 := by exact_mod_cast hlt
    have hlast := (fold_lt_iff hw).mpr (show (UInt32.ofNat t).toNat ≤ w.toNat by rw [et]; exact ht)
    by_cases e : UInt32.ofNat t = w
    · rw [if_pos e, e, UInt32.toNat_sub_of_le _ _ (by
        rw [UInt32.le_iff_toNat_le]; exact uint32_pos_iff.mp hw)]
      rfl
    · rw [if_neg e] at hlast ⊢
      rw [et] at hlast ⊢
      omega
  refine ⟨_, _, by rw [hgx, hgy]; exact world2Grid_rd hp (by omega) (by omega) n0 n1 k0 k1, ?_, ?_⟩
  · rw [hsy]; exact key _ _ _ _ hh hk k3 v0
  · rw [hsx]; exact key _ _ _ _ hw hn n3 u0

/-- C80: a point a millionth of a cell below a lower edge is undefined behaviour. -/
theorem C80_below_is_undefined (g : GridMap (RDbl M)) (a b r : ℝ) (h : Placed g a b r)
    (hr : minNormal ≤ r) (x y : ℝ) (hx : x ≤ a - r / 2 ^ 20 ∨ y ≤ b - r / 2 ^ 20) :
    g.world2Grid (.fin x) (.fin y) = .ub := by
  have hr0 := h.positive
  have key : ∀ x a : ℝ, x ≤ a - r / 2 ^ 20 →
      castU32 (RDbl.fin (⌊M.rnd (M.rnd (x - a) / r)⌋ : ℝ) : RDbl M) = .ub := by
    intro x a hx
    have hq : M.rnd (M.rnd (x - a) / r) < 0 := by
      have h1 : M.rnd (x - a) ≤ -(r / 2 ^ 21) := by
        refine (M.mono (show x - a ≤ -(r / 2 ^ 20) by linarith)).trans ?_
        rw [M.neg]
        have := (M.err' hr (x := r / 2 ^ 20) (by
          rw [abs_of_pos (by positivity)]; norm_num; linarith)).1
        norm_num at this ⊢
        linarith
      have h2 : M.rnd (x - a) / r ≤ -(1 / 2 ^ 21) := by
        rw [div_le_iff₀ hr0]
        linarith
      refine lt_of_le_of_lt (M.mono h2) ?_
      rw [M.neg]
      have := (M.err' minNormal_le_one (x := 1 / 2 ^ 21) (by norm_num [abs_of_pos])).1
      norm_num at this ⊢
      linarith
    have hf : ⌊M.rnd (M.rnd (x - a) / r)⌋ < 0 := by
      rw [Int.floor_lt]; simpa using hq
    unfold castU32
    rw [RDbl.trunc_fin, realTrunc_intCast]
    dsimp only
    rw [if_neg (by omega)]
  unfold GridMap.world2Grid
  rw [h.xmin, h.ymin, h.resolution, RDbl.sub_fin, RDbl.sub_fin, RDbl.div_fin _ hr0.ne',
    RDbl.div_fin _ hr0.ne', RDbl.floor_fin, RDbl.floor_fin]
  rcases hx with hx | hx
  · rw [key x a hx]
    rfl
  · rw [key y b hx]
    cases hc : castU32 (RDbl.fin (⌊M.rnd (M.rnd (x - a) / r)⌋ : ℝ) : RDbl M) with
    | ok j => rfl
    | ub => rfl
    | throw e => unfold castU32 at hc; split at hc <;> [split at hc; skip] <;> nomatch hc
    | timeout => unfold castU32 at hc; split at hc <;> [split at hc; skip] <;> nomatch hc

/-- The hypotheses of the C80 theorems hold together: a 3 × 3 map of unit cells. -/
example : Placed (squareAt M (-1) 1) (-1) (-1) 1 ∧ minNormal ≤ 1 ∧
    (squareAt M (-1) 1).xsize ≠ 0 ∧ (squareAt M (-1) 1).ysize ≠ 0 ∧
    (-1 : ℝ) ≤ 2 ∧ (2 : ℝ) ≤ -1 + (squareAt M (-1) 1).xsize.toNat * 1 ∧
    (-2 : ℝ) ≤ -1 - 1 / 2 ^ 20 ∧ NearOrigin (-1) 1 (squareAt M (-1) 1).xsize.toNat := by
  refine ⟨squareAt_placed one_pos, minNormal_le_one, show (3 : UInt32) ≠ 0 by decide,
    show (3 : UInt32) ≠ 0 by decide, by norm_num, ?_,
    by norm_num, minNormal_le_one, ?_⟩
  · show (2 : ℝ) ≤ -1 + ((3 : UInt32).toNat : ℝ) * 1
    rw [show (3 : UInt32).toNat = 3 from rfl]; norm_num
  · show |(-1 : ℝ)| + ((3 : UInt32).toNat : ℝ) * 1 ≤ _
    rw [show (3 : UInt32).toNat = 3 from rfl]; norm_num

end Ergodic
