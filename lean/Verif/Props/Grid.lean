import Verif.Spec.Grid
import Verif.Lemmas.Grid

/-!
# Properties C01–C12: grid maps
-/

namespace Ergodic
variable {F : Type}

/-! ## C01 row-major conversion -/

theorem rowMajor_toNat {g : GridMap F} (hf : Fits g) {i j : UInt32}
    (h : IsCell g i j) :
    (g.grid2RowMajor i j).toNat = i.toNat * g.xsize.toNat + j.toNat ∧
      i.toNat * g.xsize.toNat + j.toNat < numCells g := by
  obtain ⟨hi, hj⟩ := h
  have h1 : (i.toNat + 1) * g.xsize.toNat ≤ g.ysize.toNat * g.xsize.toNat :=
    Nat.mul_le_mul_right _ hi
  have h2 : i.toNat * g.xsize.toNat + j.toNat < numCells g := by
    unfold numCells; nlinarith
  refine ⟨?_, h2⟩
  have h3 : i.toNat * g.xsize.toNat + j.toNat < 2 ^ 32 := lt_trans h2 hf
  simp only [GridMap.grid2RowMajor, UInt32.toNat_add, UInt32.toNat_mul]
  rw [Nat.mod_eq_of_lt (a := i.toNat * g.xsize.toNat) (by omega), Nat.mod_eq_of_lt h3]

/-- C01, first half: converting a cell to an index and back returns the cell, and the index
is below the number of cells. -/
theorem C01_rowMajor2Grid_grid2RowMajor (g : GridMap F) (hf : Fits g) (i j : UInt32)
    (h : IsCell g i j) :
    g.rowMajor2Grid (g.grid2RowMajor i j) = .ok (i, j) ∧
      (g.grid2RowMajor i j).toNat < numCells g := by
  obtain ⟨he, hlt⟩ := rowMajor_toNat hf h
  refine ⟨?_, by omega⟩
  have hx : g.xsize.toNat ≠ 0 := by have := h.2; omega
  have hx' : g.xsize ≠ 0 := by
    intro h0; apply hx; simp [h0]
  have hdiv : (i.toNat * g.xsize.toNat + j.toNat) / g.xsize.toNat = i.toNat := by
    rw [Nat.mul_comm, Nat.mul_add_div (by omega), Nat.div_eq_of_lt h.2, Nat.add_zero]
  have hi : g.grid2RowMajor i j / g.xsize = i := by
    apply UInt32.toNat_inj.mp
    rw [UInt32.toNat_div, he, hdiv]
  simp only [GridMap.rowMajor2Grid, hx', if_false, hi]
  have hj : g.grid2RowMajor i j - i * g.xsize = j := by
    rw [GridMap.grid2RowMajor, UInt32.add_comm, UInt32.add_sub_cancel]
  rw [hj]

/-- C01, second half: converting an index of the grid to a cell gives a cell of the grid,
and converting back returns the index. -/
theorem C01_grid2RowMajor_rowMajor2Grid (g : GridMap F) (k : UInt32)
    (h : k.toNat < numCells g) :
    ∃ i j, g.rowMajor2Grid k = .ok (i, j) ∧ IsCell g i j ∧ g.grid2RowMajor i j = k := by
  have hx : 0 < g.xsize.toNat := by
    rcases Nat.eq_zero_or_pos g.xsize.toNat with h0 | h0
    · simp [numCells, h0] at h
    · exact h0
  have hx' : g.xsize ≠ 0 := by
    intro h0; simp [h0] at hx
  refine ⟨k / g.xsize, k - k / g.xsize * g.xsize, by simp [GridMap.rowMajor2Grid, hx'], ?_, ?_⟩
  · have hle : k.toNat / g.xsize.toNat * g.xsize.toNat ≤ k.toNat := Nat.div_mul_le_self _ _
    have hk := uint32_lt k
    have hm : (k / g.xsize * g.xsize).toNat = k.toNat / g.xsize.toNat * g.xsize.toNat := by
      rw [UInt32.toNat_mul, UInt32.toNat_div, Nat.mod_eq_of_lt (by omega)]
    constructor
    · rw [UInt32.toNat_div]
      apply Nat.div_lt_of_lt_mul
      exact h
    · rw [UInt32.toNat_sub_of_le _ _ (by rw [UInt32.le_iff_toNat_le, hm]; exact hle), hm]
      have := Nat.div_add_mod k.toNat g.xsize.toNat
      have h2 := Nat.mod_lt k.toNat hx
      rw [Nat.mul_comm] at this
      omega
  · rw [GridMap.grid2RowMajor, UInt32.add_comm, UInt32.sub_add_cancel]

/-- C01, why a column is needed: the conversion of an index, to a cell or to a point, is undefined
exactly on grids without columns, and otherwise returns. -/
theorem C01_no_columns [Flt F] (g : GridMap F) (k : UInt32) :
    (g.xsize.toNat = 0 → g.rowMajor2Grid k = .ub ∧ g.grid2WorldIdx k = .ub) ∧
    (0 < g.xsize.toNat → (∃ i j, g.rowMajor2Grid k = .ok (i, j)) ∧ ∃ p, g.grid2WorldIdx k = .ok p) := by
  constructor
  · intro h
    have h0 : g.xsize = 0 := UInt32.toNat_inj.mp (by simpa using h)
    have h1 : g.rowMajor2Grid k = .ub := by unfold GridMap.rowMajor2Grid; rw [if_pos h0]
    refine ⟨h1, ?_⟩
    unfold GridMap.grid2WorldIdx
    rw [h1]
    rfl
  · intro h
    have h0 : g.xsize ≠ 0 := fun h0 => by simp [h0] at h
    have h1 : ∃ i j, g.rowMajor2Grid k = .ok (i, j) := by
      unfold GridMap.rowMajor2Grid; rw [if_neg h0]; exact ⟨_, _, rfl⟩
    refine ⟨h1, ?_⟩
    obtain ⟨i, j, h1⟩ := h1
    unfold GridMap.grid2WorldIdx
    rw [h1]
    exact ⟨_, rfl⟩

/-- C01: distinct cells have distinct indices. -/
theorem C01_grid2RowMajor_injective (g : GridMap F) (hf : Fits g) (i j i' j' : UInt32)
    (h : IsCell g i j) (h' : IsCell g i' j')
    (he : g.grid2RowMajor i j = g.grid2RowMajor i' j') : i = i' ∧ j = j' := by
  have h1 := (C01_rowMajor2Grid_grid2RowMajor g hf i j h).1
  have h2 := (C01_rowMajor2Grid_grid2RowMajor g hf i' j' h').1
  rw [he, h2] at h1
  simp only [Res.ok.injEq, Prod.mk.injEq] at h1
  exact ⟨h1.1.symm, h1.2.symm⟩


/-- a 3×2 map of unknown cells used in the satisfiability examples -/
def demoGrid : GridMap ℝ :=
  { xsize := 3, ysize := 2, resolution := 1, xmin := 0, ymin := 0, xmax := 3, ymax := 2,
    data := [0, 100, 50, -1, 20, 30] }

theorem demoGrid_wf : WellFormed demoGrid := ⟨by decide, by decide⟩

example : Fits demoGrid ∧ IsCell demoGrid 1 2 ∧ (5 : UInt32).toNat < numCells demoGrid := by
  decide +kernel

/-! ## C02 `gridBounds(i, j)` -/

/-- `C02` full statement: membership is exact on *every* map. -/
def C02_statement (F : Type) : Prop :=
  ∀ (g : GridMap F) (i j : UInt32), g.gridBounds i j = true ↔ IsCell g i j

/-- C02 (missing: maps with an empty axis): on a map with at least one row and one column
`gridBounds` is exact membership. -/
theorem C02_gridBounds_exact_partial (g : GridMap F) (hx : g.xsize ≠ 0) (hy : g.ysize ≠ 0)
    (i j : UInt32) : g.gridBounds i j = true ↔ IsCell g i j := by
  simp [GridMap.gridBounds, IsCell, le_pred_iff hx, le_pred_iff hy]

example : demoGrid.xsize ≠ 0 ∧ demoGrid.ysize ≠ 0 := by decide

/-- C02 is false: on a map without rows and columns (in particular the default-constructed
one) `size - 1` wraps around and every pair of indices is reported in bounds. -/
theorem C02_refuted_empty [Flt F] (i j : UInt32) :
    (GridMap.empty : GridMap F).gridBounds i j = true ∧ ¬ IsCell (GridMap.empty : GridMap F) i j := by
  constructor
  · simp only [GridMap.gridBounds, GridMap.empty, le_zero_sub_one]; rfl
  · simp [IsCell, GridMap.empty]

/-- The full statement of C02 fails. -/
theorem C02_refuted [Flt F] : ¬ C02_statement F := fun h =>
  (C02_refuted_empty (F := F) 0 0).2 ((h _ 0 0).1 (C02_refuted_empty 0 0).1)

/-! ## C03 `gridBounds(idx)` -/

/-- `C03` full statement. -/
def C03_statement (F : Type) : Prop :=
  ∀ (g : GridMap F) (idx : UInt32), g.gridBoundsIdx idx = true ↔ idx.toNat < numCells g

/-- C03 (missing: the empty map and maps with 2^32 cells or more). -/
theorem C03_gridBoundsIdx_exact_partial (g : GridMap F) (hf : Fits g) (h0 : 0 < numCells g)
    (idx : UInt32) : g.gridBoundsIdx idx = true ↔ idx.toNat < numCells g := by
  have hs := size_toNat hf
  have hne : g.xsize * g.ysize ≠ 0 := by
    intro h; rw [h] at hs; simp at hs; omega
  simp [GridMap.gridBoundsIdx, le_pred_iff hne, hs]

example : Fits demoGrid ∧ 0 < numCells demoGrid := by decide

/-- C03, C06: `size()` is the number of cells the map declares. -/
theorem C03_size (g : GridMap F) (hf : Fits g) : g.size.toNat = numCells g := size_toNat hf

/-- C03 is false on an empty map: every index is in bounds. -/
theorem C03_refuted_empty [Flt F] (idx : UInt32) :
    (GridMap.empty : GridMap F).gridBoundsIdx idx = true ∧
      ¬ idx.toNat < numCells (GridMap.empty : GridMap F) := by
  constructor
  · exact decide_eq_true (le_zero_sub_one idx)
  · simp [numCells, GridMap.empty]

/-- C03 is false on a map of 65537 × 65536 cells: the unsigned product wraps to 65536 and
the existing cell 70000 is reported out of bounds. -/
theorem C03_refuted_wrap (g : GridMap F) (hx : g.xsize = 65537) (hy : g.ysize = 65536) :
    g.gridBoundsIdx 70000 = false ∧ (70000 : UInt32).toNat < numCells g := by
  constructor
  · simp only [GridMap.gridBoundsIdx, hx, hy]; decide
  · simp only [numCells, hx, hy]; decide

/-- The full statement of C03 fails. -/
theorem C03_refuted [Flt F] : ¬ C03_statement F := fun h =>
  (C03_refuted_empty (F := F) 0).2 ((h _ 0).1 (C03_refuted_empty 0).1)

/-! ## C04 constructors -/

/-- `C04` full statement (message constructor): a map that is accepted holds exactly as many
cells as it declares. -/
def C04_statement (F : Type) [Flt F] : Prop :=
  ∀ (m : OccupancyGrid F) (g : GridMap F), GridMap.ofMsg m = .ok g →
    g.data.length = numCells g

/-- C04, limits constructor (missing: maps of 2^32 cells or more): it throws exactly when
the data does not have one entry per declared cell, and otherwise stores the arguments. -/
theorem C04_ofLimits_checked_partial [Flt F] (xmin xmax ymin ymax res : F)
    (data : List Int8) (nx ny : UInt32)
    (hx : axisLength xmin xmax res = .ok nx) (hy : axisLength ymin ymax res = .ok ny)
    (hfit : nx.toNat * ny.toNat < 2 ^ 32) :
    (data.length ≠ nx.toNat * ny.toNat →
      GridMap.ofLimits xmin xmax ymin ymax res data = .throw .invalidArgument) ∧
    (data.length = nx.toNat * ny.toNat →
      ∃ g, GridMap.ofLimits xmin xmax ymin ymax res data = .ok g ∧ g.data = data ∧
        g.xsize = nx ∧ g.ysize = ny ∧ g.xmin = xmin ∧ g.xmax = xmax ∧ g.ymin = ymin ∧
        g.ymax = ymax ∧ g.resolution = res ∧ g.data.length = numCells g) := by
  have hm := mul_toNat hfit
  constructor
  · intro h
    simp only [GridMap.ofLimits, hx, hy, Res.ok_bind]
    rw [if_pos (by rw [hm]; exact h.symm)]
  · intro h
    refine ⟨{ xsize := nx, ysize := ny, resolution := res, xmin, ymin, xmax, ymax, data }, ?_,
      rfl, rfl, rfl, rfl, rfl, rfl, rfl, rfl, h⟩
    simp only [GridMap.ofLimits, hx, hy, Res.ok_bind]
    rw [if_neg (by rw [hm]; exact not_not.mpr h.symm)]

/-- C04, message constructor (missing: maps of 2^32 cells or more). -/
theorem C04_ofMsg_checked_partial [Flt F] (m : OccupancyGrid F) (hfit : m.numCells < 2 ^ 32) :
    (m.data.length ≠ m.numCells → GridMap.ofMsg m = .throw .invalidArgument) ∧
    (m.data.length = m.numCells →
      ∃ g, GridMap.ofMsg m = .ok g ∧ g.data = m.data ∧ g.data.length = numCells g) := by
  have hm : ((GridMap.assign m).xsize * (GridMap.assign m).ysize).toNat = m.numCells :=
    mul_toNat hfit
  constructor
  · intro h
    unfold GridMap.ofMsg
    exact if_pos (by rw [hm]; exact h.symm)
  · intro h
    refine ⟨GridMap.assign m, ?_, rfl, h⟩
    unfold GridMap.ofMsg
    exact if_neg (by rw [hm]; exact not_not.mpr h.symm)

/-- a message with two cells -/
def demoMsg [Flt F] : OccupancyGrid F :=
  { width := 2, height := 1, resolution := lit 1 0, originX := lit 0 0, originY := lit 0 0,
    data := [0, 100] }

example [Flt F] : (demoMsg : OccupancyGrid F).WellFormed := by
  constructor <;> simp [demoMsg, OccupancyGrid.numCells]

/-- C04 is false: a message that declares 65536 × 65536 cells and carries none is accepted,
because the product wraps to zero. -/
theorem C04_refuted [Flt F] : ¬ C04_statement F := by
  intro h
  have key : ∀ (w d : UInt32) (m : OccupancyGrid F), m.width = w → m.height = d → m.data = [] →
      w * d = 0 → 0 < w.toNat → 0 < d.toNat → False := by
    intro w d m hw hd h0 hz pw pd
    have hm : GridMap.ofMsg m = .ok (GridMap.assign m) := by
      unfold GridMap.ofMsg
      refine if_neg (not_not.mpr ?_)
      show (m.width * m.height).toNat = m.data.length
      rw [hw, hd, h0, hz]; rfl
    have := h m _ hm
    change m.data.length = m.width.toNat * m.height.toNat at this
    rw [hw, hd, h0] at this
    exact absurd this (Nat.mul_pos pw pd).ne
  exact key 65536 65536
    { width := 65536, height := 65536, resolution := lit 1 0, originX := lit 0 0,
      originY := lit 0 0, data := [] } rfl rfl rfl (by decide) (by decide) (by decide)

/-! ## C05 updates -/

/-- C05: after any history of updates, every member of the map is the corresponding field of
the last message; the earlier map and the earlier messages leave no trace. -/
theorem C05_last_message [Flt F] (g0 : GridMap F) (history : List (OccupancyGrid F))
    (m : OccupancyGrid F) :
    let g := (history ++ [m]).foldl GridMap.update g0
    g.xsize = m.width ∧ g.ysize = m.height ∧ g.resolution = m.resolution ∧
      g.xmin = m.originX ∧ g.ymin = m.originY ∧
      g.xmax = m.resolution *. Flt.ofInt m.width.toNat +. m.originX ∧
      g.ymax = m.resolution *. Flt.ofInt m.height.toNat +. m.originY ∧ g.data = m.data := by
  simp [List.foldl_append, GridMap.update, GridMap.assign, axisUpper]

/-- C05: two histories that end in the same message give the same map, so every query
answers the same. -/
theorem C05_history_irrelevant [Flt F] (g0 g0' : GridMap F)
    (h h' : List (OccupancyGrid F)) (m : OccupancyGrid F) :
    (h ++ [m]).foldl GridMap.update g0 = (h' ++ [m]).foldl GridMap.update g0' := by
  simp [List.foldl_append, GridMap.update]

/-! ## C06 stored cells -/

/-- `C06` full statement: with arbitrary messages, every reachable map stores as many cells
as it declares. -/
def C06_statement (F : Type) [Flt F] : Prop :=
  ∀ g : GridMap F, ReachableGrid (fun _ => True) g → g.data.length = numCells g

/-- C06 (missing: messages whose data does not match the declared size): every map reachable
through constructors and updates with well-formed messages is well formed. -/
theorem C06_wellFormed_partial [Flt F] (g : GridMap F)
    (h : ReachableGrid OccupancyGrid.WellFormed g) : WellFormed g := by
  induction h with
  | default => exact ⟨by simp [Fits, numCells, GridMap.empty], by simp [numCells, GridMap.empty]⟩
  | limits he hf =>
    refine ⟨hf, ?_⟩
    simp only [GridMap.ofLimits] at he
    obtain ⟨nx, hx, he⟩ := Res.bind_eq_ok.mp he
    obtain ⟨ny, hy, he⟩ := Res.bind_eq_ok.mp he
    split at he
    · simp at he
    · rename_i hne
      simp only [Res.ok.injEq] at he
      subst he
      rw [← size_toNat hf]; simpa using (not_not.mp hne).symm
  | msg he hf =>
    refine ⟨hf, ?_⟩
    simp only [GridMap.ofMsg] at he
    split at he
    · simp at he
    · rename_i hne
      simp only [Res.ok.injEq] at he
      subst he
      rw [← size_toNat hf]; simpa using (not_not.mp hne).symm
  | update _ hm _ => exact ⟨hm.1, hm.2⟩

example [Flt F] : ReachableGrid OccupancyGrid.WellFormed
    ((GridMap.empty : GridMap F).update demoMsg) :=
  .update .default (by constructor <;> simp [demoMsg, OccupancyGrid.numCells])

/-- C06: the default map is the one that the constructor builds from the message without cells and
with all numbers zero, so it is well formed and covers the single point at the origin. -/
theorem C06_default : GridMap.ofMsg (⟨0, 0, 0, 0, 0, []⟩ : OccupancyGrid ℝ) = .ok GridMap.empty := by
  simp [GridMap.ofMsg, GridMap.assign, GridMap.empty, axisUpper]

/-- C06 is false: `update` does not check the message. -/
theorem C06_refuted [Flt F] : ¬ C06_statement F := by
  intro h
  have := h _ (.update (m := { (demoMsg : OccupancyGrid F) with data := [] }) .default trivial)
  simp [GridMap.update, GridMap.assign, demoMsg, numCells] at this

/-! ## C07 cell centres -/

/-- C07: the cell of a cell centre is that cell. -/
theorem C07_world2Grid_grid2World (g : GridMap ℝ) (hr : 0 < g.resolution) (i j : UInt32)
    (h : IsCell g i j) :
    g.world2Grid (g.grid2World i j).c0 (g.grid2World i j).c1 = .ok (i, j) := by
  have hj : j ≠ g.xsize := by intro h'; rw [h'] at h; exact absurd h.2 (lt_irrefl _)
  have hi : i ≠ g.ysize := by intro h'; rw [h'] at h; exact absurd h.1 (lt_irrefl _)
  have e1 := centre_cast (lo := g.xmin) hr (n := j)
  have e2 := centre_cast (lo := g.ymin) hr (n := i)
  simp only [GridMap.world2Grid, GridMap.grid2World, real_add, real_mul, real_div, real_sub,
    real_ofInt, real_lit]
  norm_num only [pow_zero, Int.cast_ofNat, div_one]
  rw [e1, e2]
  simp [hi, hj]

/-- C07: the index of the centre of cell `k` is `k`. -/
theorem C07_world2RowMajor_grid2World (g : GridMap ℝ) (hr : 0 < g.resolution)
    (k : UInt32) (hk : k.toNat < numCells g) :
    ∃ p, g.grid2WorldIdx k = .ok p ∧ g.world2RowMajor p.c0 p.c1 = .ok k := by
  obtain ⟨i, j, h1, h2, h3⟩ := C01_grid2RowMajor_rowMajor2Grid g k hk
  refine ⟨g.grid2World i j, ?_, ?_⟩
  · simp [GridMap.grid2WorldIdx, h1, GridMap.grid2World]
  · simp [GridMap.world2RowMajor, C07_world2Grid_grid2World g hr i j h2, h3]

example : (0:ℝ) < demoGrid.resolution ∧ Fits demoGrid ∧ IsCell demoGrid 1 2 ∧
    (5 : UInt32).toNat < numCells demoGrid :=
  ⟨by simp [demoGrid], by decide, by decide, by decide⟩

/-! ## C08 coverage of the rectangle -/

/-- C08: every point of the closed map rectangle gets an existing cell whose closed square
contains the point. -/
theorem C08_rect_covered (g : GridMap ℝ) (hr : 0 < g.resolution) (hx : g.xsize ≠ 0)
    (hy : g.ysize ≠ 0) (x y : ℝ) (h : InRect g x y) :
    ∃ i j, g.world2Grid x y = .ok (i, j) ∧ IsCell g i j ∧ InClosedCell g i j x y := by
  obtain ⟨hx0, hx1, hy0, hy1⟩ := h
  obtain ⟨n, hn0, hn1⟩ := exists_strip hr hx0
  obtain ⟨m, hm0, hm1⟩ := exists_strip hr hy0
  have hn : n ≤ g.xsize.toNat := by exact_mod_cast nat_le_of_strip hr hn0 hx1
  have hm : m ≤ g.ysize.toNat := by exact_mod_cast nat_le_of_strip hr hm0 hy1
  have bx := uint32_lt g.xsize
  have by' := uint32_lt g.ysize
  have en := ofNat_toNat (show n < 2 ^ 32 by omega)
  have em := ofNat_toNat (show m < 2 ^ 32 by omega)
  have cx := strip_cast hr (by omega) hn0 hn1
  have cy := strip_cast hr (by omega) hm0 hm1
  rw [← en] at hn0 hn1 hn
  rw [← em] at hm0 hm1 hm
  refine ⟨_, _, by simp only [GridMap.world2Grid, real_sub, real_div, cx, cy, Res.ok_bind],
    ⟨(fold_lt_iff hy).mpr hm, (fold_lt_iff hx).mpr hn⟩, ?_⟩
  have fx := fold_strip hx hr hn0 hn1 hx1
  have fy := fold_strip hy hr hm0 hm1 hy1
  exact ⟨fx.1, fx.2, fy.1, fy.2⟩

/-- C08: away from the upper edges the cell is the unique one whose half-open square
contains the point. -/
theorem C08_half_open_exact (g : GridMap ℝ) (hr : 0 < g.resolution) (x y : ℝ) (i j : UInt32)
    (hc : IsCell g i j) (h : InHalfOpenCell g i j x y) : g.world2Grid x y = .ok (i, j) := by
  obtain ⟨hx0, hx1, hy0, hy1⟩ := h
  have cx := strip_cast hr (uint32_lt j) hx0 hx1
  have cy := strip_cast hr (uint32_lt i) hy0 hy1
  have hj : j ≠ g.xsize := by intro h'; rw [h'] at hc; exact absurd hc.2 (lt_irrefl _)
  have hi : i ≠ g.ysize := by intro h'; rw [h'] at hc; exact absurd hc.1 (lt_irrefl _)
  rw [uint32_ofNat_toNat] at cx cy
  simp only [GridMap.world2Grid, real_sub, real_div, cx, cy, Res.ok_bind, hi, hj, if_false]

/-- C08: `getCell(x, y)` reads the stored value of the cell whose half-open square contains
the point. -/
theorem C08_getCellXY (g : GridMap ℝ) (hr : 0 < g.resolution) (hw : WellFormed g) (x y : ℝ)
    (i j : UInt32) (hc : IsCell g i j) (h : InHalfOpenCell g i j x y) :
    ∃ v, cellAt g i.toNat j.toNat = some v ∧ g.getCellXY x y = .ok ((v.toInt : ℝ) / 100) := by
  have hw2 := C08_half_open_exact g hr x y i j hc h
  obtain ⟨e, hlt⟩ := rowMajor_toNat hw.fits hc
  have hlen : i.toNat * g.xsize.toNat + j.toNat < g.data.length := by rw [hw.size]; exact hlt
  refine ⟨g.data[i.toNat * g.xsize.toNat + j.toNat], by simp [cellAt, hlen], ?_⟩
  have hb : g.gridBoundsIdx (g.grid2RowMajor i j) = true :=
    (C03_gridBoundsIdx_exact_partial g hw.fits (by omega) _).mpr (by omega)
  simp [GridMap.getCellXY, GridMap.world2RowMajor, hw2, GridMap.getCellIdx, hb, e, hlen]

example : InRect demoGrid (3:ℝ) 2 ∧ InHalfOpenCell demoGrid 1 2 (2.5:ℝ) 1.5 ∧
    IsCell demoGrid 1 2 ∧ WellFormed demoGrid := by
  refine ⟨?_, ?_, by decide, demoGrid_wf⟩ <;>
    simp only [InRect, InHalfOpenCell, demoGrid, UInt32.toNat_ofNat] <;> norm_num

/-! ## C09 points outside -/

/-- `C09` full statement: a point outside the closed rectangle never gets an existing cell. -/
def C09_statement : Prop :=
  ∀ (g : GridMap ℝ), 0 < g.resolution → g.xsize ≠ 0 → g.ysize ≠ 0 → ∀ (x y : ℝ) (i j : UInt32),
    g.world2Grid x y = .ok (i, j) → IsCell g i j → InRect g x y

/-- C09 is false: on the 3 × 2 map, the point (3.5, 0.5), half a cell outside, is reported to
be in cell (0, 2). -/
theorem C09_refuted : ¬ C09_statement := by
  intro h
  have hr : (0:ℝ) < demoGrid.resolution := by simp [demoGrid]
  have cx : castU32 (Flt.floor (((3.5:ℝ) - demoGrid.xmin) / demoGrid.resolution)) =
      .ok (UInt32.ofNat 3) :=
    strip_cast hr (by norm_num) (by simp only [demoGrid]; norm_num)
      (by simp only [demoGrid]; norm_num)
  have cy : castU32 (Flt.floor (((0.5:ℝ) - demoGrid.ymin) / demoGrid.resolution)) =
      .ok (UInt32.ofNat 0) :=
    strip_cast hr (by norm_num) (by simp only [demoGrid]; norm_num)
      (by simp only [demoGrid]; norm_num)
  have hw : demoGrid.world2Grid (3.5:ℝ) (0.5:ℝ) = .ok (0, 2) := by
    simp only [GridMap.world2Grid, real_sub, real_div, cx, cy, Res.ok_bind]
    decide
  have := (h demoGrid hr (by decide) (by decide) _ _ _ _ hw (by decide)).2.1
  simp only [demoGrid, UInt32.toNat_ofNat] at this
  norm_num at this

/-- C09 (missing: the strip of one cell beyond the upper edges is not rejected): the exact
set of points that get an existing cell is the rectangle enlarged by one cell on the two
upper sides; in particular no point further outside, and none below a lower edge. -/
theorem C09_accepted_region_partial (g : GridMap ℝ) (hr : 0 < g.resolution)
    (hx : g.xsize ≠ 0) (hy : g.ysize ≠ 0) (x y : ℝ) :
    (∃ i j, g.world2Grid x y = .ok (i, j) ∧ IsCell g i j) ↔
      (g.xmin ≤ x ∧ x < g.xmin + (g.xsize.toNat + 1) * g.resolution ∧
       g.ymin ≤ y ∧ y < g.ymin + (g.ysize.toNat + 1) * g.resolution) := by
  constructor
  · rintro ⟨i, j, h, hc⟩
    simp only [GridMap.world2Grid, real_sub, real_div] at h
    obtain ⟨u, hu, h⟩ := Res.bind_eq_ok.mp h
    obtain ⟨v, hv, h⟩ := Res.bind_eq_ok.mp h
    simp only [Res.ok.injEq, Prod.mk.injEq] at h
    obtain ⟨rfl, rfl⟩ := h
    have h1 := (fold_lt_iff hx).mp hc.2
    have h2 := (fold_lt_iff hy).mp hc.1
    have sx := strip_of_cast hr hu
    have sy := strip_of_cast hr hv
    have c1 : (u.toNat : ℝ) ≤ g.xsize.toNat := by exact_mod_cast h1
    have c2 : (v.toNat : ℝ) ≤ g.ysize.toNat := by exact_mod_cast h2
    have p1 : (0:ℝ) ≤ u.toNat * g.resolution := by positivity
    have p2 : (0:ℝ) ≤ v.toNat * g.resolution := by positivity
    refine ⟨by linarith, ?_, by linarith, ?_⟩
    · have := mul_le_mul_of_nonneg_right c1 hr.le; linarith
    · have := mul_le_mul_of_nonneg_right c2 hr.le; linarith
  · rintro ⟨hx0, hx1, hy0, hy1⟩
    obtain ⟨n, hn0, hn1⟩ := exists_strip hr hx0
    obtain ⟨m, hm0, hm1⟩ := exists_strip hr hy0
    have hn : n < g.xsize.toNat + 1 := by exact_mod_cast nat_lt_of_strip hr hn0 hx1
    have hm : m < g.ysize.toNat + 1 := by exact_mod_cast nat_lt_of_strip hr hm0 hy1
    have bx := uint32_lt g.xsize
    have by' := uint32_lt g.ysize
    have en := ofNat_toNat (show n < 2 ^ 32 by omega)
    have em := ofNat_toNat (show m < 2 ^ 32 by omega)
    have cx := strip_cast hr (by omega) hn0 hn1
    have cy := strip_cast hr (by omega) hm0 hm1
    have hw : g.world2Grid x y = .ok (
        if UInt32.ofNat m = g.ysize then UInt32.ofNat m - 1 else UInt32.ofNat m,
        if UInt32.ofNat n = g.xsize then UInt32.ofNat n - 1 else UInt32.ofNat n) := by
      simp only [GridMap.world2Grid, real_sub, real_div, cx, cy, Res.ok_bind]
    exact ⟨_, _, hw, (fold_lt_iff hy).mpr (by omega), (fold_lt_iff hx).mpr (by omega)⟩

/-- C09, below the lower edges: the conversion of the negative quotient to `unsigned int`
is undefined behaviour. -/
theorem C09_below_is_undefined (g : GridMap ℝ) (hr : 0 < g.resolution) (x y : ℝ)
    (h : x < g.xmin ∨ y < g.ymin) : g.world2Grid x y = .ub := by
  simp only [GridMap.world2Grid, real_sub, real_div]
  rcases h with h | h
  · simp only [strip_ub hr h, Res.ub_bind]
  · simp only [strip_ub hr h]
    cases hc : castU32 (Flt.floor ((x - g.xmin) / g.resolution)) with
    | ok j => rfl
    | ub => rfl
    | throw e => unfold castU32 at hc; split at hc <;> [split at hc; skip] <;> nomatch hc
    | timeout => unfold castU32 at hc; split at hc <;> [split at hc; skip] <;> nomatch hc

example : (0:ℝ) < demoGrid.resolution ∧ (-1:ℝ) < demoGrid.xmin ∧ (-1:ℝ) < demoGrid.ymin := by
  simp [demoGrid]

/-! ## C10 reading by index -/

/-- C10: on a well-formed map (the empty one included) reading index `idx` returns the
stored integer divided by 100 when the index exists, and throws otherwise. -/
theorem C10_getCellIdx [Flt F] (g : GridMap F) (hw : WellFormed g) (idx : UInt32) :
    (∀ h : idx.toNat < numCells g,
      g.getCellIdx idx =
        .ok (Flt.ofInt (g.data[idx.toNat]'(by rw [hw.size]; exact h)).toInt /. lit 100 0)) ∧
    (¬ idx.toNat < numCells g → ∃ e, g.getCellIdx idx = .throw e) := by
  constructor
  · intro h
    have hb := (C03_gridBoundsIdx_exact_partial g hw.fits (by omega) idx).mpr h
    have hl : idx.toNat < g.data.length := by rw [hw.size]; exact h
    simp [GridMap.getCellIdx, hb, hl]
  · intro h
    unfold GridMap.getCellIdx
    split
    · exact ⟨_, rfl⟩
    · rw [List.getElem?_eq_none (by rw [hw.size]; omega)]
      exact ⟨_, rfl⟩

/-- C10: reading never reads outside the storage of *any* map, well formed or not: it either
throws or returns a value that is stored at that index. -/
theorem C10_getCellIdx_safe [Flt F] (g : GridMap F) (idx : UInt32) :
    (∃ e, g.getCellIdx idx = .throw e) ∨
      ∃ v, g.data[idx.toNat]? = some v ∧ g.getCellIdx idx = .ok (Flt.ofInt v.toInt /. lit 100 0) := by
  unfold GridMap.getCellIdx
  split
  · exact .inl ⟨_, rfl⟩
  · cases h : g.data[idx.toNat]? with
    | none => exact .inl ⟨_, rfl⟩
    | some v => exact .inr ⟨v, rfl, rfl⟩

/-- C10: when the stored integers are the ones a map message may hold (-1 or 0..100), the
value read is -0.01 (unknown) or lies in [0, 1]. -/
theorem C10_value_range (g : GridMap ℝ) (hd : ∀ v ∈ g.data, v = -1 ∨ (0 ≤ v.toInt ∧ v.toInt ≤ 100))
    (idx : UInt32) (r : ℝ) (h : g.getCellIdx idx = .ok r) : r = -1/100 ∨ (0 ≤ r ∧ r ≤ 1) := by
  rcases C10_getCellIdx_safe g idx with ⟨e, he⟩ | ⟨v, hv, hr⟩
  · rw [he] at h; simp at h
  · rw [hr] at h
    simp only [real_div, real_ofInt, real_lit, Res.ok.injEq] at h
    subst h
    rcases hd v (List.mem_of_getElem? hv) with rfl | ⟨h0, h1⟩
    · left; rw [show ((-1 : Int8).toInt) = -1 from by decide]; norm_num
    · right
      have a0 : (0:ℝ) ≤ v.toInt := by exact_mod_cast h0
      have a1 : (v.toInt:ℝ) ≤ 100 := by exact_mod_cast h1
      constructor
      · positivity
      · norm_num; linarith

example : WellFormed demoGrid ∧ (∀ v ∈ demoGrid.data, v = -1 ∨ (0 ≤ v.toInt ∧ v.toInt ≤ 100)) ∧
    (5 : UInt32).toNat < numCells demoGrid ∧ ¬ (6 : UInt32).toNat < numCells demoGrid :=
  ⟨demoGrid_wf, by decide, by decide, by decide⟩

/-! ## C11 reading by row and column -/

/-- `C11` full statement: reading a row/column pair that does not exist throws. -/
def C11_statement (F : Type) [Flt F] : Prop :=
  ∀ (g : GridMap F), WellFormed g → ∀ i j, ¬ IsCell g i j → ∃ e, g.getCell i j = .throw e

/-- C11: reading an existing row/column returns that cell's stored integer over 100. -/
theorem C11_getCell_exists [Flt F] (g : GridMap F) (hw : WellFormed g) (i j : UInt32)
    (hc : IsCell g i j) :
    ∃ v, cellAt g i.toNat j.toNat = some v ∧ g.getCell i j = .ok (Flt.ofInt v.toInt /. lit 100 0) := by
  obtain ⟨e, hlt⟩ := rowMajor_toNat hw.fits hc
  have hlen : i.toNat * g.xsize.toNat + j.toNat < g.data.length := by rw [hw.size]; exact hlt
  refine ⟨g.data[i.toNat * g.xsize.toNat + j.toNat], by simp [cellAt, hlen], ?_⟩
  have := (C10_getCellIdx g hw (g.grid2RowMajor i j)).1 (by omega)
  rw [GridMap.getCell, this]
  simp only [e]

/-- C11 (missing: columns past the end alias the next row): a row past the end, with an
existing column and no wrap-around, throws. -/
theorem C11_row_past_end_partial [Flt F] (g : GridMap F) (hw : WellFormed g) (i j : UInt32)
    (hi : g.ysize.toNat ≤ i.toNat) (hwrap : i.toNat * g.xsize.toNat + j.toNat < 2 ^ 32) :
    ∃ e, g.getCell i j = .throw e := by
  refine (C10_getCellIdx g hw (g.grid2RowMajor i j)).2 ?_
  have h1 : (i * g.xsize).toNat = i.toNat * g.xsize.toNat := mul_toNat (by omega)
  have : (g.grid2RowMajor i j).toNat = i.toNat * g.xsize.toNat + j.toNat := by
    rw [GridMap.grid2RowMajor, UInt32.toNat_add, h1, Nat.mod_eq_of_lt hwrap]
  rw [this, numCells]
  have := Nat.mul_le_mul_right g.xsize.toNat hi
  rw [Nat.mul_comm g.xsize.toNat]
  omega

/-- C11 is false in general, on every map with a second row: the missing column
`j = xsize` of row 0 reads cell (1, 0). -/
theorem C11_column_aliases [Flt F] (g : GridMap F) (hw : WellFormed g) (hx : g.xsize ≠ 0)
    (hy : 2 ≤ g.ysize.toNat) :
    ¬ IsCell g 0 g.xsize ∧ g.getCell 0 g.xsize = g.getCell 1 0 ∧
      ∃ v, g.getCell 0 g.xsize = .ok v := by
  have e : g.getCell 0 g.xsize = g.getCell 1 0 := by
    simp [GridMap.getCell, GridMap.grid2RowMajor]
  refine ⟨fun h => absurd h.2 (lt_irrefl _), e, ?_⟩
  obtain ⟨v, -, h⟩ := C11_getCell_exists g hw 1 0 ⟨hy, by
    simpa using uint32_pos_iff.mp hx⟩
  exact ⟨_, e.trans h⟩

/-- The full statement of C11 fails (exact arithmetic, the 3 × 2 map). -/
theorem C11_refuted : ¬ C11_statement ℝ := by
  intro h
  obtain ⟨hn, -, v, hv⟩ := C11_column_aliases demoGrid demoGrid_wf (by decide) (by decide)
  obtain ⟨e, he⟩ := h demoGrid demoGrid_wf _ _ hn
  rw [hv] at he; simp at he

example : WellFormed demoGrid ∧ demoGrid.ysize.toNat ≤ (2 : UInt32).toNat ∧
    (2 : UInt32).toNat * demoGrid.xsize.toNat + (1 : UInt32).toNat < 2 ^ 32 :=
  ⟨demoGrid_wf, by decide, by decide⟩

/-! ## C12 limits and sizes -/

/-- C12: the size recomputed from the limits is the size the limits were computed from. -/
theorem C12_axis_roundtrip (lower res : ℝ) (hr : 0 < res) (n : UInt32) :
    axisLength lower (axisUpper lower res n) res = .ok n := by
  have h : (res * ((n.toNat : Int) : ℝ) + lower - lower) / res = (n.toNat : ℝ) := by
    field_simp; push_cast; ring
  simp only [axisLength, axisUpper, real_add, real_mul, real_sub, real_div, real_ofInt, h,
    real_round, realRound_natCast, castU32_natCast (uint32_lt n), uint32_ofNat_toNat]

/-- C12: a map built from a message and a map built from that map's limits have the same
members. -/
theorem C12_ofMsg_ofLimits (m : OccupancyGrid ℝ) (hr : 0 < m.resolution) (g : GridMap ℝ)
    (h : GridMap.ofMsg m = .ok g) :
    GridMap.ofLimits g.xmin g.xmax g.ymin g.ymax g.resolution g.data = .ok g := by
  simp only [GridMap.ofMsg] at h
  split at h
  · simp at h
  · rename_i hne
    simp only [Res.ok.injEq] at h
    subst h
    have e1 := C12_axis_roundtrip m.originX m.resolution hr m.width
    have e2 := C12_axis_roundtrip m.originY m.resolution hr m.height
    simp only [GridMap.assign] at hne ⊢
    simp only [GridMap.ofLimits, e1, e2, Res.ok_bind, hne, if_false]

example : (0:ℝ) < (demoMsg : OccupancyGrid ℝ).resolution ∧
    ∃ g, GridMap.ofMsg (demoMsg : OccupancyGrid ℝ) = .ok g :=
  ⟨by simp [demoMsg], GridMap.assign demoMsg, by simp [GridMap.ofMsg, GridMap.assign, demoMsg]⟩

end Ergodic
