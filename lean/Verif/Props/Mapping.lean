import Verif.Lemmas.Mapping

/-!
# Properties C32–C38: occupancy mapping
-/

namespace Ergodic
variable {F : Type} [Flt F]

/-! ## C32 the cells of a ray -/

/-- C32: the ray trace is a sequence of "free" updates of a list of `max(|dx|,|dy|)` distinct
cells.  They are the cells of the digital segment except the end cell; the start cell is among
them (if it is not the end cell) and all lie in the bounding box of the two cells.  In
particular the trace always terminates and never reaches its final `throw`. -/
theorem C32_ray_cells (x0 y0 x1 y1 : Int) :
    ∃ l : List (Int × Int), l.Nodup ∧ l.length = max (x1 - x0).natAbs (y1 - y0).natAbs ∧
      (∀ x y, (x, y) ∈ l ↔ OnRay x0 y0 x1 y1 x y ∧ (x, y) ≠ (x1, y1)) ∧
      ((x0, y0) ≠ (x1, y1) → (x0, y0) ∈ l) ∧
      (∀ x y, (x, y) ∈ l → min x0 x1 ≤ x ∧ x ≤ max x0 x1 ∧ min y0 y1 ≤ y ∧ y ≤ max y0 y1) ∧
      ∀ (m : OccupancyMapper F) (g : GridMap F), m.rayTrace g x0 y0 x1 y1 =
        l.foldlM (fun g p => m.updateCell g p.1 p.2 m.log_odds_free) g := by
  refine ⟨rayCells x0 y0 x1 y1, rayCells_nodup _ _ _ _, rayCells_length _ _ _ _,
    fun x y => mem_rayCells, fun h => ?_, fun x y h => onRay_box (mem_rayCells.mp h).1,
    fun m g => ?_⟩
  · obtain ⟨t, ht⟩ := rayCells_head h
    rw [ht]; simp
  · rw [rayTrace_eq]
    generalize rayCells x0 y0 x1 y1 = l
    induction l generalizing g with
    | nil => rfl
    | cons p t ih =>
      obtain ⟨x, y⟩ := p
      simp only [markFree, List.map_cons, applyUpd, List.foldlM_cons]
      congr 1; funext g1
      exact ih g1

/-- the digital segment of a knight's move and of a long shallow ray -/
example : OnRay 0 0 2 1 1 0 ∧ ¬ OnRay 0 0 2 1 1 1 ∧ OnRay 5 3 (-4) 0 (-1) 1 := by decide

/-! ## C33 the ray follows the segment -/

/-- C33: a cell of the ray deviates from the straight line through the two cell centres, along
the minor axis, by at most half a cell. -/
theorem C33_half_cell (x0 y0 x1 y1 x y : Int) (h : OnRay x0 y0 x1 y1 x y) :
    2 * |(x - x0) * (y1 - y0) - (y - y0) * (x1 - x0)| ≤ max |x1 - x0| |y1 - y0| := by
  unfold OnRay at h
  have key : ∀ {xa ya xb yb x y : Int}, SegmentCell xa ya xb yb x y →
      2 * |(x - xa) * (yb - ya) - (y - ya) * (xb - xa)| ≤ xb - xa := by
    intro xa ya xb yb x y ⟨_, _, h3, h4⟩
    have : |(if yb < ya then -1 else 1) * ((x - xa) * (yb - ya) - (y - ya) * (xb - xa))| =
        |(x - xa) * (yb - ya) - (y - ya) * (xb - xa)| := by
      split_ifs
      · rw [abs_mul]; simp
      · rw [one_mul]
    rw [← this]
    rcases abs_cases ((if yb < ya then -1 else 1) *
      ((x - xa) * (yb - ya) - (y - ya) * (xb - xa))) with ⟨e, _⟩ | ⟨e, _⟩ <;> rw [e] <;> linarith
  split_ifs at h
  · have := key h
    exact this.trans ((le_abs_self _).trans (le_max_left _ _))
  · have := key h
    have e : (x - x0) * (y1 - y0) - (y - y0) * (x1 - x0) =
        -((x - x1) * (y0 - y1) - (y - y1) * (x0 - x1)) := by ring
    rw [e, abs_neg]
    refine this.trans (le_trans ?_ (le_max_left _ _))
    rw [abs_sub_comm]; exact le_abs_self _
  · have := key h
    rw [abs_sub_comm]
    exact this.trans ((le_abs_self _).trans (le_max_right _ _))
  · have := key h
    have e : (x - x0) * (y1 - y0) - (y - y0) * (x1 - x0) =
        ((y - y1) * (x0 - x1) - (x - x1) * (y0 - y1)) := by ring
    rw [e]
    refine this.trans (le_trans ?_ (le_max_right _ _))
    rw [abs_sub_comm]; exact le_abs_self _

theorem segment_adjacent {xa ya xb yb x y y' : Int} (hd : |yb - ya| ≤ xb - xa)
    (h : SegmentCell xa ya xb yb x y) (h' : SegmentCell xa ya xb yb (x + 1) y') : |y' - y| ≤ 1 := by
  have hlt := segmentCell_lt h
  obtain ⟨_, _, rfl⟩ := (segmentCell_iff hlt).mp h
  obtain ⟨_, _, rfl⟩ := (segmentCell_iff hlt).mp h'
  have hdx : 0 < xb - xa := by omega
  have hs := minor_spec (dx := xb - xa) (dy := |yb - ya|) (k := x - xa) hdx
  have hs' := minor_spec (dx := xb - xa) (dy := |yb - ya|) (k := x + 1 - xa) hdx
  have h0 := abs_nonneg (yb - ya)
  generalize minor (xb - xa) |yb - ya| (x - xa) = m at *
  generalize minor (xb - xa) |yb - ya| (x + 1 - xa) = m' at *
  generalize |yb - ya| = dy at *
  generalize hD : xb - xa = dx at *
  have e1 : m' ≤ m + 1 := by
    by_contra hc
    have : m + 2 ≤ m' := by omega
    have := mul_le_mul_of_nonneg_right this hdx.le
    nlinarith
  have e2 : m ≤ m' := by
    by_contra hc
    have : m' + 1 ≤ m := by omega
    have := mul_le_mul_of_nonneg_right this hdx.le
    nlinarith
  rw [abs_le]
  unfold dirOf
  split_ifs <;> omega

/-- C33, steep/shallow rays: along the longer axis there is exactly one cell per coordinate,
from the start to the end, and the cells of neighbouring coordinates are 8-neighbours; the
segment starts at the start cell and ends at the end cell. -/
theorem C33_connected_shallow (x0 y0 x1 y1 : Int) (hne : x0 ≠ x1) (hd : |y1 - y0| ≤ |x1 - x0|) :
    (∀ x, min x0 x1 ≤ x → x ≤ max x0 x1 → ∃! y, OnRay x0 y0 x1 y1 x y) ∧
    (∀ x y y', OnRay x0 y0 x1 y1 x y → OnRay x0 y0 x1 y1 (x + 1) y' → |y' - y| ≤ 1) ∧
    OnRay x0 y0 x1 y1 x0 y0 ∧ OnRay x0 y0 x1 y1 x1 y1 := by
  unfold OnRay
  simp only [if_pos hd]
  rcases lt_or_gt_of_ne hne with hlt | hgt
  · simp only [if_pos hlt.le]
    rw [abs_of_pos (show 0 < x1 - x0 by omega)] at hd
    refine ⟨fun x h0 h1 => ?_, fun x y y' h h' => segment_adjacent hd h h',
      (segmentCell_left hlt).mpr rfl, (segmentCell_right hlt).mpr rfl⟩
    simp only [segmentCell_iff hlt]
    exact ⟨_, ⟨by omega, by omega, rfl⟩, fun y h => h.2.2⟩
  · simp only [if_neg (not_le.mpr hgt)]
    rw [abs_of_neg (show x1 - x0 < 0 by omega), abs_sub_comm] at hd
    refine ⟨fun x h0 h1 => ?_, fun x y y' h h' => segment_adjacent (by omega) h h',
      (segmentCell_right hgt).mpr rfl, (segmentCell_left hgt).mpr rfl⟩
    simp only [segmentCell_iff hgt]
    exact ⟨_, ⟨by omega, by omega, rfl⟩, fun y h => h.2.2⟩

/-- C33, the same for rays that are longer in `y`. -/
theorem C33_connected_steep (x0 y0 x1 y1 : Int) (hd : |x1 - x0| < |y1 - y0|) :
    (∀ y, min y0 y1 ≤ y → y ≤ max y0 y1 → ∃! x, OnRay x0 y0 x1 y1 x y) ∧
    (∀ y x x', OnRay x0 y0 x1 y1 x y → OnRay x0 y0 x1 y1 x' (y + 1) → |x' - x| ≤ 1) ∧
    OnRay x0 y0 x1 y1 x0 y0 ∧ OnRay x0 y0 x1 y1 x1 y1 := by
  unfold OnRay
  simp only [if_neg (not_le.mpr hd)]
  have hne : y0 ≠ y1 := by
    rintro rfl
    simp at hd
    exact absurd hd (not_lt.mpr (abs_nonneg _))
  rcases lt_or_gt_of_ne hne with hlt | hgt
  · simp only [if_pos hlt.le]
    rw [abs_of_pos (show 0 < y1 - y0 by omega)] at hd
    refine ⟨fun x h0 h1 => ?_, fun x y y' h h' => segment_adjacent hd.le h h',
      (segmentCell_left hlt).mpr rfl, (segmentCell_right hlt).mpr rfl⟩
    simp only [segmentCell_iff hlt]
    exact ⟨_, ⟨by omega, by omega, rfl⟩, fun y h => h.2.2⟩
  · simp only [if_neg (not_le.mpr hgt)]
    rw [abs_of_neg (show y1 - y0 < 0 by omega), abs_sub_comm] at hd
    refine ⟨fun x h0 h1 => ?_, fun x y y' h h' => segment_adjacent (by omega) h h',
      (segmentCell_right hgt).mpr rfl, (segmentCell_left hgt).mpr rfl⟩
    simp only [segmentCell_iff hgt]
    exact ⟨_, ⟨by omega, by omega, rfl⟩, fun y h => h.2.2⟩

/-- C33: reversing a ray gives the same segment. -/
theorem C33_reversible (x0 y0 x1 y1 x y : Int) :
    OnRay x0 y0 x1 y1 x y ↔ OnRay x1 y1 x0 y0 x y := by
  unfold OnRay
  rw [abs_sub_comm y0, abs_sub_comm x0]
  split_ifs with h1 h2 h3 h4 h5 h6
  · obtain rfl : x0 = x1 := by omega
    constructor <;> intro h <;> exact absurd (segmentCell_lt h) (lt_irrefl _)
  · exact Iff.rfl
  · exact Iff.rfl
  · omega
  · obtain rfl : y0 = y1 := by omega
    constructor <;> intro h <;> exact absurd (segmentCell_lt h) (lt_irrefl _)
  · exact Iff.rfl
  · exact Iff.rfl
  · omega

example : (5 : Int) ≠ -4 ∧ |(0 : Int) - 3| ≤ |(-4 : Int) - 5| ∧ |(1 : Int) - 0| < |(7 : Int) - 2| := by
  decide

/-! ## C34 Bayes' rule -/

theorem floor_bayes {a b c : Int} (h0 : 0 ≤ c) (h1 : c ≤ 100) (ha : 0 < a) (hb : 0 < b) :
    ⌊100 * posterior ((c : ℝ) / 100) (a / (a + b))⌋ =
      100 * (a * c) / (a * c + b * (100 - c)) := by
  have ha' : (0:ℝ) < a := by exact_mod_cast ha
  have hb' : (0:ℝ) < b := by exact_mod_cast hb
  have hDz : 0 < a * c + b * (100 - c) := by
    rcases eq_or_lt_of_le h0 with h | h
    · subst h; nlinarith
    · have := mul_pos ha h
      have := mul_nonneg hb.le (show 0 ≤ 100 - c by omega)
      linarith
  have hD : (0:ℝ) < a * c + b * (100 - c) := by exact_mod_cast hDz
  have e : 100 * posterior ((c : ℝ) / 100) (a / (a + b)) =
      ((100 * (a * c) : Int) : ℝ) / ((a * c + b * (100 - c) : Int) : ℝ) := by
    unfold posterior
    have e2 : (c:ℝ) / 100 * (a / (a + b)) + (1 - c / 100) * (1 - a / (a + b)) =
        (a * c + b * (100 - c)) / (100 * (a + b)) := by
      field_simp; ring
    rw [e2]
    push_cast
    field_simp
  rw [e]
  rw [Int.floor_eq_iff]
  have hDc : (0:ℝ) < ((a * c + b * (100 - c) : Int) : ℝ) := by exact_mod_cast hDz
  have hdiv := Int.mul_ediv_add_emod (100 * (a * c)) (a * c + b * (100 - c))
  have hm0 := Int.emod_nonneg (100 * (a * c)) hDz.ne'
  have hm1 := Int.emod_lt_of_pos (100 * (a * c)) hDz
  constructor
  · rw [le_div_iff₀ hDc]
    exact_mod_cast (by nlinarith :
      100 * (a * c) / (a * c + b * (100 - c)) * (a * c + b * (100 - c)) ≤ 100 * (a * c))
  · rw [div_lt_iff₀ hDc]
    exact_mod_cast (by nlinarith :
      100 * (a * c) < (100 * (a * c) / (a * c + b * (100 - c)) + 1) * (a * c + b * (100 - c)))

theorem occStep_bayes {c : Int} (h0 : 0 ≤ c) (h1 : c ≤ 100) :
    occStep c = ⌊100 * posterior ((c : ℝ) / 100) 0.9⌋ := by
  have := floor_bayes (a := 9) (b := 1) h0 h1 (by norm_num) (by norm_num)
  norm_num at this ⊢
  rw [this, occStep]
  congr 1 <;> ring

theorem freeStep_bayes {c : Int} (h0 : 0 ≤ c) (h1 : c ≤ 100) :
    freeStep c = ⌊100 * posterior ((c : ℝ) / 100) 0.35⌋ := by
  have := floor_bayes (a := 7) (b := 13) h0 h1 (by norm_num) (by norm_num)
  norm_num at this ⊢
  rw [this, freeStep]
  congr 1 <;> ring

/-- C34: updating a cell with percentage `c` stores the Bayes posterior in percent, rounded
down, of the sensor model `0.90` (end of a beam) and leaves every other cell alone. -/
theorem C34_occupied (Tbs : M3 Dbl) (g : GridMap Dbl) (hw : WellFormed g) (x y : Int)
    (hin : InGrid g x y) (c : Int8) (hc : cellAt g y.toNat x.toNat = some c)
    (h0 : 0 ≤ c.toInt) (h1 : c.toInt ≤ 100) :
    ∃ g' v, (OccupancyMapper.new Tbs).updateCell g x y (OccupancyMapper.new Tbs).log_odds_occ =
        .ok g' ∧ SameGeometry g g' ∧ cellAt g' y.toNat x.toNat = some v ∧
      v.toInt = ⌊100 * posterior ((c.toInt : ℝ) / 100) 0.9⌋ ∧
      ∀ x' y', InGrid g x' y' → (x', y') ≠ (x, y) →
        cellAt g' y'.toNat x'.toNat = cellAt g y'.toNat x'.toNat := by
  have hr := occStep_range h0 h1
  refine ⟨setCell g x y (Int8.ofInt (occStep c.toInt)), Int8.ofInt (occStep c.toInt), ?_,
    setCell_geometry _ _ _ _, ?_, ?_, ?_⟩
  · rw [updateCell_eq _ hw hin _ hc, observe_occ Tbs h0 h1]; rfl
  · rw [setCell_cellAt hw _ hin hin, if_pos ⟨rfl, rfl⟩]
  · rw [int8_ofInt (by omega) (by omega), occStep_bayes h0 h1]
  · intro x' y' h' hne
    rw [setCell_cellAt hw _ hin h', if_neg]
    rintro ⟨rfl, rfl⟩; exact hne rfl

/-- C34: the same for a cell a beam passes through (`0.35`). -/
theorem C34_free (Tbs : M3 Dbl) (g : GridMap Dbl) (hw : WellFormed g) (x y : Int)
    (hin : InGrid g x y) (c : Int8) (hc : cellAt g y.toNat x.toNat = some c)
    (h0 : 0 ≤ c.toInt) (h1 : c.toInt ≤ 100) :
    ∃ g' v, (OccupancyMapper.new Tbs).updateCell g x y (OccupancyMapper.new Tbs).log_odds_free =
        .ok g' ∧ SameGeometry g g' ∧ cellAt g' y.toNat x.toNat = some v ∧
      v.toInt = ⌊100 * posterior ((c.toInt : ℝ) / 100) 0.35⌋ ∧
      ∀ x' y', InGrid g x' y' → (x', y') ≠ (x, y) →
        cellAt g' y'.toNat x'.toNat = cellAt g y'.toNat x'.toNat := by
  have hr := freeStep_range h0 h1
  refine ⟨setCell g x y (Int8.ofInt (freeStep c.toInt)), Int8.ofInt (freeStep c.toInt), ?_,
    setCell_geometry _ _ _ _, ?_, ?_, ?_⟩
  · rw [updateCell_eq _ hw hin _ hc, observe_free Tbs h0 h1]; rfl
  · rw [setCell_cellAt hw _ hin hin, if_pos ⟨rfl, rfl⟩]
  · rw [int8_ofInt (by omega) (by omega), freeStep_bayes h0 h1]
  · intro x' y' h' hne
    rw [setCell_cellAt hw _ hin h', if_neg]
    rintro ⟨rfl, rfl⟩; exact hne rfl

/-- a 3×1 map of half-known cells used in the examples -/
noncomputable def stripGrid (a b c : Int8) : GridMap Dbl :=
  { xsize := 3, ysize := 1, resolution := .fin 1, xmin := .fin 0, ymin := .fin 0,
    xmax := .fin 3, ymax := .fin 1, data := [a, b, c] }

theorem stripGrid_wf (a b c : Int8) : WellFormed (stripGrid a b c) := ⟨by
  show (3 : UInt32).toNat * (1 : UInt32).toNat < 2 ^ 32
  decide, rfl⟩

example : WellFormed (stripGrid 50 50 50) ∧ InGrid (stripGrid 50 50 50) 1 0 ∧
    cellAt (stripGrid 50 50 50) (0 : Int).toNat (1 : Int).toNat = some 50 ∧
    0 ≤ (50 : Int8).toInt ∧ (50 : Int8).toInt ≤ 100 :=
  ⟨stripGrid_wf _ _ _, ⟨by decide, by show (1 : Int) < (3 : UInt32).toNat; decide, by decide,
    by show (0 : Int) < (1 : UInt32).toNat; decide⟩, rfl, by decide, by decide⟩


/-! ## C36 what `updateMap` does to the map -/

/-- The sensor pose in the map frame. -/
def sensorPose (Tbs : M3 F) (pose : V3 F) : M3 F :=
  (transform2d pose.c0 pose.c1 pose.c2).mul Tbs

/-- C36, for every arithmetic: when `updateMap` returns `true`, the robot's cell is in the map,
the geometry is kept, and a cell is changed only if some beam with a valid range ends in the map
and the cell is on the traced ray to that end cell or is the end cell. -/
theorem C36_frame (m : OccupancyMapper F) (g g' : GridMap F) (hw : WellFormed g)
    (hsm : SmallGrid g) (hx : g.xsize ≠ 0) (hy : g.ysize ≠ 0) (scan : LaserScan F) (pose : V3 F)
    (h : m.updateMap g scan pose = .ok (true, g')) :
    ∃ src, g.world2Grid pose.c0 pose.c1 = .ok src ∧ IsCell g src.1 src.2 ∧
      SameGeometry g g' ∧ WellFormed g' ∧
      ∀ x y, InGrid g x y → cellAt g' y.toNat x.toNat ≠ cellAt g y.toNat x.toNat →
        ∃ k r hit, scan.ranges[k]? = some r ∧
          beamHit g (sensorPose m.Tbs pose) scan k r = some hit ∧
          ((x = hit.2.toNat ∧ y = hit.1.toNat) ∨
            OnRay src.2.toNat src.1.toNat hit.2.toNat hit.1.toNat x y) := by
  unfold OccupancyMapper.updateMap at h
  obtain ⟨src, hs, h⟩ := Res.bind_eq_ok.mp h
  have hb := C02_gridBounds_exact_partial g hx hy src.1 src.2
  by_cases hc : IsCell g src.1 src.2
  · rw [if_neg (by simp [hb.mpr hc])] at h
    obtain ⟨g1, h1, h2⟩ := Res.bind_eq_ok.mp h
    simp only [Res.ok.injEq, Prod.mk.injEq, true_and] at h2
    subst h2
    obtain ⟨i1, i2, i3⟩ := beamLoop_frame m scan (sensorPose m.Tbs pose) src g hsm hc scan.ranges 0
      g g1 (SameGeometry.refl _) hw h1
    refine ⟨src, hs, hc, i1, i2, fun x y hxy hne => ?_⟩
    by_contra hno
    apply hne
    apply i3 x y hxy
    intro i r hit hi hh
    rw [Nat.zero_add] at hh
    constructor
    · intro he; exact hno ⟨i, r, hit, hi, hh, Or.inl he⟩
    · intro he; exact hno ⟨i, r, hit, hi, hh, Or.inr he⟩
  · rw [if_pos (by rw [hb]; exact hc)] at h
    simp at h

/-- C36: when the robot's cell indices are outside the map the result is `false` and the map is
unchanged; and `false` is returned only then. -/
theorem C36_outside (m : OccupancyMapper F) (g : GridMap F) (hx : g.xsize ≠ 0) (hy : g.ysize ≠ 0)
    (scan : LaserScan F) (pose : V3 F) (src : UInt32 × UInt32)
    (hs : g.world2Grid pose.c0 pose.c1 = .ok src) :
    (¬ IsCell g src.1 src.2 → m.updateMap g scan pose = .ok (false, g)) ∧
    (∀ g', m.updateMap g scan pose = .ok (false, g') → ¬ IsCell g src.1 src.2 ∧ g' = g) := by
  have hb := C02_gridBounds_exact_partial g hx hy src.1 src.2
  unfold OccupancyMapper.updateMap
  rw [hs, Res.ok_bind]
  constructor
  · intro hc
    rw [if_pos (by rw [hb]; exact hc)]
  · intro g' h
    by_cases hc : IsCell g src.1 src.2
    · rw [if_neg (by simp [hb.mpr hc])] at h
      obtain ⟨g1, _, h2⟩ := Res.bind_eq_ok.mp h
      simp at h2
    · rw [if_pos (by rw [hb]; exact hc)] at h
      simp only [Res.ok.injEq, Prod.mk.injEq, true_and] at h
      exact ⟨hc, h.symm⟩

/-- C36, the complete effect (percentages, exact arithmetic with special values): the scan is
applied beam by beam, each beam marking its end cell occupied and the cells before it free,
exactly once. -/
theorem C36_evidence (Tbs : M3 Dbl) (g : GridMap Dbl) (hw : WellFormed g) (hsm : SmallGrid g)
    (hp : Percentages g) (scan : LaserScan Dbl) (pose : V3 Dbl) (src : UInt32 × UInt32)
    (hs : g.world2Grid pose.c0 pose.c1 = .ok src) (hc : IsCell g src.1 src.2)
    (hd : ∀ k r, scan.ranges[k]? = some r → RangeValid scan r →
      ∃ p, g.world2Grid (beamEnd (sensorPose Tbs pose) scan k r).c0
        (beamEnd (sensorPose Tbs pose) scan k r).c1 = .ok p) :
    ∃ g', (OccupancyMapper.new Tbs).updateMap g scan pose = .ok (true, g') ∧
      SameGeometry g g' ∧ WellFormed g' ∧ Percentages g' ∧
      ∀ x y, InGrid g x y → ∀ v, cellAt g y.toNat x.toNat = some v →
        ∃ v', cellAt g' y.toNat x.toNat = some v' ∧
          v'.toInt = scanEvidence g (sensorPose Tbs pose) scan src x y scan.ranges 0 v.toInt := by
  have hx : g.xsize ≠ 0 := by have := hc.2; intro h; rw [h] at this; simp at this
  have hy : g.ysize ≠ 0 := by have := hc.1; intro h; rw [h] at this; simp at this
  have hb := C02_gridBounds_exact_partial g hx hy src.1 src.2
  obtain ⟨g', h1, h2, h3, h4, h5⟩ := beamLoop_spec Tbs scan (sensorPose Tbs pose) src g hsm hc
    scan.ranges 0 g (SameGeometry.refl _) hw hp (by simpa using hd)
  refine ⟨g', ?_, h2, h3, h4, h5⟩
  unfold OccupancyMapper.updateMap
  rw [hs, Res.ok_bind, if_neg (by simp [hb.mpr hc])]
  have : (OccupancyMapper.new Tbs).beamLoop scan
      ((transform2d pose.c0 pose.c1 pose.c2).mul (OccupancyMapper.new Tbs).Tbs) src scan.ranges
      scan.angle_min g = .ok g' := h1
  dsimp only
  rw [this]; rfl

/-- The outside clause of C36 over the plane. -/
def C36_outside_statement : Prop :=
  ∀ (Tbs : M3 ℝ) (g : GridMap ℝ) (scan : LaserScan ℝ) (pose : V3 ℝ), WellFormed g →
    0 < g.resolution → g.xsize ≠ 0 → g.ysize ≠ 0 → ¬ InRect g pose.c0 pose.c1 →
    (OccupancyMapper.new Tbs).updateMap g scan pose = .ok (false, g)

/-- The outside clause is false over the plane: left of or below the map the conversion of the
robot position to a cell is undefined. -/
theorem C36_refuted_below (m : OccupancyMapper ℝ) (g : GridMap ℝ) (hr : 0 < g.resolution)
    (scan : LaserScan ℝ) (pose : V3 ℝ) (h : pose.c0 < g.xmin ∨ pose.c1 < g.ymin) :
    m.updateMap g scan pose = .ub := by
  unfold OccupancyMapper.updateMap
  rw [C09_below_is_undefined g hr _ _ h]; rfl

theorem C36_refuted : ¬ C36_outside_statement := by
  intro h
  have hr : (0:ℝ) < demoGrid.resolution := by simp [demoGrid]
  have h1 := h ⟨⟨1,0,0⟩,⟨0,1,0⟩,⟨0,0,1⟩⟩ demoGrid ⟨0,0,0,0,[]⟩ ⟨-1, 0, 0⟩ ⟨by decide, by decide⟩
    hr (by decide) (by decide) (by rintro ⟨h0, _⟩; simp [demoGrid] at h0; linarith)
  rw [C36_refuted_below _ demoGrid hr _ _ (.inl (by simp [demoGrid]))] at h1
  simp at h1

/-! ## C37 values stay percentages -/

/-- Feed a list of scans and poses to the mapper. -/
def runScans (m : OccupancyMapper F) : List (LaserScan F × V3 F) → GridMap F → Res (GridMap F)
  | [], g => .ok g
  | sp :: t, g => do
    let r ← m.updateMap g sp.1 sp.2
    runScans m t r.2

/-- C37: if all cells are percentages, they still are after any sequence of scans. -/
theorem C37_percentages (Tbs : M3 Dbl) (l : List (LaserScan Dbl × V3 Dbl)) :
    ∀ (g g' : GridMap Dbl), WellFormed g → SmallGrid g → g.xsize ≠ 0 → g.ysize ≠ 0 →
      Percentages g → runScans (OccupancyMapper.new Tbs) l g = .ok g' →
      Percentages g' ∧ WellFormed g' ∧ SameGeometry g g' := by
  induction l with
  | nil =>
    intro g g' hw _ _ _ hp h
    simp only [runScans, Res.ok.injEq] at h
    subst h; exact ⟨hp, hw, SameGeometry.refl _⟩
  | cons sp t ih =>
    intro g g' hw hsm hx hy hp h
    rw [runScans] at h
    obtain ⟨⟨b, g1⟩, h1, h2⟩ := Res.bind_eq_ok.mp h
    have hstep : Percentages g1 ∧ WellFormed g1 ∧ SameGeometry g g1 := by
      cases b with
      | true =>
        obtain ⟨src, e1, e2, e3, e4, _⟩ := C36_frame _ g g1 hw hsm hx hy _ _ h1
        refine ⟨?_, e4, e3⟩
        have hb := C02_gridBounds_exact_partial g hx hy src.1 src.2
        unfold OccupancyMapper.updateMap at h1
        rw [e1, Res.ok_bind, if_neg (by simp [hb.mpr e2])] at h1
        obtain ⟨g2, h3, h4⟩ := Res.bind_eq_ok.mp h1
        simp only [Res.ok.injEq, Prod.mk.injEq, true_and] at h4
        subst h4
        exact beamLoop_pct Tbs sp.1 _ src g hsm e2 sp.1.ranges 0 g g2 (SameGeometry.refl _) hw hp h3
      | false =>
        have : ∃ src, g.world2Grid sp.2.c0 sp.2.c1 = .ok src := by
          unfold OccupancyMapper.updateMap at h1
          obtain ⟨src, hs, _⟩ := Res.bind_eq_ok.mp h1
          exact ⟨src, hs⟩
        obtain ⟨src, hs⟩ := this
        obtain ⟨_, rfl⟩ := (C36_outside _ g hx hy sp.1 sp.2 src hs).2 _ h1
        exact ⟨hp, hw, SameGeometry.refl _⟩
    obtain ⟨k1, k2, k3⟩ := hstep
    have hx1 : g1.xsize ≠ 0 := by unfold SameGeometry at k3; rw [k3]; exact hx
    have hy1 : g1.ysize ≠ 0 := by unfold SameGeometry at k3; rw [k3]; exact hy
    have hs1 : SmallGrid g1 := by unfold SameGeometry at k3; rw [k3]; exact hsm
    obtain ⟨j1, j2, j3⟩ := ih g1 g' k2 hs1 hx1 hy1 k1 h2
    exact ⟨j1, j2, k3.trans j3⟩

/-! ## C35 evidence: direction, and what cannot be reversed -/

/-- `n` observations of the same kind of one cell. -/
def observeN (m : OccupancyMapper F) (x y : Int) (log : F) : Nat → GridMap F → Res (GridMap F)
  | 0, g => .ok g
  | n + 1, g => do
    let g ← m.updateCell g x y log
    observeN m x y log n g

theorem observeN_spec (Tbs : M3 Dbl) (log : Dbl) (f : Int → Int)
    (hf : ∀ c : Int8, 0 ≤ c.toInt → c.toInt ≤ 100 →
      observe (OccupancyMapper.new Tbs) log c = .ok (Int8.ofInt (f c.toInt)))
    (hr : ∀ c, 0 ≤ c → c ≤ 100 → 0 ≤ f c ∧ f c ≤ 100) (x y : Int) :
    ∀ (n : Nat) (g : GridMap Dbl), WellFormed g → InGrid g x y → ∀ c : Int8,
      cellAt g y.toNat x.toNat = some c → 0 ≤ c.toInt → c.toInt ≤ 100 →
      ∃ g' v, observeN (OccupancyMapper.new Tbs) x y log n g = .ok g' ∧
        cellAt g' y.toNat x.toNat = some v ∧ v.toInt = f^[n] c.toInt := by
  intro n
  induction n with
  | zero => intro g _ _ c hc _ _; exact ⟨g, c, rfl, hc, rfl⟩
  | succ n ih =>
    intro g hw hin c hc h0 h1
    have hr' := hr c.toInt h0 h1
    have ht := int8_ofInt hr'.1 hr'.2
    obtain ⟨g', v, e1, e2, e3⟩ := ih (setCell g x y (Int8.ofInt (f c.toInt)))
      (setCell_wf hw _ _ _) hin (Int8.ofInt (f c.toInt))
      (by rw [setCell_cellAt hw _ hin hin, if_pos ⟨rfl, rfl⟩]) (by rw [ht]; exact hr'.1)
      (by rw [ht]; exact hr'.2)
    refine ⟨g', v, ?_, e2, ?_⟩
    · rw [observeN, updateCell_eq _ hw hin _ hc, hf c h0 h1]; exact e1
    · rw [e3, ht, Function.iterate_succ_apply]

/-- C35 full statement: evidence moves a cell the right way, and enough contrary evidence
brings any cell across 50 %. -/
def C35_statement : Prop :=
  ∀ (Tbs : M3 Dbl) (g : GridMap Dbl) (x y : Int) (c : Int8), WellFormed g → InGrid g x y →
    cellAt g y.toNat x.toNat = some c → 0 ≤ c.toInt → c.toInt ≤ 100 →
    (∃ g' v, (OccupancyMapper.new Tbs).updateCell g x y (OccupancyMapper.new Tbs).log_odds_occ =
      .ok g' ∧ cellAt g' y.toNat x.toNat = some v ∧ c.toInt ≤ v.toInt) ∧
    (∃ g' v, (OccupancyMapper.new Tbs).updateCell g x y (OccupancyMapper.new Tbs).log_odds_free =
      .ok g' ∧ cellAt g' y.toNat x.toNat = some v ∧ v.toInt ≤ c.toInt) ∧
    (∃ n g' v, observeN (OccupancyMapper.new Tbs) x y (OccupancyMapper.new Tbs).log_odds_occ n g =
      .ok g' ∧ cellAt g' y.toNat x.toNat = some v ∧ 50 < v.toInt) ∧
    (∃ n g' v, observeN (OccupancyMapper.new Tbs) x y (OccupancyMapper.new Tbs).log_odds_free n g =
      .ok g' ∧ cellAt g' y.toNat x.toNat = some v ∧ v.toInt < 50)

/-- C35, direction (all percentages): strictly up on occupied evidence below 99, strictly down
on free evidence from 1 to 99, never the wrong way. -/
theorem C35_direction (Tbs : M3 Dbl) (g : GridMap Dbl) (x y : Int) (c : Int8) (hw : WellFormed g)
    (hin : InGrid g x y) (hc : cellAt g y.toNat x.toNat = some c) (h0 : 0 ≤ c.toInt)
    (h1 : c.toInt ≤ 100) :
    (∃ g' v, (OccupancyMapper.new Tbs).updateCell g x y (OccupancyMapper.new Tbs).log_odds_occ =
      .ok g' ∧ cellAt g' y.toNat x.toNat = some v ∧ c.toInt ≤ v.toInt ∧
      (1 ≤ c.toInt → c.toInt ≤ 98 → c.toInt < v.toInt)) ∧
    (∃ g' v, (OccupancyMapper.new Tbs).updateCell g x y (OccupancyMapper.new Tbs).log_odds_free =
      .ok g' ∧ cellAt g' y.toNat x.toNat = some v ∧ v.toInt ≤ c.toInt ∧
      (1 ≤ c.toInt → c.toInt ≤ 99 → v.toInt < c.toInt)) := by
  have ho := occStep_range h0 h1
  have hf := freeStep_range h0 h1
  constructor
  · refine ⟨setCell g x y (Int8.ofInt (occStep c.toInt)), Int8.ofInt (occStep c.toInt), ?_, ?_, ?_, ?_⟩
    · rw [updateCell_eq _ hw hin _ hc, observe_occ Tbs h0 h1]; rfl
    · rw [setCell_cellAt hw _ hin hin, if_pos ⟨rfl, rfl⟩]
    · rw [int8_ofInt (by omega) (by omega)]; exact ho.1
    · intro h2 h3
      rw [int8_ofInt (by omega) (by omega)]
      unfold occStep
      rw [Int.lt_iff_add_one_le, Int.le_ediv_iff_mul_le (by omega)]
      nlinarith
  · refine ⟨setCell g x y (Int8.ofInt (freeStep c.toInt)), Int8.ofInt (freeStep c.toInt), ?_, ?_, ?_, ?_⟩
    · rw [updateCell_eq _ hw hin _ hc, observe_free Tbs h0 h1]; rfl
    · rw [setCell_cellAt hw _ hin hin, if_pos ⟨rfl, rfl⟩]
    · rw [int8_ofInt (by omega) (by omega)]; exact hf.2
    · intro h2 h3
      rw [int8_ofInt (by omega) (by omega)]
      unfold freeStep
      apply Int.ediv_lt_of_lt_mul (by omega)
      nlinarith

theorem occ_reaches (k : Nat) : ∀ c : Int, 1 ≤ c → c ≤ 99 → 99 - c ≤ k → occStep^[k] c = 99 := by
  induction k with
  | zero => intro c h0 h1 h2; show c = 99; omega
  | succ k ih =>
    intro c h0 h1 h2
    rw [Function.iterate_succ_apply]
    have hle : occStep c ≤ 99 := by
      unfold occStep
      have : 900 * c / (100 + 8 * c) < 100 := by
        apply Int.ediv_lt_of_lt_mul (by omega); omega
      omega
    have hr := occStep_range (c := c) (by omega) (by omega)
    by_cases h3 : c = 99
    · exact ih _ (by omega) hle (by omega)
    · have h4 : c ≤ 98 := by omega
      have : c < occStep c := by
        unfold occStep
        rw [Int.lt_iff_add_one_le, Int.le_ediv_iff_mul_le (by omega)]
        nlinarith
      exact ih _ (by omega) hle (by omega)

theorem free_reaches (k : Nat) : ∀ c : Int, 0 ≤ c → c ≤ 99 → c ≤ k → freeStep^[k] c = 0 := by
  induction k with
  | zero => intro c h0 h1 h2; show c = 0; omega
  | succ k ih =>
    intro c h0 h1 h2
    rw [Function.iterate_succ_apply]
    have hr := freeStep_range (c := c) h0 (by omega)
    by_cases h3 : c = 0
    · subst h3; exact ih _ (by decide) (by decide) (by simp [freeStep])
    · have h4 : 1 ≤ c := by omega
      have : freeStep c < c := by
        unfold freeStep
        apply Int.ediv_lt_of_lt_mul (by omega)
        nlinarith
      exact ih _ hr.1 (by omega) (by omega)

/-- C35, reversal (missing: cells at 0 and at 100, for which it is false): from 1..99 % enough
occupied evidence brings a cell to 99 %, and enough free evidence to 0 %. -/
theorem C35_reversible_partial (Tbs : M3 Dbl) (g : GridMap Dbl) (x y : Int) (c : Int8)
    (hw : WellFormed g) (hin : InGrid g x y) (hc : cellAt g y.toNat x.toNat = some c)
    (h0 : 1 ≤ c.toInt) (h1 : c.toInt ≤ 99) :
    (∃ n g' v, observeN (OccupancyMapper.new Tbs) x y (OccupancyMapper.new Tbs).log_odds_occ n g =
      .ok g' ∧ cellAt g' y.toNat x.toNat = some v ∧ v.toInt = 99) ∧
    (∃ n g' v, observeN (OccupancyMapper.new Tbs) x y (OccupancyMapper.new Tbs).log_odds_free n g =
      .ok g' ∧ cellAt g' y.toNat x.toNat = some v ∧ v.toInt = 0) := by
  constructor
  · obtain ⟨g', v, e1, e2, e3⟩ := observeN_spec Tbs _ occStep (fun c a b => observe_occ Tbs a b)
      (fun c a b => by have := occStep_range a b; omega) x y 99 g hw hin c hc (by omega) (by omega)
    exact ⟨99, g', v, e1, e2, by rw [e3]; exact occ_reaches 99 _ h0 h1 (by omega)⟩
  · obtain ⟨g', v, e1, e2, e3⟩ := observeN_spec Tbs _ freeStep (fun c a b => observe_free Tbs a b)
      (fun c a b => by have := freeStep_range a b; omega) x y 99 g hw hin c hc (by omega) (by omega)
    exact ⟨99, g', v, e1, e2, by rw [e3]; exact free_reaches 99 _ (by omega) h1 (by omega)⟩

theorem scanEvidence_absorbing (g : GridMap F) (Tms : M3 F) (scan : LaserScan F)
    (src : UInt32 × UInt32) (x y : Int) (c : Int) (hc : c = 0 ∨ c = 100) (rs : List F) :
    ∀ k, scanEvidence g Tms scan src x y rs k c = c := by
  induction rs with
  | nil => intro k; rfl
  | cons r rs ih =>
    intro k
    have : beamEvidence src (beamHit g Tms scan k r) x y c = c := by
      unfold beamEvidence
      rcases hc with rfl | rfl
      · split <;> [rfl; (split_ifs <;> decide)]
      · split <;> [rfl; (split_ifs <;> decide)]
    rw [scanEvidence, this, ih]

/-- C35, what goes wrong: a cell at 0 % or at 100 % never changes again, whatever the scans. -/
theorem C35_refuted_stuck (Tbs : M3 Dbl) (g : GridMap Dbl) (hw : WellFormed g)
    (hsm : SmallGrid g) (hp : Percentages g) (scan : LaserScan Dbl) (pose : V3 Dbl)
    (src : UInt32 × UInt32) (hs : g.world2Grid pose.c0 pose.c1 = .ok src)
    (hc : IsCell g src.1 src.2)
    (hd : ∀ k r, scan.ranges[k]? = some r → RangeValid scan r →
      ∃ p, g.world2Grid (beamEnd (sensorPose Tbs pose) scan k r).c0
        (beamEnd (sensorPose Tbs pose) scan k r).c1 = .ok p)
    (x y : Int) (hin : InGrid g x y)
    (v : Int8) (hv : cellAt g y.toNat x.toNat = some v) (hv' : v = 0 ∨ v = 100) :
    ∃ g', (OccupancyMapper.new Tbs).updateMap g scan pose = .ok (true, g') ∧
      cellAt g' y.toNat x.toNat = some v := by
  obtain ⟨g', e1, _, _, _, e2⟩ := C36_evidence Tbs g hw hsm hp scan pose src hs hc hd
  obtain ⟨v', e3, e4⟩ := e2 x y hin v hv
  refine ⟨g', e1, ?_⟩
  rw [scanEvidence_absorbing _ _ _ _ _ _ _ (by rcases hv' with rfl | rfl <;> decide)] at e4
  rw [e3, Int8.toInt_inj.mp e4]

/-- C35, the dead end is reached in practice: seven free observations of a cell at 50 % store 0,
after which no number of occupied observations changes it. -/
theorem C35_refuted_seven (Tbs : M3 Dbl) (n : Nat) :
    ∃ g g', observeN (OccupancyMapper.new Tbs) 1 0 (OccupancyMapper.new Tbs).log_odds_free 7
        (stripGrid 50 50 50) = .ok g ∧
      observeN (OccupancyMapper.new Tbs) 1 0 (OccupancyMapper.new Tbs).log_odds_occ n g = .ok g' ∧
      cellAt g' 0 1 = some 0 := by
  have hin : InGrid (stripGrid 50 50 50) 1 0 :=
    ⟨by decide, by show (1 : Int) < (3 : UInt32).toNat; decide, by decide,
      by show (0 : Int) < (1 : UInt32).toNat; decide⟩
  have key : ∀ (k : Nat) (log : Dbl) (f : Int → Int), (∀ c : Int8, 0 ≤ c.toInt → c.toInt ≤ 100 →
      observe (OccupancyMapper.new Tbs) log c = .ok (Int8.ofInt (f c.toInt))) →
      (∀ c, 0 ≤ c → c ≤ 100 → 0 ≤ f c ∧ f c ≤ 100) → ∀ g : GridMap Dbl, WellFormed g →
      InGrid g 1 0 → ∀ c : Int8, cellAt g 0 1 = some c → 0 ≤ c.toInt → c.toInt ≤ 100 →
      ∃ g', observeN (OccupancyMapper.new Tbs) 1 0 log k g = .ok g' ∧ WellFormed g' ∧
        InGrid g' 1 0 ∧ ∃ v, cellAt g' 0 1 = some v ∧ v.toInt = f^[k] c.toInt := by
    intro k log f hf hr
    induction k with
    | zero => intro g hw hin c hc _ _; exact ⟨g, rfl, hw, hin, c, hc, rfl⟩
    | succ k ih =>
      intro g hw hin c hc h0 h1
      have hr' := hr c.toInt h0 h1
      have ht := int8_ofInt hr'.1 hr'.2
      obtain ⟨g', e1, e2, e3, v, e4, e5⟩ := ih (setCell g 1 0 (Int8.ofInt (f c.toInt)))
        (setCell_wf hw _ _ _) hin (Int8.ofInt (f c.toInt))
        (by
          have := setCell_cellAt hw (Int8.ofInt (f c.toInt)) hin hin
          rwa [if_pos ⟨rfl, rfl⟩] at this) (by rw [ht]; exact hr'.1) (by rw [ht]; exact hr'.2)
      refine ⟨g', ?_, e2, e3, v, e4, ?_⟩
      · rw [observeN, updateCell_eq _ hw hin _ hc, hf c h0 h1]; exact e1
      · rw [e5, ht, Function.iterate_succ_apply]
  obtain ⟨g, a1, a2, a3, v, a4, a5⟩ := key 7 _ freeStep (fun c a b => observe_free Tbs a b)
    (fun c a b => by have := freeStep_range a b; omega) (stripGrid 50 50 50) (stripGrid_wf _ _ _)
    hin 50 rfl (by decide) (by decide)
  have hv : v = 0 := by
    apply Int8.toInt_inj.mp
    rw [a5, show (50 : Int8).toInt = 50 from by decide]
    decide
  subst hv
  obtain ⟨g', b1, _, _, v', b4, b5⟩ := key n _ occStep (fun c a b => observe_occ Tbs a b)
    (fun c a b => by have := occStep_range a b; omega) g a2 a3 0 a4 (by decide) (by decide)
  refine ⟨g, g', a1, b1, ?_⟩
  rw [b4]
  congr 1
  apply Int8.toInt_inj.mp
  rw [b5, show (0 : Int8).toInt = 0 from by decide]
  exact Function.iterate_fixed (by decide) n

/-- C35 is false. -/
theorem C35_refuted : ¬ C35_statement := by
  intro h
  have hin : InGrid (stripGrid 0 0 0) 1 0 :=
    ⟨by decide, by show (1 : Int) < (3 : UInt32).toNat; decide, by decide,
      by show (0 : Int) < (1 : UInt32).toNat; decide⟩
  let T : M3 Dbl := ⟨⟨.fin 1, .fin 0, .fin 0⟩, ⟨.fin 0, .fin 1, .fin 0⟩, ⟨.fin 0, .fin 0, .fin 1⟩⟩
  obtain ⟨_, _, ⟨n, g', v, e1, e2, e3⟩, _⟩ := h T (stripGrid 0 0 0) 1 0 0 (stripGrid_wf _ _ _) hin
    rfl (by decide) (by decide)
  obtain ⟨g2, v2, f1, f2, f3⟩ := observeN_spec T _ occStep (fun c a b => observe_occ T a b)
      (fun c a b => by have := occStep_range a b; omega) 1 0 n (stripGrid 0 0 0)
      (stripGrid_wf _ _ _) hin 0 rfl (by decide) (by decide)
  rw [e1, Res.ok.injEq] at f1
  subst f1
  rw [e2, Option.some.injEq] at f2
  subst f2
  rw [f3, show (0 : Int8).toInt = 0 from by decide, Function.iterate_fixed (by decide) n] at e3
  omega

/-! ## C38 standard maps -/

/-- C38 full statement: values `-1..100` are accepted. -/
def C38_statement : Prop :=
  ∀ (Tbs : M3 Dbl) (g : GridMap Dbl) (scan : LaserScan Dbl) (pose : V3 Dbl)
    (src : UInt32 × UInt32), WellFormed g → SmallGrid g →
    (∀ v ∈ g.data, -1 ≤ v.toInt ∧ v.toInt ≤ 100) →
    g.world2Grid pose.c0 pose.c1 = .ok src → IsCell g src.1 src.2 →
    (∀ k r, scan.ranges[k]? = some r → RangeValid scan r →
      ∃ p, g.world2Grid (beamEnd (sensorPose Tbs pose) scan k r).c0
        (beamEnd (sensorPose Tbs pose) scan k r).c1 = .ok p ∧ IsCell g p.1 p.2) →
    ∃ r, (OccupancyMapper.new Tbs).updateMap g scan pose = .ok r

/-- C38 (missing: unknown cells, for which it is false): on a map of percentages `updateMap`
returns `true` for every scan whose end points convert to cell indices (in particular for every
scan that stays in the map). -/
theorem C38_known_partial (Tbs : M3 Dbl) (g : GridMap Dbl) (scan : LaserScan Dbl) (pose : V3 Dbl)
    (src : UInt32 × UInt32) (hw : WellFormed g) (hsm : SmallGrid g) (hp : Percentages g)
    (hs : g.world2Grid pose.c0 pose.c1 = .ok src) (hc : IsCell g src.1 src.2)
    (hd : ∀ k r, scan.ranges[k]? = some r → RangeValid scan r →
      ∃ p, g.world2Grid (beamEnd (sensorPose Tbs pose) scan k r).c0
        (beamEnd (sensorPose Tbs pose) scan k r).c1 = .ok p) :
    ∃ g', (OccupancyMapper.new Tbs).updateMap g scan pose = .ok (true, g') := by
  obtain ⟨g', h, _⟩ := C36_evidence Tbs g hw hsm hp scan pose src hs hc hd
  exact ⟨g', h⟩

/-- C38, what goes wrong: if the robot stands in an unknown cell and the first beam is valid and
ends in another cell of the map, the update is undefined behaviour (the log-odds of a negative
probability is NaN, which is then converted to `int8_t`). -/
theorem C38_refuted_unknown (Tbs : M3 Dbl) (g : GridMap Dbl) (scan : LaserScan Dbl)
    (pose : V3 Dbl) (src hit : UInt32 × UInt32) (hw : WellFormed g) (hsm : SmallGrid g)
    (hs : g.world2Grid pose.c0 pose.c1 = .ok src) (hc : IsCell g src.1 src.2)
    (v : Int8) (hv : cellAt g src.1.toNat src.2.toNat = some v) (hneg : v.toInt < 0)
    (r : Dbl) (rs : List Dbl) (hr : scan.ranges = r :: rs)
    (hh : beamHit g (sensorPose Tbs pose) scan 0 r = some hit) (hne : hit ≠ src) :
    (OccupancyMapper.new Tbs).updateMap g scan pose = .ub := by
  have hx : g.xsize ≠ 0 := by have := hc.2; intro h; rw [h] at this; simp at this
  have hy : g.ysize ≠ 0 := by have := hc.1; intro h; rw [h] at this; simp at this
  have hb := C02_gridBounds_exact_partial g hx hy src.1 src.2
  have hd : RangeValid scan r → ∃ p, g.world2Grid (beamEnd (sensorPose Tbs pose) scan 0 r).c0
      (beamEnd (sensorPose Tbs pose) scan 0 r).c1 = .ok p := by
    intro hv
    unfold beamHit at hh
    rw [if_pos hv] at hh
    split at hh
    · rename_i p hp; exact ⟨p, hp⟩
    · simp at hh
  have hbeam := beam_eq (OccupancyMapper.new Tbs) scan (sensorPose Tbs pose) hsm hc 0 r hd
  have hin : InGrid g src.2.toNat src.1.toNat := by
    obtain ⟨a, b⟩ := hc
    unfold InGrid; omega
  have hdist : ((src.2.toNat : Int), (src.1.toNat : Int)) ≠ ((hit.2.toNat : Int), (hit.1.toNat : Int)) := by
    intro h
    rw [Prod.mk.injEq] at h
    apply hne
    have h1 : hit.1 = src.1 := UInt32.toNat_inj.mp (by omega)
    have h2 : hit.2 = src.2 := UInt32.toNat_inj.mp (by omega)
    exact Prod.ext h1 h2
  obtain ⟨t, ht⟩ := rayCells_head hdist
  have hub : (OccupancyMapper.new Tbs).beam scan (sensorPose Tbs pose) src (beamAngle scan 0) r g =
      .ub := by
    rw [hbeam, hh, beamUpd, ht, markFree, List.map_cons, List.cons_append, applyUpd,
      updateCell_eq _ hw hin _ (v := v) (by simpa using hv), observe_unknown Tbs _ hneg]
    rfl
  unfold OccupancyMapper.updateMap
  rw [hs, Res.ok_bind, if_neg (by simp [hb.mpr hc]), hr]
  have : (OccupancyMapper.new Tbs).beamLoop scan
      ((transform2d pose.c0 pose.c1 pose.c2).mul (OccupancyMapper.new Tbs).Tbs) src (r :: rs)
      scan.angle_min g = .ub := by
    have h2 : (OccupancyMapper.new Tbs).beam scan
      ((transform2d pose.c0 pose.c1 pose.c2).mul (OccupancyMapper.new Tbs).Tbs) src
      scan.angle_min r g = .ub := hub
    rw [OccupancyMapper.beamLoop, h2]; rfl
  dsimp only
  rw [this]; rfl

/-- identity transform -/
noncomputable def idT : M3 Dbl :=
  ⟨⟨.fin 1, .fin 0, .fin 0⟩, ⟨.fin 0, .fin 1, .fin 0⟩, ⟨.fin 0, .fin 0, .fin 1⟩⟩

/-- a scan with one beam straight ahead of length 2 -/
noncomputable def oneBeam : LaserScan Dbl := ⟨.fin 0, .fin 1, .fin 0, .fin 10, [.fin 2]⟩

theorem castU32_fin {z : ℝ} {n : Nat} (h0 : (n : ℝ) ≤ z) (h1 : z < n + 1) (hn : n < 2 ^ 32) :
    castU32 (Flt.floor (Dbl.fin z)) = .ok (UInt32.ofNat n) := by
  have hz : ⌊z⌋ = (n : Int) := Int.floor_eq_iff.mpr ⟨by exact_mod_cast h0, by exact_mod_cast h1⟩
  have : realTrunc ((n : Int) : ℝ) = n := by
    unfold realTrunc
    rw [if_pos (by positivity), Int.floor_intCast]
  simp only [castU32, Dbl.floor_fin, Dbl.trunc_fin, hz, this]
  rw [if_pos ⟨by omega, by omega⟩]
  rfl

theorem strip_world {a b c : Int8} {x y : ℝ} {i j : Nat} (hx0 : (j : ℝ) ≤ x) (hx1 : x < j + 1)
    (hy0 : (i : ℝ) ≤ y) (hy1 : y < i + 1) (hj : j < 3) (hi : i < 1) :
    (stripGrid a b c).world2Grid (.fin x) (.fin y) = .ok (UInt32.ofNat i, UInt32.ofNat j) := by
  unfold GridMap.world2Grid
  simp only [stripGrid, Dbl.sub_fin, sub_zero]
  rw [Dbl.div_fin _ (by norm_num), Dbl.div_fin _ (by norm_num), div_one, div_one,
    castU32_fin hx0 hx1 (by omega), castU32_fin hy0 hy1 (by omega)]
  simp only [Res.ok_bind]
  have h1 : UInt32.ofNat j ≠ 3 := by
    intro h; have := congrArg UInt32.toNat h; rw [ofNat_toNat (by omega)] at this
    simp at this; omega
  have h2 : UInt32.ofNat i ≠ 1 := by
    intro h; have := congrArg UInt32.toNat h; rw [ofNat_toNat (by omega)] at this
    simp at this; omega
  simp only [h1, h2, if_false]

theorem strip_beam : beamEnd (sensorPose idT ⟨.fin 0.5, .fin 0.5, .fin 0⟩) oneBeam 0 (.fin 2) =
    ⟨.fin 2.5, .fin 0.5, .fin 1⟩ := by
  simp only [beamEnd, beamAngle, oneBeam, sensorPose, idT, polar2CartesianHomo, transform2d,
    M3.mulVec, M3.mul, M3.t, V3.dot, Function.iterate_zero, id, Dbl.cos_fin, Dbl.sin_fin,
    Dbl.mul_fin, Dbl.add_fin, Dbl.neg_fin, Dbl.lit_eq]
  norm_num

theorem oneBeam_valid : RangeValid oneBeam (.fin 2) := by
  simp only [RangeValid, oneBeam, Dbl.lt_fin_false]; norm_num

theorem strip_hit (a b c : Int8) :
    beamHit (stripGrid a b c) (sensorPose idT ⟨.fin 0.5, .fin 0.5, .fin 0⟩) oneBeam 0 (.fin 2) =
      some (0, 2) := by
  unfold beamHit
  rw [if_pos oneBeam_valid, strip_beam]
  simp only
  rw [strip_world (i := 0) (j := 2) (by norm_num) (by norm_num) (by norm_num) (by norm_num)
    (by norm_num) (by norm_num)]
  simp only
  rw [if_pos]
  · rfl
  · show (UInt32.ofNat 0).toNat < (1 : UInt32).toNat ∧ (UInt32.ofNat 2).toNat < (3 : UInt32).toNat
    decide

/-- C38 is false: on a map of unknown cells the first scan is undefined behaviour. -/
theorem C38_refuted : ¬ C38_statement := by
  intro h
  have hsrc : (stripGrid (-1) (-1) (-1)).world2Grid (.fin 0.5) (.fin 0.5) = .ok (0, 0) :=
    strip_world (i := 0) (j := 0) (by norm_num) (by norm_num) (by norm_num) (by norm_num)
      (by norm_num) (by norm_num)
  have hsm : SmallGrid (stripGrid (-1) (-1) (-1)) := by
    show (3 : UInt32).toNat < 2147483648 ∧ (1 : UInt32).toNat < 2147483648
    decide
  have hc : IsCell (stripGrid (-1) (-1) (-1)) 0 0 := by
    show (0 : UInt32).toNat < (1 : UInt32).toNat ∧ (0 : UInt32).toNat < (3 : UInt32).toNat
    decide
  obtain ⟨r, hr⟩ := h idT (stripGrid (-1) (-1) (-1)) oneBeam ⟨.fin 0.5, .fin 0.5, .fin 0⟩ (0, 0)
    (stripGrid_wf _ _ _) hsm
    (by intro v hv
        have : v = -1 := by simpa [stripGrid] using hv
        subst this; decide) hsrc hc
    (by
      intro k r hk hv
      have : k = 0 ∧ r = .fin 2 := by
        rcases k with _ | k
        · simp only [oneBeam, List.getElem?_cons_zero, Option.some.injEq] at hk
          exact ⟨rfl, hk.symm⟩
        · simp [oneBeam] at hk
      obtain ⟨rfl, rfl⟩ := this
      rw [strip_beam]
      refine ⟨_, strip_world (i := 0) (j := 2) (by norm_num) (by norm_num) (by norm_num)
        (by norm_num) (by norm_num) (by norm_num), ?_⟩
      show (UInt32.ofNat 0).toNat < (1 : UInt32).toNat ∧ (UInt32.ofNat 2).toNat < (3 : UInt32).toNat
      decide)
  rw [C38_refuted_unknown idT (stripGrid (-1) (-1) (-1)) oneBeam ⟨.fin 0.5, .fin 0.5, .fin 0⟩ (0, 0)
    (0, 2) (stripGrid_wf _ _ _) hsm hsrc hc (-1) rfl (by decide) (.fin 2) [] rfl (strip_hit _ _ _)
    (by decide)] at hr
  simp at hr

/-- The hypotheses of C35–C38 are met by a strip of half-known cells and a one-beam scan, and the
scan does what it should: 35 % before the end and 90 % at it. -/
theorem strip_scan : ∃ g', (OccupancyMapper.new idT).updateMap (stripGrid 50 50 50) oneBeam
      ⟨.fin 0.5, .fin 0.5, .fin 0⟩ = .ok (true, g') ∧
    cellAt g' 0 0 = some 35 ∧ cellAt g' 0 1 = some 35 ∧ cellAt g' 0 2 = some 90 := by
  have hsrc : (stripGrid 50 50 50).world2Grid (.fin 0.5) (.fin 0.5) = .ok (0, 0) :=
    strip_world (i := 0) (j := 0) (by norm_num) (by norm_num) (by norm_num) (by norm_num)
      (by norm_num) (by norm_num)
  have hsm : SmallGrid (stripGrid 50 50 50) := by
    show (3 : UInt32).toNat < 2147483648 ∧ (1 : UInt32).toNat < 2147483648
    decide
  have hc : IsCell (stripGrid 50 50 50) 0 0 := by
    show (0 : UInt32).toNat < (1 : UInt32).toNat ∧ (0 : UInt32).toNat < (3 : UInt32).toNat
    decide
  have hp : Percentages (stripGrid 50 50 50) := by
    intro v hv
    have : v = 50 := by simpa [stripGrid] using hv
    subst this; decide
  obtain ⟨g', h1, h2, h3, h4, h5⟩ := C36_evidence idT (stripGrid 50 50 50) (stripGrid_wf _ _ _) hsm
    hp oneBeam ⟨.fin 0.5, .fin 0.5, .fin 0⟩ (0, 0) hsrc hc (by
      intro k r hk hv
      have : k = 0 ∧ r = .fin 2 := by
        rcases k with _ | k
        · simp only [oneBeam, List.getElem?_cons_zero, Option.some.injEq] at hk
          exact ⟨rfl, hk.symm⟩
        · simp [oneBeam] at hk
      obtain ⟨rfl, rfl⟩ := this
      rw [strip_beam]
      exact ⟨_, strip_world (i := 0) (j := 2) (by norm_num) (by norm_num) (by norm_num)
        (by norm_num) (by norm_num) (by norm_num)⟩)
  have hg : ∀ x : Int, 0 ≤ x → x < 3 → InGrid (stripGrid 50 50 50) x 0 := by
    intro x h0 h1
    exact ⟨h0, by show x < ((3 : UInt32).toNat : Int); exact h1, by decide,
      by show (0 : Int) < (1 : UInt32).toNat; decide⟩
  have hev : ∀ x, scanEvidence (stripGrid 50 50 50) (sensorPose idT ⟨.fin 0.5, .fin 0.5, .fin 0⟩)
      oneBeam (0, 0) x 0 oneBeam.ranges 0 (50 : Int8).toInt =
      beamEvidence (0, 0) (some (0, 2)) x 0 50 := by
    intro x
    show scanEvidence _ _ _ _ x 0 [Dbl.fin 2] 0 (50 : Int8).toInt = _
    rw [scanEvidence, scanEvidence, strip_hit]; rfl
  have val : ∀ (x : Int) (w : Int8), 0 ≤ x → x < 3 → cellAt (stripGrid 50 50 50) 0 x.toNat = some 50 →
      beamEvidence (0, 0) (some (0, 2)) x 0 50 = w.toInt → cellAt g' 0 x.toNat = some w := by
    intro x w a b c d
    obtain ⟨v', e1, e2⟩ := h5 x 0 (hg x a b) 50 c
    rw [hev, d] at e2
    have e1' : cellAt g' 0 x.toNat = some v' := e1
    rw [e1', Int8.toInt_inj.mp e2]
  exact ⟨g', h1, val 0 35 (by decide) (by decide) rfl (by decide),
    val 1 35 (by decide) (by decide) rfl (by decide), val 2 90 (by decide) (by decide) rfl (by decide)⟩

end Ergodic
