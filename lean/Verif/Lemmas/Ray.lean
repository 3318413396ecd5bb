import Verif.Spec.Mapping
import Verif.Lemmas.Collision

/-!
# Ray tracing as a list of cells
-/

namespace Ergodic
variable {F : Type} [Flt F]

/-- Apply a list of cell updates in order: `(x, y, log)`. -/
def applyUpd (m : OccupancyMapper F) : List (Int × Int × F) → GridMap F → Res (GridMap F)
  | [], g => .ok g
  | (x, y, log) :: t, g => do
    let g ← m.updateCell g x y log
    applyUpd m t g

theorem applyUpd_append (m : OccupancyMapper F) (l l' : List (Int × Int × F)) :
    ∀ g, applyUpd m (l ++ l') g = (applyUpd m l g >>= fun g => applyUpd m l' g) := by
  induction l with
  | nil => intro g; rfl
  | cons p t ih =>
    intro g
    obtain ⟨x, y, log⟩ := p
    simp only [List.cons_append, applyUpd, ih]
    cases m.updateCell g x y log <;> rfl

/-- Mark a list of cells as free. -/
def markFree (m : OccupancyMapper F) (l : List (Int × Int)) : List (Int × Int × F) :=
  l.map (fun p => (p.1, p.2, m.log_odds_free))

/-- Steps taken along the minor axis after `k` steps along the major axis. -/
def minor (dx dy k : Int) : Int := (2 * k * dy + dx - 1) / (2 * dx)

theorem minor_spec {dx dy k : Int} (hdx : 0 < dx) :
    -dx < 2 * (k * dy - minor dx dy k * dx) ∧ 2 * (k * dy - minor dx dy k * dx) ≤ dx := by
  unfold minor
  have h1 := Int.mul_ediv_add_emod (2 * k * dy + dx - 1) (2 * dx)
  have h2 := Int.emod_nonneg (2 * k * dy + dx - 1) (show 2 * dx ≠ 0 by omega)
  have h3 := Int.emod_lt_of_pos (2 * k * dy + dx - 1) (show 0 < 2 * dx by omega)
  constructor <;> nlinarith

theorem minor_unique {dx dy k m : Int} (hdx : 0 < dx) (h1 : -dx < 2 * (k * dy - m * dx))
    (h2 : 2 * (k * dy - m * dx) ≤ dx) : m = minor dx dy k := by
  obtain ⟨h3, h4⟩ := minor_spec (dx := dx) (dy := dy) (k := k) hdx
  rcases lt_trichotomy m (minor dx dy k) with h | h | h
  · nlinarith
  · exact h
  · nlinarith

theorem lineLowLoop_eq (m : OccupancyMapper F) (dx dy yi xa ya : Int) (hdx : 0 < dx)
    (hdy : 0 ≤ dy) (hle : dy ≤ dx) :
    ∀ (n : Nat) (k : Nat) (g : GridMap F), 1 ≤ k →
      m.lineLowLoop dx dy yi n (xa + k) (ya + yi * minor dx dy k)
        (2 * dy * (k + 1) - 2 * dx * minor dx dy k - dx) k g =
      applyUpd m (markFree m ((List.range' k n).map
        (fun i : Nat => (xa + (i : Int), ya + yi * minor dx dy i)))) g := by
  intro n
  induction n with
  | zero => intro k g _; rfl
  | succ n ih =>
    intro k g hk
    rw [OccupancyMapper.lineLowLoop, if_pos (by omega), List.range'_succ]
    simp only [markFree, List.map_cons, applyUpd]
    congr 1
    funext g1
    have hs := minor_spec (dx := dx) (dy := dy) (k := k) hdx
    have hstep : minor dx dy ((k + 1 : Nat) : Int) =
        if 2 * dy * (k + 1) - 2 * dx * minor dx dy k - dx > 0 then minor dx dy k + 1
        else minor dx dy k := by
      symm
      split_ifs with hc
      · apply minor_unique hdx <;> push_cast <;> nlinarith
      · apply minor_unique hdx <;> push_cast <;> nlinarith
    have := ih (k + 1) g1 (by omega)
    rw [hstep] at this
    rw [markFree] at this
    rw [← this]
    split_ifs with hc
    · push_cast; congr 1 <;> ring
    · push_cast; congr 1 <;> ring

theorem lineHighLoop_eq (m : OccupancyMapper F) (dx dy xi xa ya : Int) (hdy : 0 < dy)
    (hdx : 0 ≤ dx) (hle : dx ≤ dy) :
    ∀ (n : Nat) (k : Nat) (g : GridMap F), 1 ≤ k →
      m.lineHighLoop dx dy xi n (xa + xi * minor dy dx k) (ya + k)
        (2 * dx * (k + 1) - 2 * dy * minor dy dx k - dy) k g =
      applyUpd m (markFree m ((List.range' k n).map
        (fun i : Nat => (xa + xi * minor dy dx i, ya + (i : Int))))) g := by
  intro n
  induction n with
  | zero => intro k g _; rfl
  | succ n ih =>
    intro k g hk
    rw [OccupancyMapper.lineHighLoop, if_pos (by omega), List.range'_succ]
    simp only [markFree, List.map_cons, applyUpd]
    congr 1
    funext g1
    have hs := minor_spec (dx := dy) (dy := dx) (k := k) hdy
    have hstep : minor dy dx ((k + 1 : Nat) : Int) =
        if 2 * dx * (k + 1) - 2 * dy * minor dy dx k - dy > 0 then minor dy dx k + 1
        else minor dy dx k := by
      symm
      split_ifs with hc
      · apply minor_unique hdy <;> push_cast <;> nlinarith
      · apply minor_unique hdy <;> push_cast <;> nlinarith
    have := ih (k + 1) g1 (by omega)
    rw [hstep] at this
    rw [markFree] at this
    rw [← this]
    split_ifs with hc
    · push_cast; congr 1 <;> ring
    · push_cast; congr 1 <;> ring


theorem minor_zero {dx dy : Int} (hdx : 0 < dx) : minor dx dy 0 = 0 :=
  (minor_unique hdx (by simp; omega) (by simp; omega)).symm

theorem minor_full {dx dy : Int} (hdx : 0 < dx) : minor dx dy dx = dy :=
  (minor_unique hdx (by ring_nf; omega) (by ring_nf; omega)).symm

theorem minor_flat {dx k : Int} (hdx : 0 < dx) : minor dx 0 k = 0 :=
  (minor_unique hdx (by simp; omega) (by simp; omega)).symm

theorem minor_diag {dx k : Int} (hdx : 0 < dx) : minor dx dx k = k :=
  (minor_unique hdx (by simp; omega) (by simp; omega)).symm

/-- The direction of the minor axis. -/
def dirOf (a b : Int) : Int := if b < a then -1 else 1

/-- The cells strictly between the ends of a segment walked along `x`. -/
def segCells (xa ya xb yb : Int) : List (Int × Int) :=
  (List.range' 1 ((xb - xa).toNat - 1)).map
    (fun k : Nat => (xa + (k : Int), ya + dirOf ya yb * minor (xb - xa) |yb - ya| k))

theorem segmentCell_iff {xa ya xb yb x y : Int} (h : xa < xb) :
    SegmentCell xa ya xb yb x y ↔
      xa ≤ x ∧ x ≤ xb ∧ y = ya + dirOf ya yb * minor (xb - xa) |yb - ya| (x - xa) := by
  unfold SegmentCell dirOf
  have hdx : 0 < xb - xa := by omega
  constructor
  · rintro ⟨h1, h2, h3, h4⟩
    refine ⟨h1, h2, ?_⟩
    split_ifs at h3 h4 ⊢ with hc
    · rw [abs_of_neg (by omega)]
      have := minor_unique (dx := xb - xa) (dy := -(yb - ya)) (k := x - xa) (m := ya - y) hdx
        (by nlinarith) (by nlinarith)
      omega
    · rw [abs_of_nonneg (by omega)]
      have := minor_unique (dx := xb - xa) (dy := yb - ya) (k := x - xa) (m := y - ya) hdx
        (by nlinarith) (by nlinarith)
      omega
  · rintro ⟨h1, h2, h3⟩
    refine ⟨h1, h2, ?_⟩
    have hs := minor_spec (dx := xb - xa) (dy := |yb - ya|) (k := x - xa) hdx
    subst h3
    split_ifs with hc
    · rw [abs_of_neg (by omega)] at *
      constructor <;> nlinarith
    · rw [abs_of_nonneg (by omega)] at *
      constructor <;> nlinarith

theorem mem_segCells {xa ya xb yb x y : Int} (h : xa < xb) :
    (x, y) ∈ segCells xa ya xb yb ↔ SegmentCell xa ya xb yb x y ∧ xa < x ∧ x < xb := by
  rw [segmentCell_iff h, segCells, List.mem_map]
  constructor
  · rintro ⟨k, hk, he⟩
    rw [List.mem_range'_1] at hk
    simp only [Prod.mk.injEq] at he
    obtain ⟨rfl, rfl⟩ := he
    refine ⟨⟨by omega, by omega, ?_⟩, by omega, by omega⟩
    rw [show xa + (k : Int) - xa = k by omega]
  · rintro ⟨⟨h1, h2, h3⟩, h4, h5⟩
    refine ⟨(x - xa).toNat, ?_, ?_⟩
    · rw [List.mem_range'_1]; omega
    · have : (((x - xa).toNat : Nat) : Int) = x - xa := by omega
      rw [this, h3]
      simp

theorem segCells_nodup (xa ya xb yb : Int) : (segCells xa ya xb yb).Nodup := by
  unfold segCells
  refine List.Nodup.map ?_ List.nodup_range'
  intro a b hab
  simp only [Prod.mk.injEq] at hab
  omega

theorem segmentCell_left {xa ya xb yb y : Int} (h : xa < xb) :
    SegmentCell xa ya xb yb xa y ↔ y = ya := by
  rw [segmentCell_iff h]
  simp [minor_zero (show 0 < xb - xa by omega)]
  omega

theorem segmentCell_right {xa ya xb yb y : Int} (h : xa < xb) :
    SegmentCell xa ya xb yb xb y ↔ y = yb := by
  rw [segmentCell_iff h]
  rw [minor_full (show 0 < xb - xa by omega)]
  have : ya + dirOf ya yb * |yb - ya| = yb := by
    unfold dirOf
    split_ifs with hc
    · rw [abs_of_neg (by omega)]; omega
    · rw [abs_of_nonneg (by omega)]; omega
  rw [this]
  constructor
  · rintro ⟨-, -, h⟩; exact h
  · rintro rfl; exact ⟨by omega, le_refl _, rfl⟩

/-- The cells `rayTrace` marks, in order. -/
def rayCells (x0 y0 x1 y1 : Int) : List (Int × Int) :=
  if x1 - x0 = 0 ∨ y1 - y0 = 0 ∨ |y1 - y0| = |x1 - x0| then
    (List.range (max (x1 - x0).natAbs (y1 - y0).natAbs)).map
      (fun k : Nat => (x0 + (x1 - x0).sign * k, y0 + (y1 - y0).sign * k))
  else if |y1 - y0| < |x1 - x0| then
    (x0, y0) :: (if x0 > x1 then segCells x1 y1 x0 y0 else segCells x0 y0 x1 y1)
  else
    (x0, y0) :: (if y0 > y1 then (segCells y1 x1 y0 x0).map Prod.swap
      else (segCells y0 x0 y1 x1).map Prod.swap)

theorem mem_swap_segCells {xa ya xb yb x y : Int} (h : xa < xb) :
    (y, x) ∈ (segCells xa ya xb yb).map Prod.swap ↔
      SegmentCell xa ya xb yb x y ∧ xa < x ∧ x < xb := by
  rw [← mem_segCells h, List.mem_map]
  constructor
  · rintro ⟨⟨a, b⟩, hm, he⟩
    simp only [Prod.swap_prod_mk, Prod.mk.injEq] at he
    obtain ⟨rfl, rfl⟩ := he
    exact hm
  · intro hm; exact ⟨(x, y), hm, rfl⟩

theorem mem_straightCells {x0 y0 sx sy x y : Int} {n : Nat} :
    (x, y) ∈ (List.range n).map (fun k : Nat => (x0 + sx * (k : Int), y0 + sy * (k : Int))) ↔
      ∃ k : Int, 0 ≤ k ∧ k < n ∧ x = x0 + sx * k ∧ y = y0 + sy * k := by
  rw [List.mem_map]
  constructor
  · rintro ⟨k, hk, he⟩
    simp only [Prod.mk.injEq] at he
    rw [List.mem_range] at hk
    exact ⟨k, by omega, by omega, he.1.symm, he.2.symm⟩
  · rintro ⟨k, h0, hk, hx, hy⟩
    refine ⟨k.toNat, by rw [List.mem_range]; omega, ?_⟩
    have : ((k.toNat : Nat) : Int) = k := by omega
    rw [this, hx, hy]

theorem mem_straight {x0 y0 x1 y1 x y : Int}
    (hst : x1 - x0 = 0 ∨ y1 - y0 = 0 ∨ |y1 - y0| = |x1 - x0|) :
    (x, y) ∈ (List.range (max (x1 - x0).natAbs (y1 - y0).natAbs)).map
      (fun k : Nat => (x0 + (x1 - x0).sign * k, y0 + (y1 - y0).sign * k)) ↔
    (if |y1 - y0| ≤ |x1 - x0| then
      if x0 ≤ x1 then SegmentCell x0 y0 x1 y1 x y else SegmentCell x1 y1 x0 y0 x y
    else
      if y0 ≤ y1 then SegmentCell y0 x0 y1 x1 y x else SegmentCell y1 x1 y0 x0 y x) ∧
    (x, y) ≠ (x1, y1) := by
  rw [mem_straightCells]
  simp only [ne_eq, Prod.mk.injEq]
  rcases lt_trichotomy x0 x1 with hx | hx | hx <;> rcases lt_trichotomy y0 y1 with hy | hy | hy
  · -- diagonal, up right
    have hd : y1 - y0 = x1 - x0 := by
      rw [abs_of_pos (by omega), abs_of_pos (by omega)] at hst; omega
    rw [if_pos (by rw [hd]), if_pos hx.le, segmentCell_iff hx, hd, abs_of_pos (by omega),
      minor_diag (by omega), Int.sign_eq_one_of_pos (by omega), dirOf, if_neg (by omega)]
    constructor
    · rintro ⟨k, h0, h1, rfl, rfl⟩; omega
    · rintro ⟨⟨h1, h2, h3⟩, h4⟩; exact ⟨x - x0, by omega, by omega, by omega, by omega⟩
  · subst hy
    rw [if_pos (by simp), if_pos hx.le, segmentCell_iff hx, sub_self, abs_zero,
      minor_flat (by omega), Int.sign_eq_one_of_pos (by omega), Int.sign_zero]
    constructor
    · rintro ⟨k, h0, h1, rfl, rfl⟩; simp only [Int.natAbs_zero] at h1; omega
    · rintro ⟨⟨h1, h2, h3⟩, h4⟩
      exact ⟨x - x0, by omega, by simp only [Int.natAbs_zero]; omega, by omega, by omega⟩
  · have hd : y0 - y1 = x1 - x0 := by
      rw [abs_of_neg (by omega), abs_of_pos (by omega)] at hst; omega
    have hd' : |y1 - y0| = x1 - x0 := by rw [abs_of_neg (by omega)]; omega
    rw [hd', abs_of_pos (show 0 < x1 - x0 by omega), if_pos le_rfl, if_pos hx.le,
      segmentCell_iff hx, hd',
      minor_diag (by omega), Int.sign_eq_one_of_pos (by omega),
      Int.sign_eq_neg_one_of_neg (by omega), dirOf, if_pos (by omega)]
    constructor
    · rintro ⟨k, h0, h1, rfl, rfl⟩; omega
    · rintro ⟨⟨h1, h2, h3⟩, h4⟩; exact ⟨x - x0, by omega, by omega, by omega, by omega⟩
  · subst hx
    rw [if_neg (by simp; omega), if_pos hy.le, segmentCell_iff hy, sub_self, abs_zero,
      minor_flat (by omega), Int.sign_eq_one_of_pos (show 0 < y1 - y0 by omega), Int.sign_zero]
    constructor
    · rintro ⟨k, h0, h1, rfl, rfl⟩; simp only [Int.natAbs_zero] at h1; omega
    · rintro ⟨⟨h1, h2, h3⟩, h4⟩
      exact ⟨y - y0, by omega, by simp only [Int.natAbs_zero]; omega, by omega, by omega⟩
  · subst hx hy
    simp [SegmentCell]
    intros; omega
  · subst hx
    rw [if_neg (by simp; omega), if_neg (by omega), segmentCell_iff hy, sub_self, abs_zero,
      minor_flat (by omega), Int.sign_eq_neg_one_of_neg (show y1 - y0 < 0 by omega), Int.sign_zero]
    constructor
    · rintro ⟨k, h0, h1, rfl, rfl⟩; simp only [Int.natAbs_zero] at h1; omega
    · rintro ⟨⟨h1, h2, h3⟩, h4⟩
      exact ⟨y0 - y, by omega, by simp only [Int.natAbs_zero]; omega, by omega, by omega⟩
  · have hd : y1 - y0 = x0 - x1 := by
      rw [abs_of_pos (by omega), abs_of_neg (by omega)] at hst; omega
    have hd' : |y1 - y0| = x0 - x1 := by rw [abs_of_pos (by omega)]; omega
    have hd2 : |y0 - y1| = x0 - x1 := by rw [abs_of_neg (by omega)]; omega
    rw [hd', abs_of_neg (show x1 - x0 < 0 by omega), if_pos (by omega), if_neg (by omega),
      segmentCell_iff hx, hd2,
      minor_diag (by omega), Int.sign_eq_one_of_pos (show 0 < y1 - y0 by omega),
      Int.sign_eq_neg_one_of_neg (by omega), dirOf, if_pos (by omega)]
    constructor
    · rintro ⟨k, h0, h1, rfl, rfl⟩; omega
    · rintro ⟨⟨h1, h2, h3⟩, h4⟩; exact ⟨x0 - x, by omega, by omega, by omega, by omega⟩
  · subst hy
    rw [if_pos (by simp), if_neg (by omega), segmentCell_iff hx, sub_self, abs_zero,
      minor_flat (by omega), Int.sign_eq_neg_one_of_neg (by omega), Int.sign_zero]
    constructor
    · rintro ⟨k, h0, h1, rfl, rfl⟩; simp only [Int.natAbs_zero] at h1; omega
    · rintro ⟨⟨h1, h2, h3⟩, h4⟩
      exact ⟨x0 - x, by omega, by simp only [Int.natAbs_zero]; omega, by omega, by omega⟩
  · have hd : y0 - y1 = x0 - x1 := by
      rw [abs_of_neg (by omega), abs_of_neg (by omega)] at hst; omega
    have hd' : |y1 - y0| = x0 - x1 := by rw [abs_of_neg (by omega)]; omega
    have hd2 : |y0 - y1| = x0 - x1 := by rw [abs_of_pos (by omega)]; omega
    rw [hd', abs_of_neg (show x1 - x0 < 0 by omega), if_pos (by omega), if_neg (by omega),
      segmentCell_iff hx, hd2,
      minor_diag (by omega), Int.sign_eq_neg_one_of_neg (by omega),
      Int.sign_eq_neg_one_of_neg (by omega), dirOf, if_neg (by omega)]
    constructor
    · rintro ⟨k, h0, h1, rfl, rfl⟩; omega
    · rintro ⟨⟨h1, h2, h3⟩, h4⟩; exact ⟨x0 - x, by omega, by omega, by omega, by omega⟩

theorem mem_rayCells {x0 y0 x1 y1 x y : Int} :
    (x, y) ∈ rayCells x0 y0 x1 y1 ↔ OnRay x0 y0 x1 y1 x y ∧ (x, y) ≠ (x1, y1) := by
  unfold rayCells OnRay
  by_cases hst : x1 - x0 = 0 ∨ y1 - y0 = 0 ∨ |y1 - y0| = |x1 - x0|
  · rw [if_pos hst]
    exact mem_straight hst
  · rw [if_neg hst]
    push Not at hst
    obtain ⟨hx, hy, hxy⟩ := hst
    by_cases hlow : |y1 - y0| < |x1 - x0|
    · rw [if_pos hlow, if_pos hlow.le]
      by_cases hgt : x0 > x1
      · rw [if_pos hgt, if_neg (by omega), List.mem_cons, mem_segCells (by omega)]
        have hl := segmentCell_left (xa := x1) (ya := y1) (xb := x0) (yb := y0) (y := y) (by omega)
        have hr := segmentCell_right (xa := x1) (ya := y1) (xb := x0) (yb := y0) (y := y) (by omega)
        have hb : SegmentCell x1 y1 x0 y0 x y → x1 ≤ x ∧ x ≤ x0 := fun h => ⟨h.1, h.2.1⟩
        simp only [Prod.mk.injEq, ne_eq]
        constructor
        · rintro (⟨rfl, rfl⟩ | ⟨h1, h2, h3⟩)
          · exact ⟨hr.mpr rfl, by omega⟩
          · exact ⟨h1, by omega⟩
        · rintro ⟨h1, h2⟩
          have := hb h1
          by_cases e0 : x = x0
          · subst e0; left; exact ⟨rfl, hr.mp h1⟩
          by_cases e1 : x = x1
          · subst e1; exact absurd ⟨rfl, hl.mp h1⟩ h2
          right; exact ⟨h1, by omega, by omega⟩
      · rw [if_neg hgt, if_pos (by omega), List.mem_cons, mem_segCells (by omega)]
        have hl := segmentCell_left (xa := x0) (ya := y0) (xb := x1) (yb := y1) (y := y) (by omega)
        have hr := segmentCell_right (xa := x0) (ya := y0) (xb := x1) (yb := y1) (y := y) (by omega)
        have hb : SegmentCell x0 y0 x1 y1 x y → x0 ≤ x ∧ x ≤ x1 := fun h => ⟨h.1, h.2.1⟩
        simp only [Prod.mk.injEq, ne_eq]
        constructor
        · rintro (⟨rfl, rfl⟩ | ⟨h1, h2, h3⟩)
          · exact ⟨hl.mpr rfl, by omega⟩
          · exact ⟨h1, by omega⟩
        · rintro ⟨h1, h2⟩
          have := hb h1
          by_cases e0 : x = x0
          · subst e0; left; exact ⟨rfl, hl.mp h1⟩
          by_cases e1 : x = x1
          · subst e1; exact absurd ⟨rfl, hr.mp h1⟩ h2
          right; exact ⟨h1, by omega, by omega⟩
    · have hnle : ¬ |y1 - y0| ≤ |x1 - x0| := fun h => hlow (lt_of_le_of_ne h hxy)
      rw [if_neg hlow, if_neg hnle]
      by_cases hgt : y0 > y1
      · rw [if_pos hgt, if_neg (by omega), List.mem_cons, mem_swap_segCells (by omega)]
        have hl := segmentCell_left (xa := y1) (ya := x1) (xb := y0) (yb := x0) (y := x) (by omega)
        have hr := segmentCell_right (xa := y1) (ya := x1) (xb := y0) (yb := x0) (y := x) (by omega)
        have hb : SegmentCell y1 x1 y0 x0 y x → y1 ≤ y ∧ y ≤ y0 := fun h => ⟨h.1, h.2.1⟩
        simp only [Prod.mk.injEq, ne_eq]
        constructor
        · rintro (⟨rfl, rfl⟩ | ⟨h1, h2, h3⟩)
          · exact ⟨hr.mpr rfl, by omega⟩
          · exact ⟨h1, by omega⟩
        · rintro ⟨h1, h2⟩
          have := hb h1
          by_cases e0 : y = y0
          · subst e0; left; exact ⟨hr.mp h1, rfl⟩
          by_cases e1 : y = y1
          · subst e1; exact absurd ⟨hl.mp h1, rfl⟩ h2
          right; exact ⟨h1, by omega, by omega⟩
      · rw [if_neg hgt, if_pos (by omega), List.mem_cons, mem_swap_segCells (by omega)]
        have hl := segmentCell_left (xa := y0) (ya := x0) (xb := y1) (yb := x1) (y := x) (by omega)
        have hr := segmentCell_right (xa := y0) (ya := x0) (xb := y1) (yb := x1) (y := x) (by omega)
        have hb : SegmentCell y0 x0 y1 x1 y x → y0 ≤ y ∧ y ≤ y1 := fun h => ⟨h.1, h.2.1⟩
        simp only [Prod.mk.injEq, ne_eq]
        constructor
        · rintro (⟨rfl, rfl⟩ | ⟨h1, h2, h3⟩)
          · exact ⟨hl.mpr rfl, by omega⟩
          · exact ⟨h1, by omega⟩
        · rintro ⟨h1, h2⟩
          have := hb h1
          by_cases e0 : y = y0
          · subst e0; left; exact ⟨hl.mp h1, rfl⟩
          by_cases e1 : y = y1
          · subst e1; exact absurd ⟨hr.mp h1, rfl⟩ h2
          right; exact ⟨h1, by omega, by omega⟩


theorem segCells_length (xa ya xb yb : Int) :
    (segCells xa ya xb yb).length = (xb - xa).toNat - 1 := by simp [segCells]

theorem rayCells_nodup (x0 y0 x1 y1 : Int) : (rayCells x0 y0 x1 y1).Nodup := by
  unfold rayCells
  split_ifs with h1 h2 h3 h3
  · by_cases hz : x1 - x0 = 0 ∧ y1 - y0 = 0
    · rw [hz.1, hz.2]; simp
    refine List.Nodup.map ?_ List.nodup_range
    intro a b hab
    simp only [Prod.mk.injEq] at hab
    rcases lt_trichotomy (x1 - x0) 0 with h | h | h
    · rw [Int.sign_eq_neg_one_of_neg h] at hab; omega
    · rcases lt_trichotomy (y1 - y0) 0 with h' | h' | h'
      · rw [Int.sign_eq_neg_one_of_neg h'] at hab; omega
      · exact absurd ⟨h, h'⟩ hz
      · rw [Int.sign_eq_one_of_pos h'] at hab; omega
    · rw [Int.sign_eq_one_of_pos h] at hab; omega
  · refine List.nodup_cons.mpr ⟨?_, segCells_nodup _ _ _ _⟩
    rw [mem_segCells (by omega)]; omega
  · refine List.nodup_cons.mpr ⟨?_, segCells_nodup _ _ _ _⟩
    rw [mem_segCells (by omega)]; omega
  · refine List.nodup_cons.mpr ⟨?_, (segCells_nodup _ _ _ _).map Prod.swap_injective⟩
    rw [mem_swap_segCells (by omega)]; omega
  · refine List.nodup_cons.mpr ⟨?_, (segCells_nodup _ _ _ _).map Prod.swap_injective⟩
    rw [mem_swap_segCells (by omega)]; omega

theorem rayCells_length (x0 y0 x1 y1 : Int) :
    (rayCells x0 y0 x1 y1).length = max (x1 - x0).natAbs (y1 - y0).natAbs := by
  unfold rayCells
  have ha := Int.abs_eq_natAbs (x1 - x0)
  have hb := Int.abs_eq_natAbs (y1 - y0)
  split_ifs with h1 h2 h3 h3
  · simp
  all_goals
    simp only [List.length_cons, segCells_length, List.length_map]
    omega

/-! ## `rayTrace` -/

theorem lineLow_eq (m : OccupancyMapper F) (g : GridMap F) {xa ya xb yb : Int} (h : xa < xb)
    (hle : |yb - ya| ≤ xb - xa) :
    m.lineLow g xa ya xb yb = applyUpd m (markFree m (segCells xa ya xb yb)) g := by
  have hab : (if yb - ya < 0 then -(yb - ya) else yb - ya) = |yb - ya| := by
    split_ifs with hc
    · rw [abs_of_neg hc]
    · rw [abs_of_nonneg (by omega)]
  have hdir : (if yb - ya < 0 then (-1 : Int) else 1) = dirOf ya yb := by
    unfold dirOf; split_ifs <;> omega
  have hdx : 0 < xb - xa := by omega
  obtain ⟨n, hn⟩ : ∃ n, (xb - xa).toNat = n + 1 := ⟨(xb - xa).toNat - 1, by omega⟩
  unfold OccupancyMapper.lineLow
  simp only [hab, hdir]
  rw [hn, OccupancyMapper.lineLowLoop, if_neg (by simp), Res.ok_bind]
  have hloop := lineLowLoop_eq m (xb - xa) |yb - ya| (dirOf ya yb) xa ya hdx (abs_nonneg _) hle n 1 g
    le_rfl
  rw [segCells, hn, Nat.add_sub_cancel, ← hloop]
  have hs := minor_spec (dx := xb - xa) (dy := |yb - ya|) (k := 0) hdx
  have hm1 : minor (xb - xa) |yb - ya| ((1 : Nat) : Int) =
      if 2 * |yb - ya| - (xb - xa) > 0 then 1 else 0 := by
    symm
    have := abs_nonneg (yb - ya)
    split_ifs with hc
    · apply minor_unique hdx <;> push_cast <;> nlinarith
    · apply minor_unique hdx <;> push_cast <;> nlinarith
  rw [hm1]
  split_ifs with hc
  · push_cast; congr 1 <;> ring
  · push_cast; congr 1 <;> ring

omit [Flt F] in
theorem markFree_swap (m : OccupancyMapper F) (l : List (Int × Int)) :
    markFree m (l.map Prod.swap) = l.map (fun p => (p.2, p.1, m.log_odds_free)) := by
  simp [markFree]

theorem lineHigh_eq (m : OccupancyMapper F) (g : GridMap F) {xa ya xb yb : Int} (h : ya < yb)
    (hle : |xb - xa| ≤ yb - ya) :
    m.lineHigh g xa ya xb yb =
      applyUpd m (markFree m ((segCells ya xa yb xb).map Prod.swap)) g := by
  have hab : (if xb - xa < 0 then -(xb - xa) else xb - xa) = |xb - xa| := by
    split_ifs with hc
    · rw [abs_of_neg hc]
    · rw [abs_of_nonneg (by omega)]
  have hdir : (if xb - xa < 0 then (-1 : Int) else 1) = dirOf xa xb := by
    unfold dirOf; split_ifs <;> omega
  have hdx : 0 < yb - ya := by omega
  obtain ⟨n, hn⟩ : ∃ n, (yb - ya).toNat = n + 1 := ⟨(yb - ya).toNat - 1, by omega⟩
  unfold OccupancyMapper.lineHigh
  simp only [hab, hdir]
  rw [hn, OccupancyMapper.lineHighLoop, if_neg (by simp), Res.ok_bind]
  have hloop := lineHighLoop_eq m |xb - xa| (yb - ya) (dirOf xa xb) xa ya hdx (abs_nonneg _) hle n 1 g
    le_rfl
  have hl : (segCells ya xa yb xb).map Prod.swap = (List.range' 1 n).map
      (fun i : Nat => (xa + dirOf xa xb * minor (yb - ya) |xb - xa| i, ya + (i : Int))) := by
    rw [segCells, hn, Nat.add_sub_cancel, List.map_map]; rfl
  rw [hl, ← hloop]
  have hs := minor_spec (dx := yb - ya) (dy := |xb - xa|) (k := 0) hdx
  have hm1 : minor (yb - ya) |xb - xa| ((1 : Nat) : Int) =
      if 2 * |xb - xa| - (yb - ya) > 0 then 1 else 0 := by
    symm
    have := abs_nonneg (xb - xa)
    split_ifs with hc
    · apply minor_unique hdx <;> push_cast <;> nlinarith
    · apply minor_unique hdx <;> push_cast <;> nlinarith
  rw [hm1]
  split_ifs with hc
  · push_cast; congr 1 <;> ring
  · push_cast; congr 1 <;> ring

theorem vertLoop_eq (m : OccupancyMapper F) (x0 s y0 : Int) :
    ∀ (n k : Nat) (g : GridMap F), m.vertLoop x0 s n (y0 + s * k) g =
      applyUpd m (markFree m ((List.range' k n).map
        (fun i : Nat => (x0 + 0 * (i : Int), y0 + s * (i : Int))))) g := by
  intro n
  induction n with
  | zero => intro k g; rfl
  | succ n ih =>
    intro k g
    rw [OccupancyMapper.vertLoop, List.range'_succ]
    simp only [markFree, List.map_cons, applyUpd, zero_mul, add_zero]
    congr 1
    funext g1
    have := ih (k + 1) g1
    simp only [zero_mul, add_zero, markFree] at this
    rw [← this]
    push_cast; congr 1; ring

theorem horzLoop_eq (m : OccupancyMapper F) (y0 s x0 : Int) :
    ∀ (n k : Nat) (g : GridMap F), m.horzLoop y0 s n (x0 + s * k) g =
      applyUpd m (markFree m ((List.range' k n).map
        (fun i : Nat => (x0 + s * (i : Int), y0 + 0 * (i : Int))))) g := by
  intro n
  induction n with
  | zero => intro k g; rfl
  | succ n ih =>
    intro k g
    rw [OccupancyMapper.horzLoop, List.range'_succ]
    simp only [markFree, List.map_cons, applyUpd, zero_mul, add_zero]
    congr 1
    funext g1
    have := ih (k + 1) g1
    simp only [zero_mul, add_zero, markFree] at this
    rw [← this]
    push_cast; congr 1; ring

theorem lineDiagLoop_eq (m : OccupancyMapper F) (xi yi x0 y0 : Int) (hx : xi ≠ 0) (hy : yi ≠ 0)
    (N : Nat) :
    ∀ (n k : Nat) (g : GridMap F), k + n = N →
      m.lineDiagLoop xi yi (x0 + xi * N) (y0 + yi * N) (n + 1) (x0 + xi * k) (y0 + yi * k) g =
      applyUpd m (markFree m ((List.range' k n).map
        (fun i : Nat => (x0 + xi * (i : Int), y0 + yi * (i : Int))))) g := by
  intro n
  induction n with
  | zero =>
    intro k g hk
    have : k = N := by omega
    subst this
    rw [OccupancyMapper.lineDiagLoop, if_neg (by simp)]
    rfl
  | succ n ih =>
    intro k g hk
    rw [OccupancyMapper.lineDiagLoop, List.range'_succ, if_pos]
    · simp only [markFree, List.map_cons, applyUpd]
      congr 1
      funext g1
      have := ih (k + 1) g1 (by omega)
      rw [markFree] at this
      rw [← this]
      push_cast; congr 1 <;> ring
    · constructor
      · intro h
        have h2 : xi * (k : Int) = xi * N := by linarith
        have := mul_left_cancel₀ hx h2
        omega
      · intro h
        have h2 : yi * (k : Int) = yi * N := by linarith
        have := mul_left_cancel₀ hy h2
        omega

theorem rayTrace_eq (m : OccupancyMapper F) (g : GridMap F) (x0 y0 x1 y1 : Int) :
    m.rayTrace g x0 y0 x1 y1 = applyUpd m (markFree m (rayCells x0 y0 x1 y1)) g := by
  unfold OccupancyMapper.rayTrace rayCells
  have ha := Int.abs_eq_natAbs (x1 - x0)
  have hb := Int.abs_eq_natAbs (y1 - y0)
  by_cases hx : x1 - x0 = 0
  · simp only [hx, if_true, true_or, Int.sign_zero]
    rcases lt_trichotomy (y1 - y0) 0 with hy | hy | hy
    · rw [if_pos hy, Int.sign_eq_neg_one_of_neg hy]
      have := vertLoop_eq m x0 (-1) y0 (y0 - y1).toNat 0 g
      rw [← List.range_eq_range'] at this
      simp only [Nat.cast_zero, mul_zero, add_zero] at this
      rw [this]
      congr 4; simp; omega
    · have : y1 = y0 := by omega
      subst this
      simp [OccupancyMapper.vertLoop, markFree, applyUpd]
    · rw [if_neg (by omega), Int.sign_eq_one_of_pos hy]
      have := vertLoop_eq m x0 1 y0 (y1 - y0).toNat 0 g
      rw [← List.range_eq_range'] at this
      simp only [Nat.cast_zero, mul_zero, add_zero] at this
      rw [this]
      congr 4; simp; omega
  by_cases hy : y1 - y0 = 0
  · simp only [hx, hy, if_true, true_or, or_true, Int.sign_zero, if_false]
    rcases lt_trichotomy (x1 - x0) 0 with hx' | hx' | hx'
    · rw [if_pos hx', Int.sign_eq_neg_one_of_neg hx']
      have := horzLoop_eq m y0 (-1) x0 (x0 - x1).toNat 0 g
      rw [← List.range_eq_range'] at this
      simp only [Nat.cast_zero, mul_zero, add_zero] at this
      rw [this]
      congr 4; simp; omega
    · exact absurd hx' hx
    · rw [if_neg (by omega), Int.sign_eq_one_of_pos hx']
      have := horzLoop_eq m y0 1 x0 (x1 - x0).toNat 0 g
      rw [← List.range_eq_range'] at this
      simp only [Nat.cast_zero, mul_zero, add_zero] at this
      rw [this]
      congr 4; simp; omega
  by_cases hd : |y1 - y0| = |x1 - x0|
  · simp only [hx, hy, hd, or_true, if_true, if_false]
    rw [if_neg (by omega), if_neg (by omega), if_pos (by omega)]
    unfold OccupancyMapper.lineDiag
    have hmax : max (x1 - x0).natAbs (y1 - y0).natAbs = (x1 - x0).natAbs := by omega
    have hsx : (if x1 - x0 < 0 then (-1 : Int) else 1) = (x1 - x0).sign := by
      split_ifs with h
      · rw [Int.sign_eq_neg_one_of_neg h]
      · rw [Int.sign_eq_one_of_pos (by omega)]
    have hsy : (if y1 - y0 < 0 then (-1 : Int) else 1) = (y1 - y0).sign := by
      split_ifs with h
      · rw [Int.sign_eq_neg_one_of_neg h]
      · rw [Int.sign_eq_one_of_pos (by omega)]
    have hnx : (x1 - x0).sign * ((x1 - x0).natAbs : Int) = x1 - x0 := Int.sign_mul_natAbs _
    have hny : (y1 - y0).sign * ((x1 - x0).natAbs : Int) = y1 - y0 := by
      rw [show (x1 - x0).natAbs = (y1 - y0).natAbs by omega]; exact Int.sign_mul_natAbs _
    have := lineDiagLoop_eq m (x1 - x0).sign (y1 - y0).sign x0 y0
      (by rw [Ne, Int.sign_eq_zero_iff_zero]; exact hx)
      (by rw [Ne, Int.sign_eq_zero_iff_zero]; exact hy) (x1 - x0).natAbs (x1 - x0).natAbs 0 g (by omega)
    rw [hnx, hny, ← List.range_eq_range'] at this
    simp only [Nat.cast_zero, mul_zero, add_zero, add_sub_cancel] at this
    simp only [hsx, hsy, hmax]
    exact this
  have hc := abs_sub_comm x0 x1
  have hc' := abs_sub_comm y0 y1
  have hns : ¬ (x1 - x0 = 0 ∨ y1 - y0 = 0 ∨ |y1 - y0| = |x1 - x0|) := by simp [hx, hy, hd]
  rw [if_neg hx, if_neg hy, if_neg hns]
  by_cases hlow : |y1 - y0| < |x1 - x0|
  · rw [if_pos (show (y1 - y0).natAbs < (x1 - x0).natAbs by omega), if_pos hlow]
    split_ifs with hgt
    · simp only [markFree, List.map_cons, applyUpd]
      congr 1; funext g1
      exact lineLow_eq m g1 hgt (by omega)
    · simp only [markFree, List.map_cons, applyUpd]
      congr 1; funext g1
      exact lineLow_eq m g1 (by omega) (by omega)
  · rw [if_neg (show ¬ (y1 - y0).natAbs < (x1 - x0).natAbs by omega),
      if_pos (show (y1 - y0).natAbs > (x1 - x0).natAbs by omega), if_neg hlow]
    have hlow' : |x1 - x0| ≤ |y1 - y0| := not_lt.mp hlow
    split_ifs with hgt
    · simp only [markFree, List.map_cons, applyUpd]
      congr 1; funext g1
      exact lineHigh_eq m g1 hgt (by omega)
    · simp only [markFree, List.map_cons, applyUpd]
      congr 1; funext g1
      exact lineHigh_eq m g1 (by omega) (by omega)

end Ergodic
