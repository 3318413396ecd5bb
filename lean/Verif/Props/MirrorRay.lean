import Verif.Spec.Mirror
import Verif.Props.Mapping

/-!
# Property C132, continued: rays in the mirror
-/

namespace Ergodic

theorem segment_fair {xa ya xb yb x y : Int} (hx : xa < xb)
    (hn : xa ≤ x → x ≤ xb → 2 * |(x - xa) * (yb - ya) - (y - ya) * (xb - xa)| ≠ xb - xa) :
    SegmentCell xa ya xb yb x y ↔
      xa ≤ x ∧ x ≤ xb ∧ 2 * |(x - xa) * (yb - ya) - (y - ya) * (xb - xa)| < xb - xa := by
  unfold SegmentCell
  generalize hd : (x - xa) * (yb - ya) - (y - ya) * (xb - xa) = d at hn ⊢
  constructor
  · rintro ⟨h0, h1, h2, h3⟩
    refine ⟨h0, h1, lt_of_le_of_ne ?_ (hn h0 h1)⟩
    split at h2 <;> simp_all <;> cases abs_cases d <;> omega
  · rintro ⟨h0, h1, h2⟩
    refine ⟨h0, h1, ?_, ?_⟩ <;> split <;> cases abs_cases d <;> omega

/-- C132: away from such ties the cells of a ray are those nearer than half a cell to the line, across the
longer axis, a description that knows no sides. -/
theorem C132_ray_cells {x0 y0 x1 y1 : Int} (hd : ¬ (x0 = x1 ∧ y0 = y1)) (hn : ¬ Halfway x0 y0 x1 y1) (x y : Int) :
    OnRay x0 y0 x1 y1 x y ↔
      (if |y1 - y0| ≤ |x1 - x0| then min x0 x1 ≤ x ∧ x ≤ max x0 x1 else min y0 y1 ≤ y ∧ y ≤ max y0 y1) ∧
      2 * |(x - x0) * (y1 - y0) - (y - y0) * (x1 - x0)| < max |x1 - x0| |y1 - y0| := by
  unfold Halfway at hn
  push Not at hn
  have hn := hn x y
  unfold OnRay
  split
  · rename_i hl
    rw [if_pos hl] at hn
    rw [max_eq_left hl] at hn ⊢
    have hx : x0 ≠ x1 := by
      rintro rfl
      have : |y1 - y0| ≤ 0 := by simpa using hl
      have := abs_nonpos_iff.mp this
      exact hd ⟨rfl, by omega⟩
    rcases lt_or_gt_of_ne hx with h | h
    · rw [if_pos h.le, min_eq_left h.le, max_eq_right h.le]
      rw [min_eq_left h.le, max_eq_right h.le, abs_of_pos (show 0 < x1 - x0 by omega)] at hn
      rw [abs_of_pos (show 0 < x1 - x0 by omega), segment_fair h fun a b => hn ⟨a, b⟩, and_assoc]
    · rw [if_neg (by omega), min_eq_right h.le, max_eq_left h.le]
      rw [min_eq_right h.le, max_eq_left h.le, abs_sub_comm x1 x0, abs_of_pos (show 0 < x0 - x1 by omega)] at hn
      have e : (x - x1) * (y0 - y1) - (y - y1) * (x0 - x1) = -((x - x0) * (y1 - y0) - (y - y0) * (x1 - x0)) := by ring
      rw [abs_sub_comm x1 x0, abs_of_pos (show 0 < x0 - x1 by omega), segment_fair h (by rw [e, abs_neg]; exact fun a b => hn ⟨a, b⟩),
        and_assoc, e, abs_neg]
  · rename_i hl
    rw [if_neg hl] at hn
    push Not at hl
    rw [max_eq_right hl.le] at hn ⊢
    have hy : y0 ≠ y1 := by
      rintro rfl
      have := abs_nonneg (x1 - x0)
      simp at hl
      omega
    rcases lt_or_gt_of_ne hy with h | h
    · rw [if_pos h.le, min_eq_left h.le, max_eq_right h.le]
      rw [min_eq_left h.le, max_eq_right h.le, abs_of_pos (show 0 < y1 - y0 by omega)] at hn
      have e : (y - y0) * (x1 - x0) - (x - x0) * (y1 - y0) = -((x - x0) * (y1 - y0) - (y - y0) * (x1 - x0)) := by ring
      rw [abs_of_pos (show 0 < y1 - y0 by omega), segment_fair h (by rw [e, abs_neg]; exact fun a b => hn ⟨a, b⟩),
        and_assoc, e, abs_neg]
    · rw [if_neg (by omega), min_eq_right h.le, max_eq_left h.le]
      rw [min_eq_right h.le, max_eq_left h.le, abs_sub_comm y1 y0, abs_of_pos (show 0 < y0 - y1 by omega)] at hn
      have e : (y - y1) * (x0 - x1) - (x - x1) * (y0 - y1) = (x - x0) * (y1 - y0) - (y - y0) * (x1 - x0) := by ring
      rw [abs_sub_comm y1 y0, abs_of_pos (show 0 < y0 - y1 by omega), segment_fair h (by rw [e]; exact fun a b => hn ⟨a, b⟩),
        and_assoc, e]

theorem halfway_flip (x0 y0 x1 y1 : Int) :
    (Halfway (-x0) y0 (-x1) y1 ↔ Halfway x0 y0 x1 y1) ∧ (Halfway x0 (-y0) x1 (-y1) ↔ Halfway x0 y0 x1 y1) := by
  have key1 : ∀ x0 y0 x1 y1 : Int, Halfway x0 y0 x1 y1 → Halfway (-x0) y0 (-x1) y1 := by
    rintro x0 y0 x1 y1 ⟨x, y, h1, h2⟩
    refine ⟨-x, y, ?_, ?_⟩
    · rw [show -x1 - -x0 = -(x1 - x0) by ring, abs_neg]
      split
      · rename_i h; rw [if_pos h] at h1; omega
      · rename_i h; rw [if_neg h] at h1; exact h1
    · rw [show -x1 - -x0 = -(x1 - x0) by ring, abs_neg (x1 - x0), ← h2,
        show (-x - -x0) * (y1 - y0) - (y - y0) * -(x1 - x0) = -((x - x0) * (y1 - y0) - (y - y0) * (x1 - x0)) by ring, abs_neg]
  have key2 : ∀ x0 y0 x1 y1 : Int, Halfway x0 y0 x1 y1 → Halfway x0 (-y0) x1 (-y1) := by
    rintro x0 y0 x1 y1 ⟨x, y, h1, h2⟩
    refine ⟨x, -y, ?_, ?_⟩
    · rw [show -y1 - -y0 = -(y1 - y0) by ring, abs_neg]
      split
      · rename_i h; rw [if_pos h] at h1; exact h1
      · rename_i h; rw [if_neg h] at h1; omega
    · rw [show -y1 - -y0 = -(y1 - y0) by ring, abs_neg (y1 - y0), ← h2,
        show (x - x0) * -(y1 - y0) - (-y - -y0) * (x1 - x0) = -((x - x0) * (y1 - y0) - (y - y0) * (x1 - x0)) by ring, abs_neg]
  refine ⟨⟨fun h => ?_, key1 _ _ _ _⟩, ⟨fun h => ?_, key2 _ _ _ _⟩⟩
  · have := key1 _ _ _ _ h; simpa using this
  · have := key2 _ _ _ _ h; simpa using this

/-- C132, the statement that is false: the mirror image of a ray is the ray between the mirrored cells. -/
def C132_ray_statement : Prop := ∀ x0 y0 x1 y1 x y : Int,
  (OnRay (-x0) y0 (-x1) y1 (-x) y ↔ OnRay x0 y0 x1 y1 x y) ∧ (OnRay x0 (-y0) x1 (-y1) x (-y) ↔ OnRay x0 y0 x1 y1 x y)

/-- C132: the ray two cells to the right and one up clears the cell to the right; the ray two cells to the
left and one up clears the cell above that. -/
theorem C132_ray_refuted : ¬ C132_ray_statement := by
  intro h
  exact absurd (h 0 0 2 1 1 0).1 (by decide)

/-- C132: what is true: unless the line passes half-way between two cells, both mirror images of a ray are
the rays between the mirrored cells. -/
theorem C132_ray_partial {x0 y0 x1 y1 : Int} (hn : ¬ Halfway x0 y0 x1 y1) (hd : ¬ (x0 = x1 ∧ y0 = y1)) (x y : Int) :
    (OnRay (-x0) y0 (-x1) y1 (-x) y ↔ OnRay x0 y0 x1 y1 x y) ∧
    (OnRay x0 (-y0) x1 (-y1) x (-y) ↔ OnRay x0 y0 x1 y1 x y) := by
  obtain ⟨f1, f2⟩ := halfway_flip x0 y0 x1 y1
  rw [C132_ray_cells hd hn, C132_ray_cells (by omega) (fun h => hn (f1.mp h)),
    C132_ray_cells (by omega) (fun h => hn (f2.mp h))]
  rw [show -x1 - -x0 = -(x1 - x0) by ring, show -y1 - -y0 = -(y1 - y0) by ring, abs_neg (x1 - x0), abs_neg (y1 - y0),
    show (-x - -x0) * (y1 - y0) - (y - y0) * -(x1 - x0) = -((x - x0) * (y1 - y0) - (y - y0) * (x1 - x0)) by ring,
    show (x - x0) * -(y1 - y0) - (-y - -y0) * (x1 - x0) = -((x - x0) * (y1 - y0) - (y - y0) * (x1 - x0)) by ring,
    abs_neg]
  constructor <;> refine and_congr ?_ Iff.rfl <;> split <;> omega

/-- The line from `(0, 0)` to `(3, 1)` meets no such tie. -/
example : ¬ Halfway 0 0 3 1 := by
  rintro ⟨x, y, h1, h2⟩
  norm_num at h1 h2
  omega

/-- The line from `(0, 0)` to `(2, 1)` does. -/
example : Halfway 0 0 2 1 := ⟨1, 0, by decide, by decide⟩

theorem segment_short {xa ya xb yb x y : Int} : SegmentCell xa (-ya) xb (-yb) x (-y) ↔ SegmentCell xa ya xb yb x y := by
  unfold SegmentCell
  have e : (x - xa) * (-yb - -ya) - (-y - -ya) * (xb - xa) = -((x - xa) * (yb - ya) - (y - ya) * (xb - xa)) := by ring
  rw [e]
  rcases lt_trichotomy ya yb with h | h | h
  · rw [if_pos (by omega), if_neg (by omega)]
    refine and_congr Iff.rfl (and_congr Iff.rfl ?_)
    constructor <;> rintro ⟨a, b⟩ <;> exact ⟨by linarith, by linarith⟩
  · subst h
    rw [if_neg (lt_irrefl _), if_neg (lt_irrefl _)]
    refine and_congr_right fun hx0 => (and_congr_right fun hx => ?_)
    constructor <;> rintro ⟨a, b⟩
    all_goals
      rcases lt_trichotomy y ya with h | h | h
      · exfalso; nlinarith
      · subst h; simp at a b ⊢; omega
      · exfalso; nlinarith
  · rw [if_neg (by omega), if_pos (by omega)]
    refine and_congr Iff.rfl (and_congr Iff.rfl ?_)
    constructor <;> rintro ⟨a, b⟩ <;> exact ⟨by linarith, by linarith⟩

/-- C132: flipping the axis along which a ray is shorter always gives the mirrored cells. -/
theorem C132_ray_short (x0 y0 x1 y1 x y : Int) :
    (|y1 - y0| ≤ |x1 - x0| → (OnRay x0 (-y0) x1 (-y1) x (-y) ↔ OnRay x0 y0 x1 y1 x y)) ∧
    (|x1 - x0| < |y1 - y0| → (OnRay (-x0) y0 (-x1) y1 (-x) y ↔ OnRay x0 y0 x1 y1 x y)) := by
  constructor <;> intro h <;> unfold OnRay
  · rw [show -y1 - -y0 = -(y1 - y0) by ring, abs_neg (y1 - y0), if_pos h, if_pos h]
    split <;> exact segment_short
  · rw [show -x1 - -x0 = -(x1 - x0) by ring, abs_neg (x1 - x0), if_neg (not_le.mpr h), if_neg (not_le.mpr h)]
    split <;> exact segment_short

theorem segment_long {xa ya xb yb x y : Int} (hx : xa < xb) (h0 : xa ≤ x) (h1 : x ≤ xb)
    (ht : 2 * |(x - xa) * (yb - ya) - (y - ya) * (xb - xa)| = xb - xa) :
    ¬ (SegmentCell (-xb) yb (-xa) ya (-x) y ↔ SegmentCell xa ya xb yb x y) := by
  unfold SegmentCell
  have e : (-x - -xb) * (ya - yb) - (y - yb) * (-xa - -xb) = (x - xa) * (yb - ya) - (y - ya) * (xb - xa) := by ring
  rw [e]
  have hy : ya ≠ yb := by
    rintro rfl
    simp only [sub_self, mul_zero, zero_sub, abs_neg, abs_mul, abs_of_pos (show 0 < xb - xa by omega)] at ht
    rcases eq_or_ne (y - ya) 0 with h | h
    · simp [h] at ht; omega
    · have := Int.one_le_abs h
      nlinarith
  generalize (x - xa) * (yb - ya) - (y - ya) * (xb - xa) = d at ht ⊢
  rcases lt_or_gt_of_ne hy with h | h
  · rw [if_pos h, if_neg (by omega)]
    intro hiff
    rcases abs_cases d with ⟨ha, hb⟩ | ⟨ha, hb⟩ <;> rw [ha] at ht
    · have := hiff.mpr ⟨h0, h1, by linarith, by linarith⟩
      linarith [this.2.2.1]
    · have := hiff.mp ⟨by omega, by omega, by linarith, by linarith⟩
      linarith [this.2.2.1]
  · rw [if_neg (by omega), if_pos h]
    intro hiff
    rcases abs_cases d with ⟨ha, hb⟩ | ⟨ha, hb⟩ <;> rw [ha] at ht
    · have := hiff.mp ⟨by omega, by omega, by linarith, by linarith⟩
      linarith [this.2.2.1]
    · have := hiff.mpr ⟨h0, h1, by linarith, by linarith⟩
      linarith [this.2.2.1]

/-- C132: along the longer axis the ties are the only obstacle: the mirrored ray has the mirrored cells
exactly when there is none. -/
theorem C132_ray_iff {x0 y0 x1 y1 : Int} (hd : ¬ (x0 = x1 ∧ y0 = y1)) :
    (|y1 - y0| ≤ |x1 - x0| →
      ((∀ x y, OnRay (-x0) y0 (-x1) y1 (-x) y ↔ OnRay x0 y0 x1 y1 x y) ↔ ¬ Halfway x0 y0 x1 y1)) ∧
    (|x1 - x0| < |y1 - y0| →
      ((∀ x y, OnRay x0 (-y0) x1 (-y1) x (-y) ↔ OnRay x0 y0 x1 y1 x y) ↔ ¬ Halfway x0 y0 x1 y1)) := by
  constructor <;> intro hl <;> refine ⟨fun h => ?_, fun hn x y => ?_⟩
  · rintro ⟨x, y, h1, h2⟩
    rw [if_pos hl] at h1
    rw [max_eq_left hl] at h2
    have hx : x0 ≠ x1 := by
      rintro rfl
      have : |y1 - y0| ≤ 0 := by simpa using hl
      have := abs_nonpos_iff.mp this
      exact hd ⟨rfl, by omega⟩
    have := h x y
    unfold OnRay at this
    rw [show -x1 - -x0 = -(x1 - x0) by ring, abs_neg, if_pos hl, if_pos hl] at this
    rcases lt_or_gt_of_ne hx with hlt | hlt
    · rw [if_neg (by omega), if_pos hlt.le] at this
      rw [abs_of_pos (show 0 < x1 - x0 by omega)] at h2
      exact segment_long hlt (by omega) (by omega) h2 this
    · rw [if_pos (by omega), if_neg (by omega)] at this
      rw [abs_sub_comm x1 x0, abs_of_pos (show 0 < x0 - x1 by omega)] at h2
      refine segment_long hlt (by omega) (by omega) ?_ this
      rw [show (x - x1) * (y0 - y1) - (y - y1) * (x0 - x1) = -((x - x0) * (y1 - y0) - (y - y0) * (x1 - x0)) by ring,
        abs_neg, h2]
  · exact (C132_ray_partial hn hd x y).1
  · rintro ⟨x, y, h1, h2⟩
    rw [if_neg (not_le.mpr hl)] at h1
    rw [max_eq_right hl.le] at h2
    have hy : y0 ≠ y1 := by
      rintro rfl
      have := abs_nonneg (x1 - x0)
      simp at hl
      omega
    have := h x y
    unfold OnRay at this
    rw [show -y1 - -y0 = -(y1 - y0) by ring, abs_neg, if_neg (not_le.mpr hl), if_neg (not_le.mpr hl)] at this
    rcases lt_or_gt_of_ne hy with hlt | hlt
    · rw [if_neg (by omega), if_pos hlt.le] at this
      rw [abs_of_pos (show 0 < y1 - y0 by omega)] at h2
      refine segment_long hlt (by omega) (by omega) ?_ this
      rw [show (y - y0) * (x1 - x0) - (x - x0) * (y1 - y0) = -((x - x0) * (y1 - y0) - (y - y0) * (x1 - x0)) by ring,
        abs_neg, h2]
    · rw [if_pos (by omega), if_neg (by omega)] at this
      rw [abs_sub_comm y1 y0, abs_of_pos (show 0 < y0 - y1 by omega)] at h2
      refine segment_long hlt (by omega) (by omega) ?_ this
      rw [show (y - y1) * (x0 - x1) - (x - x1) * (y0 - y1) = (x - x0) * (y1 - y0) - (y - y0) * (x1 - x0) by ring, h2]
  · exact (C132_ray_partial hn hd x y).2

end Ergodic
