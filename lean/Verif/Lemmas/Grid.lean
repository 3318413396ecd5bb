import Verif.Spec.Grid
import Verif.Lemmas.Real

/-! # Helper lemmas about grid maps -/

namespace Ergodic
variable {F : Type}

theorem le_pred_iff {a n : UInt32} (hn : n ≠ 0) : a ≤ n - 1 ↔ a.toNat < n.toNat := by
  have h1 : 0 < n.toNat := by
    rcases Nat.eq_zero_or_pos n.toNat with h | h
    · exact absurd (UInt32.toNat_inj.mp (by simpa using h)) hn
    · exact h
  rw [UInt32.le_iff_toNat_le, UInt32.toNat_sub_of_le _ _ (by
    rw [UInt32.le_iff_toNat_le]; exact h1)]
  simp; omega

theorem le_zero_sub_one (a : UInt32) : a ≤ 0 - 1 := by
  rw [UInt32.le_iff_toNat_le]
  have := uint32_lt a
  have h : (0 - 1 : UInt32).toNat = 4294967295 := by decide
  omega

theorem mul_toNat {a b : UInt32} (h : a.toNat * b.toNat < 2 ^ 32) :
    (a * b).toNat = a.toNat * b.toNat := by
  rw [UInt32.toNat_mul, Nat.mod_eq_of_lt h]

theorem size_toNat {g : GridMap F} (hf : Fits g) : (g.xsize * g.ysize).toNat = numCells g :=
  mul_toNat hf

theorem uint32_pos_iff {n : UInt32} : n ≠ 0 ↔ 0 < n.toNat := by
  constructor
  · intro hn
    rcases Nat.eq_zero_or_pos n.toNat with h | h
    · exact absurd (UInt32.toNat_inj.mp (by simpa using h)) hn
    · exact h
  · rintro h rfl; simp at h

theorem centre_cast {res lo : ℝ} (hr : 0 < res) {n : UInt32} :
    castU32 (Flt.floor ((((n.toNat : Int) : ℝ) * res + res / 2 + lo - lo) / res)) = .ok n := by
  have h : (((n.toNat : Int) : ℝ) * res + res / 2 + lo - lo) / res = n.toNat + 1 / 2 := by
    field_simp; push_cast; ring
  have hf : ⌊(n.toNat : ℝ) + 1 / 2⌋ = (n.toNat : Int) := by
    rw [Int.floor_eq_iff]; constructor <;> push_cast <;> linarith
  rw [h, real_floor, hf]
  have := castU32_natCast (uint32_lt n)
  simpa using this

/-- The floor-and-cast of one coordinate, when the coordinate lies in strip `n`. -/
theorem strip_cast {res lo x : ℝ} (hr : 0 < res) {n : Nat} (hn : n < 2 ^ 32)
    (h0 : lo + n * res ≤ x) (h1 : x < lo + (n + 1) * res) :
    castU32 (Flt.floor ((x - lo) / res)) = .ok (UInt32.ofNat n) := by
  have hf : ⌊(x - lo) / res⌋ = (n : Int) := by
    rw [Int.floor_eq_iff]
    constructor
    · rw [le_div_iff₀ hr]; push_cast; linarith
    · rw [div_lt_iff₀ hr]; push_cast; linarith
  rw [real_floor, hf]
  have := castU32_natCast hn
  simpa using this

/-- Conversely, a successful cast gives the strip. -/
theorem strip_of_cast {res lo x : ℝ} (hr : 0 < res) {u : UInt32}
    (h : castU32 (Flt.floor ((x - lo) / res)) = .ok u) :
    lo + u.toNat * res ≤ x ∧ x < lo + (u.toNat + 1) * res := by
  have h := castU32_real_eq_ok h
  rw [real_floor, realTrunc_intCast, Int.floor_eq_iff, le_div_iff₀ hr, div_lt_iff₀ hr] at h
  push_cast at h
  constructor <;> linarith [h.1, h.2]

/-- A coordinate below the lower limit makes the cast undefined. -/
theorem strip_ub {res lo x : ℝ} (hr : 0 < res) (h : x < lo) :
    castU32 (Flt.floor ((x - lo) / res)) = .ub := by
  have hf : ⌊(x - lo) / res⌋ < 0 := by
    rw [Int.floor_lt]; simpa using div_neg_of_neg_of_pos (sub_neg.mpr h) hr
  simp only [castU32, real_floor, real_trunc, realTrunc_intCast]
  rw [if_neg (by omega)]

/-- Every real at or above the lower limit lies in a strip. -/
theorem exists_strip {res lo x : ℝ} (hr : 0 < res) (h : lo ≤ x) :
    ∃ n : Nat, lo + n * res ≤ x ∧ x < lo + (n + 1) * res := by
  have h0 : 0 ≤ (x - lo) / res := div_nonneg (sub_nonneg.mpr h) hr.le
  refine ⟨⌊(x - lo) / res⌋₊, ?_, ?_⟩
  · have := Nat.floor_le h0
    rw [le_div_iff₀ hr] at this; linarith
  · have := Nat.lt_floor_add_one ((x - lo) / res)
    rw [div_lt_iff₀ hr] at this; linarith

theorem nat_lt_of_strip {res a b lo x : ℝ} (hr : 0 < res) (h0 : lo + a * res ≤ x)
    (h1 : x < lo + b * res) : a < b := by
  by_contra h
  have : b * res ≤ a * res := mul_le_mul_of_nonneg_right (not_lt.mp h) hr.le
  linarith

theorem nat_le_of_strip {res a b lo x : ℝ} (hr : 0 < res) (h0 : lo + a * res ≤ x)
    (h1 : x ≤ lo + b * res) : a ≤ b := by
  by_contra h
  have : b * res < a * res := mul_lt_mul_of_pos_right (not_le.mp h) hr
  linarith

theorem ofNat_toNat {n : Nat} (h : n < 2 ^ 32) : (UInt32.ofNat n).toNat = n :=
  UInt32.toNat_ofNat_of_lt' (by simpa [UInt32.size] using h)

theorem pred_toNat {n : UInt32} (hn : n ≠ 0) : (n - 1).toNat = n.toNat - 1 := by
  have h1 := uint32_pos_iff.mp hn
  rw [UInt32.toNat_sub_of_le _ _ (by rw [UInt32.le_iff_toNat_le]; exact h1)]; rfl

/-- The index after the upper-edge correction of `world2Grid` exists exactly when the strip
number is at most the axis size. -/
theorem fold_lt_iff {u size : UInt32} (hs : size ≠ 0) :
    (if u = size then u - 1 else u).toNat < size.toNat ↔ u.toNat ≤ size.toNat := by
  have h1 := uint32_pos_iff.mp hs
  split
  · rename_i h; subst h
    rw [pred_toNat hs]; omega
  · rename_i h
    have : u.toNat ≠ size.toNat := fun e => h (UInt32.toNat_inj.mp e)
    omega

/-- Coordinates of the corrected strip on the closed interval. -/
theorem fold_strip {res lo x : ℝ} {u size : UInt32} (hs : size ≠ 0) (hr : 0 < res)
    (h0 : lo + u.toNat * res ≤ x) (h1 : x < lo + (u.toNat + 1) * res)
    (h2 : x ≤ lo + size.toNat * res) :
    lo + (if u = size then u - 1 else u).toNat * res ≤ x ∧
      x ≤ lo + ((if u = size then u - 1 else u).toNat + 1) * res := by
  split
  · rename_i h; subst h
    have hp := uint32_pos_iff.mp hs
    rw [pred_toNat hs, Nat.cast_sub hp]
    push_cast
    constructor <;> nlinarith
  · exact ⟨h0, h1.le⟩

end Ergodic
