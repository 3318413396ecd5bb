import Verif.Base.Rounded
import Mathlib.Data.Int.Log
import Mathlib.Algebra.Order.Round
import Mathlib.Tactic.Linarith
import Mathlib.Tactic.Positivity
import Mathlib.Tactic.FieldSimp
import Mathlib.Tactic.Ring

/-!
# Binary64 rounding

Round-half-even on the grid of spacing `2^e` with `e = max (⌊log₂|x|⌋ - 52) (-1074)`.  It satisfies
the laws of `Machine`, so theorems about every machine are theorems about this one.
-/

namespace Ergodic
namespace Ieee

/-- The nearest integer, ties to even. -/
noncomputable def roundEven (x : ℝ) : ℤ :=
  if x - ⌊x⌋ < 1 / 2 then ⌊x⌋
  else if 1 / 2 < x - ⌊x⌋ then ⌊x⌋ + 1
  else if Even ⌊x⌋ then ⌊x⌋ else ⌊x⌋ + 1

theorem roundEven_near (x : ℝ) : |(roundEven x : ℝ) - x| ≤ 1 / 2 := by
  have h0 := Int.floor_le x
  have h1 := Int.lt_floor_add_one x
  unfold roundEven
  rw [abs_le]
  split_ifs <;> push_cast <;> constructor <;> linarith

theorem roundEven_int (n : ℤ) : roundEven n = n := by
  unfold roundEven
  rw [Int.floor_intCast, sub_self, if_pos (by norm_num)]

theorem roundEven_bounds (x : ℝ) : ⌊x⌋ ≤ roundEven x ∧ roundEven x ≤ ⌊x⌋ + 1 := by
  unfold roundEven
  split_ifs <;> constructor <;> omega

theorem roundEven_mono : Monotone roundEven := by
  intro x y h
  rcases (Int.floor_mono h).lt_or_eq with hl | he
  · have := (roundEven_bounds x).2
    have := (roundEven_bounds y).1
    omega
  · unfold roundEven
    rw [← he]
    split_ifs <;> first | omega | (exfalso; linarith)

theorem roundEven_neg (x : ℝ) : roundEven (-x) = -roundEven x := by
  by_cases hi : (⌊x⌋ : ℝ) = x
  · rw [← hi, ← Int.cast_neg, roundEven_int, roundEven_int]
  have h0 : (⌊x⌋ : ℝ) < x := lt_of_le_of_ne (Int.floor_le x) hi
  have h1 := Int.lt_floor_add_one x
  have hf : ⌊-x⌋ = -⌊x⌋ - 1 := by
    rw [Int.floor_eq_iff]; push_cast; constructor <;> linarith
  unfold roundEven
  rw [hf]
  push_cast
  have hev : Even (-⌊x⌋ - 1) ↔ ¬ Even ⌊x⌋ := by
    rw [Int.even_sub_one, even_neg]
  rw [if_congr hev rfl rfl]
  split_ifs <;> first | omega | (exfalso; linarith)

/-- The exponent of the last place of `x`. -/
noncomputable def expo (x : ℝ) : ℤ := max (Int.log 2 |x| - 52) (-1074)

/-- Rounding to the nearest binary64 number, ties to even, without overflow. -/
noncomputable def rnd (x : ℝ) : ℝ := roundEven (x / 2 ^ expo x) * 2 ^ expo x

theorem pow_pos' (e : ℤ) : (0 : ℝ) < 2 ^ e := by positivity

theorem expo_neg (x : ℝ) : expo (-x) = expo x := by unfold expo; rw [abs_neg]

theorem rnd_neg (x : ℝ) : rnd (-x) = -rnd x := by
  unfold rnd
  rw [expo_neg, neg_div, roundEven_neg]
  push_cast
  ring

theorem rnd_zero : rnd 0 = 0 := by
  unfold rnd
  rw [zero_div]
  have := roundEven_int 0
  rw [Int.cast_zero] at this
  rw [this, Int.cast_zero, zero_mul]

theorem lt_pow (x : ℝ) : |x| < 2 ^ (53 + expo x) := by
  have h := Int.lt_zpow_succ_log_self (b := 2) (by norm_num) |x|
  refine lt_of_lt_of_le h ?_
  push_cast
  refine zpow_le_zpow_right₀ (by norm_num) ?_
  have : Int.log 2 |x| - 52 ≤ expo x := le_max_left _ _
  omega

theorem pow_le_of {x : ℝ} (h : -1074 < expo x) (hx : x ≠ 0) : 2 ^ (52 + expo x) ≤ |x| := by
  have h1 := Int.zpow_log_le_self (b := 2) (r := |x|) (by norm_num) (abs_pos.mpr hx)
  have h2 : expo x = Int.log 2 |x| - 52 := by
    unfold expo at h ⊢
    rcases max_choice (Int.log 2 |x| - 52) (-1074) with h' | h' <;> omega
  rw [show 52 + expo x = Int.log 2 |x| from by omega]
  exact_mod_cast h1

theorem expo_lt {x : ℝ} (hx : x ≠ 0) {e : ℤ} (he : -1074 ≤ e) (h : |x| < 2 ^ (53 + e)) :
    expo x ≤ e := by
  unfold expo
  refine max_le ?_ he
  have := (Int.lt_zpow_iff_log_lt (b := 2) (by norm_num) (x := 53 + e) (r := |x|)
    (abs_pos.mpr hx)).mp (by exact_mod_cast h)
  omega

/-- Numbers with 53 significant bits are left alone. -/
theorem rnd_rep {x : ℝ} (m e : ℤ) (he : -1074 ≤ e) (hm : |m| ≤ 2 ^ 53) (hx : x = m * 2 ^ e) :
    rnd x = x := by
  by_cases h0 : x = 0
  · rw [h0, rnd_zero]
  have key : ∀ k : ℤ, x = k * 2 ^ expo x → rnd x = x := by
    intro k hk
    unfold rnd
    rw [show x / 2 ^ expo x = (k : ℝ) from by
      rw [div_eq_iff (pow_pos' _).ne']; exact hk, roundEven_int]
    exact hk.symm
  have shift : ∀ (k d : ℤ), x = k * 2 ^ d → expo x ≤ d → rnd x = x := by
    intro k d hk hd
    obtain ⟨t, ht⟩ := Int.eq_ofNat_of_zero_le (sub_nonneg.mpr hd)
    refine key (k * 2 ^ t) ?_
    rw [hk]
    have : d = t + expo x := by
      have : ((t : ℕ) : ℤ) = d - expo x := by rw [ht]
      omega
    rw [← hk]
    conv_lhs => rw [hk, this, zpow_add₀ (by norm_num), zpow_natCast]
    push_cast
    ring
  have habs : |x| = |(m : ℝ)| * 2 ^ e := by rw [hx, abs_mul, abs_of_pos (pow_pos' e)]
  rcases hm.lt_or_eq with hl | he2
  · refine shift m e hx (expo_lt h0 he ?_)
    rw [habs, zpow_add₀ (by norm_num)]
    refine mul_lt_mul_of_pos_right ?_ (pow_pos' e)
    rw [← Int.cast_abs]
    exact_mod_cast hl
  · -- a power of two
    have hlt : expo x ≤ e + 1 := by
      refine expo_lt h0 (by omega) ?_
      rw [habs, ← Int.cast_abs, he2, show (53 : ℤ) + (e + 1) = 54 + e from by ring,
        zpow_add₀ (by norm_num)]
      refine mul_lt_mul_of_pos_right ?_ (pow_pos' e)
      norm_num
    have : m = 2 ^ 53 ∨ m = -2 ^ 53 := by
      rcases abs_eq (by positivity : (0 : ℤ) ≤ 2 ^ 53) |>.mp he2 with h | h
      · exact Or.inl h
      · exact Or.inr h
    rcases this with h | h
    · refine shift (2 ^ 52) (e + 1) ?_ hlt
      rw [hx, h, zpow_add₀ (by norm_num)]; push_cast; ring
    · refine shift (-2 ^ 52) (e + 1) ?_ hlt
      rw [hx, h, zpow_add₀ (by norm_num)]; push_cast; ring

theorem expo_ge (x : ℝ) : -1074 ≤ expo x := le_max_right _ _

theorem quot_lt (x : ℝ) : |x / 2 ^ expo x| < 2 ^ 53 := by
  rw [abs_div, abs_of_pos (pow_pos' _), div_lt_iff₀ (pow_pos' _)]
  have := lt_pow x
  rw [zpow_add₀ (by norm_num)] at this
  exact_mod_cast this

theorem mant_le (x : ℝ) : |roundEven (x / 2 ^ expo x)| ≤ 2 ^ 53 := by
  have h := abs_lt.mp (quot_lt x)
  rw [abs_le]
  constructor
  · have := roundEven_mono (show (((-2 ^ 53 : ℤ)) : ℝ) ≤ x / 2 ^ expo x from by
      rw [Int.cast_neg, Int.cast_pow, Int.cast_ofNat]; exact h.1.le)
    rwa [roundEven_int] at this
  · have := roundEven_mono (show x / 2 ^ expo x ≤ ((2 ^ 53 : ℤ) : ℝ) from by
      rw [Int.cast_pow, Int.cast_ofNat]; exact h.2.le)
    rwa [roundEven_int] at this

theorem rnd_idem (x : ℝ) : rnd (rnd x) = rnd x :=
  rnd_rep _ _ (expo_ge x) (mant_le x) rfl

theorem rnd_int (n : ℤ) (h : |n| ≤ 2 ^ 53) : rnd n = n :=
  rnd_rep n 0 (by norm_num) h (by simp)

theorem rnd_err (x : ℝ) : |rnd x - x| ≤ 2 ^ expo x / 2 := by
  have h := roundEven_near (x / 2 ^ expo x)
  have hp := pow_pos' (expo x)
  have : rnd x - x = (roundEven (x / 2 ^ expo x) - x / 2 ^ expo x) * 2 ^ expo x := by
    unfold rnd; field_simp
  rw [this, abs_mul, abs_of_pos hp]
  nlinarith

theorem rnd_near (x : ℝ) : |rnd x - x| ≤ |x| / 2 ^ 53 + tiny := by
  by_cases h0 : x = 0
  · rw [h0, rnd_zero, sub_zero, abs_zero, zero_div, zero_add]
    exact tiny_pos.le
  refine (rnd_err x).trans ?_
  have ht := tiny_pos
  rcases (expo_ge x).lt_or_eq with hl | he
  · have := pow_le_of hl h0
    rw [zpow_add₀ (by norm_num)] at this
    have h52 : (2 : ℝ) ^ (52 : ℤ) = 2 ^ 52 := by norm_cast
    have h2 : (2 : ℝ) ^ expo x / 2 ≤ |x| / 2 ^ 53 := by
      rw [div_le_div_iff₀ (by norm_num) (by positivity)]
      rw [h52] at this
      linarith
    linarith
  · rw [← he]
    have : (2 : ℝ) ^ (-1074 : ℤ) / 2 = tiny := by
      unfold tiny
      rw [show (-1074 : ℤ) = -1075 + 1 from by norm_num, zpow_add₀ (by norm_num), zpow_one]
      ring
    rw [this]
    have : 0 ≤ |x| / 2 ^ 53 := by positivity
    linarith

theorem rnd_nonneg {x : ℝ} (h : 0 ≤ x) : 0 ≤ rnd x := by
  unfold rnd
  refine mul_nonneg ?_ (pow_pos' _).le
  have := roundEven_mono (show ((0 : ℤ) : ℝ) ≤ x / 2 ^ expo x from by
    rw [Int.cast_zero]; positivity)
  rw [roundEven_int] at this
  exact_mod_cast this

theorem expo_mono {x y : ℝ} (hx : 0 < x) (h : x ≤ y) : expo x ≤ expo y := by
  unfold expo
  refine max_le_max ?_ le_rfl
  have := Int.log_mono_right (b := 2) (abs_pos.mpr hx.ne') (by
    rw [abs_of_pos hx, abs_of_pos (hx.trans_le h)]; exact h : |x| ≤ |y|)
  omega

theorem rnd_mono_pos {x y : ℝ} (hx : 0 < x) (h : x ≤ y) : rnd x ≤ rnd y := by
  have hy := hx.trans_le h
  rcases (expo_mono hx h).lt_or_eq with hl | he
  · have h1 : rnd x ≤ 2 ^ (53 + expo x) := by
      unfold rnd
      rw [zpow_add₀ (by norm_num)]
      refine mul_le_mul_of_nonneg_right ?_ (pow_pos' _).le
      have := (abs_le.mp (mant_le x)).2
      exact_mod_cast this
    have h2 : (2 : ℝ) ^ (52 + expo y) ≤ rnd y := by
      have hp := pow_le_of (lt_of_le_of_lt (expo_ge x) hl) hy.ne'
      rw [abs_of_pos hy] at hp
      unfold rnd
      rw [zpow_add₀ (by norm_num)] at hp ⊢
      refine mul_le_mul_of_nonneg_right ?_ (pow_pos' _).le
      have := roundEven_mono (show ((2 ^ 52 : ℤ) : ℝ) ≤ y / 2 ^ expo y from by
        rw [le_div_iff₀ (pow_pos' _)]
        push_cast
        exact_mod_cast hp)
      rw [roundEven_int] at this
      exact_mod_cast this
    refine h1.trans (le_trans ?_ h2)
    exact zpow_le_zpow_right₀ (by norm_num) (by omega)
  · unfold rnd
    rw [he]
    refine mul_le_mul_of_nonneg_right ?_ (pow_pos' _).le
    have := roundEven_mono (div_le_div_of_nonneg_right h (pow_pos' (expo y)).le)
    exact_mod_cast this

theorem rnd_mono : Monotone rnd := by
  intro x y h
  rcases lt_trichotomy x 0 with hx | hx | hx
  · rcases lt_or_ge y 0 with hy | hy
    · have := rnd_mono_pos (x := -y) (y := -x) (by linarith) (by linarith)
      rw [rnd_neg, rnd_neg] at this
      linarith
    · have h1 := rnd_nonneg (x := -x) (by linarith)
      rw [rnd_neg] at h1
      have := rnd_nonneg hy
      linarith
  · rw [hx, rnd_zero]
    exact rnd_nonneg (hx ▸ h)
  · exact rnd_mono_pos hx h

theorem expo_eq {x : ℝ} {e : ℤ} (he : -1074 ≤ e) (lo : 2 ^ (52 + e) ≤ |x|)
    (hi : |x| < 2 ^ (53 + e)) : expo x = e := by
  have h0 : x ≠ 0 := by
    intro h'
    rw [h', abs_zero] at lo
    exact absurd lo (not_le.mpr (pow_pos' _))
  refine le_antisymm (expo_lt h0 he hi) ?_
  refine le_trans ?_ (le_max_left _ _)
  have := (Int.zpow_le_iff_le_log (b := 2) (by norm_num) (x := 52 + e) (r := |x|)
    (abs_pos.mpr h0)).mp (by exact_mod_cast lo)
  omega

theorem roundEven_tie (m : ℤ) (hm : Even m) : roundEven (m + 1 / 2) = m ∧ roundEven (m - 1 / 2) = m := by
  have h1 : roundEven (m + 1 / 2 : ℝ) = m := by
    have hf : ⌊(m : ℝ) + 1 / 2⌋ = m := by
      rw [Int.floor_eq_iff]; constructor <;> linarith
    unfold roundEven
    rw [hf, if_neg (by linarith), if_neg (by linarith), if_pos hm]
  refine ⟨h1, ?_⟩
  have hf : ⌊(m : ℝ) - 1 / 2⌋ = m - 1 := by
    rw [Int.floor_eq_iff]; push_cast; constructor <;> linarith
  unfold roundEven
  rw [hf]
  push_cast
  rw [if_neg (by linarith), if_neg (by linarith), if_neg (by rw [Int.even_sub_one]; simpa using hm)]
  ring

/-- A tie goes to the even neighbour. -/
theorem rnd_tie {x : ℝ} (m e : ℤ) (hm : Even m) (he : -1074 ≤ e) (lo : 2 ^ (52 + e) ≤ |x|)
    (hi : |x| < 2 ^ (53 + e)) (h : x = m * 2 ^ e + 2 ^ e / 2 ∨ x = m * 2 ^ e - 2 ^ e / 2) :
    rnd x = m * 2 ^ e := by
  have hex := expo_eq he lo hi
  have hp := pow_pos' e
  unfold rnd
  rw [hex]
  rcases h with h | h
  · rw [show x / 2 ^ e = m + 1 / 2 from by rw [h]; field_simp, (roundEven_tie m hm).1]
  · rw [show x / 2 ^ e = m - 1 / 2 from by rw [h]; field_simp, (roundEven_tie m hm).2]

theorem rnd_form (x : ℝ) : ∃ m e : ℤ, -1074 ≤ e ∧ |m| ≤ 2 ^ 53 ∧ rnd x = m * 2 ^ e :=
  ⟨_, _, expo_ge x, mant_le x, rfl⟩

theorem rnd_double (x : ℝ) (h : rnd x = x) : rnd (2 * x) = 2 * x := by
  obtain ⟨m, e, he, hm, hx⟩ := rnd_form x
  rw [h] at hx
  refine rnd_rep m (e + 1) (by omega) hm ?_
  rw [hx, zpow_add₀ (by norm_num), zpow_one]
  ring

/-- The value of the rounding, from a bracket. -/
theorem rnd_eq {x : ℝ} (m e : ℤ) (he : -1074 ≤ e) (lo : 2 ^ (52 + e) ≤ |x|)
    (hi : |x| < 2 ^ (53 + e)) (h : |x - m * 2 ^ e| < 2 ^ e / 2) : rnd x = m * 2 ^ e := by
  have hex := expo_eq he lo hi
  unfold rnd
  rw [hex]
  have hp := pow_pos' e
  have hq : |x / 2 ^ e - m| < 1 / 2 := by
    have : x / 2 ^ e - m = (x - m * 2 ^ e) / 2 ^ e := by field_simp
    rw [this, abs_div, abs_of_pos hp, div_lt_iff₀ hp]
    linarith
  have hr : roundEven (x / 2 ^ e) = m := by
    have hn := roundEven_near (x / 2 ^ e)
    have : |((roundEven (x / 2 ^ e) - m : ℤ) : ℝ)| < 1 := by
      push_cast
      calc _ = |((roundEven (x / 2 ^ e) : ℝ) - x / 2 ^ e) + (x / 2 ^ e - m)| := by ring_nf
        _ ≤ _ := abs_add_le _ _
        _ < 1 := by linarith
    have : |roundEven (x / 2 ^ e) - m| < 1 := by
      rw [← Int.cast_abs] at this
      exact_mod_cast this
    rw [Int.abs_lt_one_iff] at this
    omega
  rw [hr]

end Ieee

/-- Binary64 with a correctly rounded library. -/
noncomputable def ieee : Machine where
  rnd := Ieee.rnd
  mono := Ieee.rnd_mono
  idem := Ieee.rnd_idem
  neg := Ieee.rnd_neg
  int := Ieee.rnd_int
  near := Ieee.rnd_near
  double := Ieee.rnd_double
  sin x := Ieee.rnd (Real.sin x)
  cos x := Ieee.rnd (Real.cos x)
  exp x := Ieee.rnd (Real.exp x)
  log x := Ieee.rnd (Real.log x)
  atan2 y x := Ieee.rnd (realAtan2 y x)
  pow x y := Ieee.rnd (x ^ y)
  sin_le x := by
    have h1 := Ieee.rnd_mono (Real.sin_le_one x)
    have h2 := Ieee.rnd_mono (Real.neg_one_le_sin x)
    have : Ieee.rnd 1 = 1 := by simpa using Ieee.rnd_int 1 (by norm_num)
    rw [Ieee.rnd_neg] at h2
    rw [this] at h1 h2
    exact abs_le.mpr ⟨h2, h1⟩
  cos_le x := by
    have h1 := Ieee.rnd_mono (Real.cos_le_one x)
    have h2 := Ieee.rnd_mono (Real.neg_one_le_cos x)
    have : Ieee.rnd 1 = 1 := by simpa using Ieee.rnd_int 1 (by norm_num)
    rw [Ieee.rnd_neg] at h2
    rw [this] at h1 h2
    exact abs_le.mpr ⟨h2, h1⟩
  exp_nonneg x := Ieee.rnd_nonneg (Real.exp_pos x).le

end Ergodic
