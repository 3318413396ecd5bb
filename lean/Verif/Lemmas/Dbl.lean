import Verif.Lemmas.Real
import Verif.Base.Vec

/-! # Simplification lemmas for arithmetic with special values -/

namespace Ergodic
namespace Dbl

@[simp] theorem add_fin (a b : ℝ) : Flt.add (fin a) (fin b) = fin (a + b) := rfl
@[simp] theorem sub_fin (a b : ℝ) : Flt.sub (fin a) (fin b) = fin (a - b) := by
  show fin (a + -b) = _; rw [sub_eq_add_neg]
@[simp] theorem mul_fin (a b : ℝ) : Flt.mul (fin a) (fin b) = fin (a * b) := rfl
theorem div_fin (a : ℝ) {b : ℝ} (hb : b ≠ 0) : Flt.div (fin a) (fin b) = fin (a / b) := by
  show Dbl.div _ _ = _; simp [Dbl.div, hb]
@[simp] theorem neg_fin (a : ℝ) : Flt.neg (fin a) = fin (-a) := rfl
@[simp] theorem sin_fin (a : ℝ) : Flt.sin (fin a) = fin (Real.sin a) := rfl
@[simp] theorem cos_fin (a : ℝ) : Flt.cos (fin a) = fin (Real.cos a) := rfl
@[simp] theorem exp_fin (a : ℝ) : Flt.exp (fin a) = fin (Real.exp a) := rfl
theorem log_fin {a : ℝ} (h : 0 < a) : Flt.log (fin a) = fin (Real.log a) := by
  show Dbl.log _ = _; simp [Dbl.log, h.not_gt, h.ne']
theorem log_zero : Flt.log (fin 0) = inf true := by
  show Dbl.log _ = _; simp [Dbl.log]
theorem log_neg {a : ℝ} (h : a < 0) : Flt.log (fin a) = nan := by
  show Dbl.log _ = _; simp [Dbl.log, h]
@[simp] theorem floor_fin (a : ℝ) : Flt.floor (fin a) = fin (⌊a⌋ : ℝ) := rfl
@[simp] theorem round_fin (a : ℝ) : Flt.round (fin a) = fin (realRound a) := rfl
@[simp] theorem lit_eq (m : Int) (e : Nat) : (lit m e : Dbl) = fin ((m : ℝ) / 10 ^ e) := rfl
@[simp] theorem ofInt_eq (n : Int) : (Flt.ofInt n : Dbl) = fin (n : ℝ) := rfl
@[simp] theorem pi_eq : (Flt.pi : Dbl) = fin Real.pi := rfl
@[simp] theorem trunc_fin (a : ℝ) : Flt.trunc? (fin a) = some (realTrunc a) := rfl
@[simp] theorem trunc_nan : Flt.trunc? nan = none := rfl
@[simp] theorem trunc_inf (s : Bool) : Flt.trunc? (inf s) = none := rfl
@[simp] theorem lt_fin (a b : ℝ) : Flt.lt (fin a) (fin b) = true ↔ a < b := by
  show Dbl.lt _ _ = true ↔ _; simp [Dbl.lt]
@[simp] theorem lt_fin_false (a b : ℝ) : Flt.lt (fin a) (fin b) = false ↔ b ≤ a := by
  show Dbl.lt _ _ = false ↔ _; simp [Dbl.lt]

@[simp] theorem nan_add (b : Dbl) : Flt.add nan b = nan := by cases b <;> rfl
@[simp] theorem add_nan (b : Dbl) : Flt.add b nan = nan := by cases b <;> rfl
@[simp] theorem nan_sub (b : Dbl) : Flt.sub nan b = nan := by cases b <;> rfl
@[simp] theorem sub_nan (b : Dbl) : Flt.sub b nan = nan := by cases b <;> rfl
@[simp] theorem nan_mul (b : Dbl) : Flt.mul nan b = nan := by cases b <;> rfl
@[simp] theorem mul_nan (b : Dbl) : Flt.mul b nan = nan := by cases b <;> rfl
@[simp] theorem nan_div (b : Dbl) : Flt.div nan b = nan := by cases b <;> rfl
@[simp] theorem div_nan (b : Dbl) : Flt.div b nan = nan := by cases b <;> rfl
@[simp] theorem neg_nan : Flt.neg nan = nan := rfl
@[simp] theorem lt_nan_left (b : Dbl) : Flt.lt nan b = false := by cases b <;> rfl
@[simp] theorem lt_nan_right (b : Dbl) : Flt.lt b nan = false := by cases b <;> rfl
@[simp] theorem sin_nan : Flt.sin nan = nan := rfl
@[simp] theorem cos_nan : Flt.cos nan = nan := rfl
@[simp] theorem exp_nan : Flt.exp nan = nan := rfl
@[simp] theorem log_nan : Flt.log nan = nan := rfl
@[simp] theorem floor_nan : Flt.floor nan = nan := rfl
theorem zero_div_zero : Flt.div (fin 0) (fin 0) = nan := by
  show Dbl.div _ _ = _; simp [Dbl.div]
theorem div_zero_pos {a : ℝ} (h : 0 < a) : Flt.div (fin a) (fin 0) = inf false := by
  show Dbl.div _ _ = _; simp [Dbl.div, sgn, h.ne', h.not_gt]
theorem div_zero_neg {a : ℝ} (h : a < 0) : Flt.div (fin a) (fin 0) = inf true := by
  show Dbl.div _ _ = _; simp [Dbl.div, sgn, h.ne, h]

theorem fabs_fin (a : ℝ) : fabs (fin a) = fin |a| := by
  unfold fabs
  by_cases h : a < 0
  · rw [if_pos (by simpa using h)]; simp [abs_of_neg h]
  · rw [if_neg (by simpa using h)]; simp [abs_of_nonneg (not_lt.mp h)]

/-- the number is finite -/
def IsFin (d : Dbl) : Prop := ∃ r, d = fin r

end Dbl
end Ergodic
