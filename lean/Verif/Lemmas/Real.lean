import Mathlib.Tactic.Linarith
import Mathlib.Tactic.Ring
import Mathlib.Tactic.NormNum
import Mathlib.Tactic.Positivity
import Mathlib.Tactic.FieldSimp
import Mathlib.Tactic.IntervalCases
import Mathlib.Tactic.LinearCombination
import Mathlib.Tactic.GCongr
import Verif.Base.Flt

/-! # Helper lemmas about casts and rounding over the reals -/

namespace Ergodic

theorem realTrunc_of_nonneg {x : ℝ} (h : 0 ≤ x) : realTrunc x = ⌊x⌋ := by
  simp [realTrunc, h]

theorem realTrunc_intCast (n : Int) : realTrunc (n : ℝ) = n := by
  unfold realTrunc; split <;> simp

theorem castU32_real_of {x : ℝ} {n : Nat} (h0 : (n : ℝ) ≤ x) (h1 : x < n + 1)
    (hn : n < 2 ^ 32) : castU32 x = .ok (UInt32.ofNat n) := by
  have hx : 0 ≤ x := le_trans (Nat.cast_nonneg n) h0
  have hf : ⌊x⌋ = (n : Int) := by
    rw [Int.floor_eq_iff]; constructor <;> push_cast <;> linarith
  simp only [castU32, real_trunc, realTrunc_of_nonneg hx, hf]
  have : (0:Int) ≤ n ∧ (n:Int) < 4294967296 := by constructor <;> omega
  simp [this.2]

theorem castU32_real_eq_ok {x : ℝ} {u : UInt32} (h : castU32 x = .ok u) :
    realTrunc x = (u.toNat : Int) := by
  simp only [castU32, real_trunc] at h
  split at h
  · rename_i hn
    simp only [Res.ok.injEq] at h
    rw [← h, UInt32.toNat_ofNat_of_lt']
    · omega
    · have := hn.2; simp [UInt32.size]; omega
  · simp at h

theorem realRound_natCast (n : Nat) : realRound (n : ℝ) = n := by
  have : (0:ℝ) ≤ n := Nat.cast_nonneg n
  simp only [realRound, this, if_true]
  have : ⌊(n:ℝ) + 1/2⌋ = (n : Int) := by
    rw [Int.floor_eq_iff]; constructor <;> push_cast <;> linarith
  rw [this]; simp

theorem castU32_natCast {n : Nat} (hn : n < 2 ^ 32) :
    castU32 (n : ℝ) = .ok (UInt32.ofNat n) :=
  castU32_real_of le_rfl (by linarith) hn

theorem uint32_ofNat_toNat (u : UInt32) : UInt32.ofNat u.toNat = u := by simp

theorem uint32_lt (u : UInt32) : u.toNat < 2 ^ 32 := u.toNat_lt

end Ergodic
