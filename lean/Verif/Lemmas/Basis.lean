import Verif.Spec.Basis
import Verif.Lemmas.Dbl
import Mathlib.Algebra.BigOperators.Group.List.Basic
import Mathlib.Algebra.Order.BigOperators.Group.List
import Mathlib.Tactic.Linarith
import Mathlib.Tactic.FieldSimp

/-! # Sums and basis numbers -/

namespace Ergodic

theorem foldl_add (l : List ℝ) : ∀ a : ℝ, l.foldl (fun s x => s +. x) a = a + l.sum := by
  induction l with
  | nil => intro a; simp
  | cons x t ih => intro a; rw [List.foldl_cons, ih, real_add, List.sum_cons]; ring

theorem fsum_real (l : List ℝ) : fsum l = l.sum := by
  unfold fsum; rw [foldl_add]; simp [real_lit]

theorem abs_sum_le (l : List ℝ) (C : ℝ) (h : ∀ x ∈ l, |x| ≤ C) : |l.sum| ≤ l.length * C := by
  induction l with
  | nil => simp
  | cons x t ih =>
    have h1 := h x (by simp)
    have h2 := ih (fun y hy => h y (by simp [hy]))
    simp only [List.sum_cons, List.length_cons]
    push_cast
    calc |x + t.sum| ≤ |x| + |t.sum| := abs_add_le _ _
      _ ≤ _ := by linarith

theorem numbers_eq (n : Nat) : Basis.numbers n =
    (List.range (n * n)).map (fun c => (((c % n : Nat) : Int), ((c / n : Nat) : Int))) := by
  have key : ∀ m, (List.range m).flatMap (fun i : Nat => (List.range n).map fun j : Nat => ((j : Int), (i : Int))) =
      (List.range (m * n)).map (fun c => (((c % n : Nat) : Int), ((c / n : Nat) : Int))) := by
    intro m
    induction m with
    | zero => simp
    | succ m ih =>
      rw [List.range_succ, List.flatMap_append, ih, Nat.succ_mul, List.range_add, List.map_append]
      congr 1
      simp only [List.flatMap_cons, List.flatMap_nil, List.append_nil, List.map_map]
      apply List.map_congr_left
      intro j hj
      rw [List.mem_range] at hj
      have h1 : (m * n + j) % n = j := Nat.mul_add_mod_of_lt hj
      have h2 : (m * n + j) / n = m := by
        rw [Nat.mul_comm, Nat.mul_add_div (by omega), Nat.div_eq_of_lt hj, Nat.add_zero]
      show ((j : Int), (m : Int)) = (((( m * n + j) % n : Nat) : Int), (((m * n + j) / n : Nat) : Int))
      rw [h1, h2]
  exact key n

end Ergodic
