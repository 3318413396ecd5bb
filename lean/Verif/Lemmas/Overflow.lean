import Verif.Spec.Special
import Verif.Props.RoundedWindow

/-!
# Lemmas about arithmetic with special values and overflow
-/

namespace Ergodic

open Special

/-! ## the three arithmetics -/

namespace Dbl

/-- Neither infinite nor NaN. -/
def Finite (a : Dbl) : Prop := ∃ x : ℝ, a = .fin x

theorem Finite.of_rd {M : Machine} {a : Dbl} (h : Finite (RDbl.rd M a)) : Finite a := by
  obtain ⟨x, h⟩ := h
  cases a with
  | fin y => exact ⟨y, rfl⟩
  | nan => exact Dbl.noConfusion h
  | inf s => exact Dbl.noConfusion h

theorem Finite.of_cap {a : Dbl} (h : Finite (ODbl.cap a)) : Finite a := by
  obtain ⟨x, h⟩ := h
  cases a with
  | fin y => exact ⟨y, rfl⟩
  | nan => exact Dbl.noConfusion h
  | inf s => exact Dbl.noConfusion h

theorem Finite.of_ord {M : Machine} {a : Dbl} (h : Finite (ODbl.rd M a)) : Finite a := h.of_cap.of_rd

theorem Finite.add {a b : Dbl} (h : Finite (Dbl.add a b)) : Finite a ∧ Finite b := by
  obtain ⟨x, h⟩ := h
  cases a <;> cases b <;> simp only [Dbl.add] at h
  case fin.fin a b => exact ⟨⟨a, rfl⟩, b, rfl⟩
  case inf.inf => split at h <;> cases h
  all_goals cases h

theorem Finite.neg {a : Dbl} (h : Finite (Dbl.neg a)) : Finite a := by
  obtain ⟨x, h⟩ := h
  cases a <;> simp only [Dbl.neg] at h
  case fin a => exact ⟨a, rfl⟩
  all_goals cases h

theorem Finite.mul {a b : Dbl} (h : Finite (Dbl.mul a b)) : Finite a ∧ Finite b := by
  obtain ⟨x, h⟩ := h
  cases a <;> cases b <;> simp only [Dbl.mul] at h
  case fin.fin a b => exact ⟨⟨a, rfl⟩, b, rfl⟩
  case inf.fin => split at h <;> cases h
  case fin.inf => split at h <;> cases h
  all_goals cases h

theorem Finite.div {a b : Dbl} (h : Finite (Dbl.div a b)) : Finite a := by
  obtain ⟨x, h⟩ := h
  cases a with
  | fin a => exact ⟨a, rfl⟩
  | nan => cases b <;> cases h
  | inf s => cases b <;> cases h

theorem Finite.lift {f : ℝ → ℝ} {a : Dbl} (h : Finite (Dbl.lift f a)) : Finite a := by
  obtain ⟨x, h⟩ := h
  cases a with
  | fin a => exact ⟨a, rfl⟩
  | nan => cases h
  | inf s => cases h

theorem Finite.below {z : ℝ} {a b : Dbl}
    (h : Dbl.lt (if Dbl.lt a (.fin z) then Dbl.neg a else a) b = true) : Finite a := by
  cases a with
  | fin a => exact ⟨a, rfl⟩
  | nan => cases b <;> simp [Dbl.lt] at h
  | inf s => cases s <;> cases b <;> simp [Dbl.lt, Dbl.neg] at h

end Dbl

open Dbl (Finite)

noncomputable instance : Special Dbl where
  Fin := Dbl.Finite
  add_l _ _ h := h.add.1
  add_r _ _ h := h.add.2
  sub_l _ _ h := h.add.1
  mul_l _ _ h := h.mul.1
  mul_r _ _ h := h.mul.2
  div_l _ _ h := h.div
  cos_arg _ h := h.lift
  index a k h := by
    cases a with
    | fin a => exact ⟨a, rfl⟩
    | nan => cases h
    | inf s => cases h
  below a b h := Dbl.Finite.below (z := ((0 : ℤ) : ℝ) / 10 ^ 0) h
  zero := ⟨_, rfl⟩

noncomputable instance (M : Machine) : Special (RDbl M) where
  Fin := Dbl.Finite
  add_l _ _ h := h.of_rd.add.1
  add_r _ _ h := h.of_rd.add.2
  sub_l _ _ h := h.of_rd.add.1
  mul_l _ _ h := h.of_rd.mul.1
  mul_r _ _ h := h.of_rd.mul.2
  div_l _ _ h := h.of_rd.div
  cos_arg _ h := h.lift
  index a k h := by
    cases a with
    | fin a => exact ⟨a, rfl⟩
    | nan => cases h
    | inf s => cases h
  below a b h := Dbl.Finite.below (z := M.rnd (((0 : ℤ) : ℝ) / 10 ^ 0)) h
  zero := ⟨_, rfl⟩

theorem lit_ord {M : Machine} {m : Int} {e : Nat} (h : |(m : ℝ) / 10 ^ e| ≤ 2 ^ 53) :
    (lit m e : ODbl M) = .fin (M.rnd ((m : ℝ) / 10 ^ e)) := by
  refine ODbl.rd_small ?_
  have h0 : (((2 : ℤ) ^ 53 : ℤ) : ℝ) = 2 ^ 53 := by norm_cast
  have h1 := M.rnd_le_int (x := (m : ℝ) / 10 ^ e) (n := 2 ^ 53) (by norm_num)
    (by rw [h0]; exact (abs_le.mp h).2)
  have h2 := M.int_le_rnd (x := (m : ℝ) / 10 ^ e) (n := -2 ^ 53) (by norm_num)
    (by rw [Int.cast_neg, h0]; exact (abs_le.mp h).1)
  rw [h0] at h1
  rw [Int.cast_neg, h0] at h2
  exact (abs_le.mpr ⟨h2, h1⟩).trans_lt (pow_lt_huge (by norm_num))

theorem lit_zero_ord {M : Machine} : (lit 0 0 : ODbl M) = .fin 0 := by
  rw [lit_ord (by norm_num)]
  norm_num

noncomputable instance (M : Machine) : Special (ODbl M) where
  Fin := Dbl.Finite
  add_l _ _ h := h.of_ord.add.1
  add_r _ _ h := h.of_ord.add.2
  sub_l _ _ h := h.of_ord.add.1
  mul_l _ _ h := h.of_ord.mul.1
  mul_r _ _ h := h.of_ord.mul.2
  div_l _ _ h := h.of_ord.div
  cos_arg _ h := h.lift
  index a k h := by
    cases a with
    | fin a => exact ⟨a, rfl⟩
    | nan => cases h
    | inf s => cases h
  below a b h := by
    unfold fabs at h
    rw [lit_zero_ord] at h
    exact Dbl.Finite.below (z := 0) h
  zero := ⟨0, lit_zero_ord⟩

instance (M : Machine) : StrictLt (ODbl M) where
  irrefl a := StrictLt.irrefl (F := Dbl) a
  trans a b c := StrictLt.trans (F := Dbl) a b c
  max_close := by
    unfold almostEqual
    have e1 : (Flt.maxFin : ODbl M) -. Flt.maxFin = .fin 0 := by
      show ODbl.rd M (.fin ((2 ^ 1024 - 2 ^ 971 : ℝ) + -(2 ^ 1024 - 2 ^ 971))) = _
      rw [add_neg_cancel, ODbl.rd_small (by rw [M.rnd_zero, abs_zero]; exact huge_pos), M.rnd_zero]
      rfl
    have e2 : fabs (.fin 0 : ODbl M) = .fin 0 := by
      unfold fabs
      rw [lit_zero_ord, if_neg (by rw [ODbl.lt_fin]; exact lt_irrefl _)]
    rw [e1, e2, lit_ord (by norm_num [abs_of_pos]), ODbl.lt_fin]
    have e := (M.err' minNormal_le_one (x := ((1 : ℤ) : ℝ) / 10 ^ 12) (by norm_num [abs_of_pos])).1
    norm_num at e ⊢
    linarith


/-! ## results that do not overflow -/

section
variable {M : Machine}

/-- The same finite number in both arithmetics, of magnitude at most `2^k`. -/
def Same (k : ℕ) (a : ODbl M) (b : RDbl M) : Prop := ∃ r : ℝ, a = .fin r ∧ b = .fin r ∧ |r| ≤ 2 ^ k

theorem rnd_abs (M : Machine) (x : ℝ) : |M.rnd x| ≤ 2 * |x| + 1 := by
  have h := M.near x
  have h1 : tiny ≤ 1 := (tiny_le 0 (by norm_num)).trans (by norm_num)
  have h2 := abs_sub_abs_le_abs_sub (M.rnd x) x
  have h3 := abs_nonneg x
  have h4 : |x| / 2 ^ 53 ≤ |x| := div_le_self h3 (by norm_num)
  linarith

theorem rnd_pow {x : ℝ} {k l : ℕ} (h : |x| ≤ 2 ^ k) (hl : k + 2 ≤ l) (hl' : l ≤ 1023) :
    |M.rnd x| ≤ 2 ^ l ∧ |M.rnd x| < huge := by
  have h0 : |M.rnd x| ≤ 2 ^ l := by
    have h1 := rnd_abs M x
    have h2 : (1 : ℝ) ≤ 2 ^ k := one_le_pow₀ (by norm_num)
    have h3 : (2 : ℝ) ^ (k + 2) ≤ 2 ^ l := pow_le_pow_right₀ (by norm_num) hl
    rw [pow_add] at h3
    linarith
  exact ⟨h0, h0.trans_lt (pow_lt_huge hl')⟩

namespace Same
variable {a c : ODbl M} {b d : RDbl M} {k l m : ℕ}

theorem of_fin {r : ℝ} (h : |r| ≤ 2 ^ k) : Same k (.fin r : ODbl M) (.fin r : RDbl M) := ⟨r, rfl, rfl, h⟩

theorem mono (h : Same k a b) (hk : k ≤ l) : Same l a b := by
  obtain ⟨r, h1, h2, h3⟩ := h
  exact ⟨r, h1, h2, h3.trans (pow_le_pow_right₀ (by norm_num) hk)⟩

theorem add (h : Same k a b) (h' : Same k c d) (hl : k + 3 ≤ l) (hl' : l ≤ 1023) :
    Same l (a +. c) (b +. d) := by
  obtain ⟨r, rfl, rfl, h3⟩ := h
  obtain ⟨s, rfl, rfl, h6⟩ := h'
  have hb : |r + s| ≤ 2 ^ (k + 1) := by
    refine (abs_add_le r s).trans ?_
    rw [pow_succ]; linarith
  obtain ⟨e1, e2⟩ := rnd_pow (M := M) hb (l := l) (by omega) hl'
  exact ⟨M.rnd (r + s), ODbl.rd_small e2, rfl, e1⟩

theorem neg (h : Same k a b) : Same k (~-. a) (~-. b) := by
  obtain ⟨r, rfl, rfl, h3⟩ := h
  exact ⟨-r, rfl, rfl, by rwa [abs_neg]⟩

theorem sub (h : Same k a b) (h' : Same k c d) (hl : k + 3 ≤ l) (hl' : l ≤ 1023) :
    Same l (a -. c) (b -. d) := add h h'.neg hl hl'

theorem mul (h : Same k a b) (h' : Same m c d) (hl : k + m + 2 ≤ l) (hl' : l ≤ 1023) :
    Same l (a *. c) (b *. d) := by
  obtain ⟨r, rfl, rfl, h3⟩ := h
  obtain ⟨s, rfl, rfl, h6⟩ := h'
  have hb : |r * s| ≤ 2 ^ (k + m) := by
    rw [abs_mul, pow_add]
    exact mul_le_mul h3 h6 (abs_nonneg _) (by positivity)
  obtain ⟨e1, e2⟩ := rnd_pow (M := M) hb (l := l) (by omega) hl'
  exact ⟨M.rnd (r * s), ODbl.rd_small e2, rfl, e1⟩

theorem div {s : ℝ} (h : Same k a b) (hs : 1 / 2 ^ m ≤ |s|) (hl : k + m + 2 ≤ l) (hl' : l ≤ 1023) :
    Same l (a /. (.fin s : ODbl M)) (b /. (.fin s : RDbl M)) := by
  obtain ⟨r, rfl, rfl, h3⟩ := h
  have h0 : 0 < |s| := lt_of_lt_of_le (by positivity) hs
  have hs0 : s ≠ 0 := abs_pos.mp h0
  have hb : |r / s| ≤ 2 ^ (k + m) := by
    rw [abs_div, div_le_iff₀ h0, pow_add]
    have h1 : (1 : ℝ) ≤ 2 ^ m * |s| := by
      rw [div_le_iff₀ (by positivity)] at hs
      linarith
    calc |r| ≤ 2 ^ k * 1 := by linarith
      _ ≤ 2 ^ k * (2 ^ m * |s|) := by gcongr
      _ = _ := by ring
  obtain ⟨e1, e2⟩ := rnd_pow (M := M) hb (l := l) (by omega) hl'
  refine ⟨M.rnd (r / s), ?_, RDbl.div_fin r hs0, e1⟩
  show ODbl.rd M (if s = 0 then _ else Dbl.fin (r / s)) = _
  rw [if_neg hs0]
  exact ODbl.rd_small e2

theorem div' {s : ℝ} (h : Same k a b) (hc : c = .fin s) (hd : d = .fin s) (hs : 1 / 2 ^ m ≤ |s|)
    (hl : k + m + 2 ≤ l) (hl' : l ≤ 1023) : Same l (a /. c) (b /. d) := by
  subst hc hd
  exact h.div hs hl hl'

theorem sin (h : Same k a b) : Same 0 (Flt.sin a) (Flt.sin b) := by
  obtain ⟨r, rfl, rfl, h3⟩ := h
  exact ⟨M.sin r, rfl, rfl, by simpa using M.sin_le r⟩

theorem cos (h : Same k a b) : Same 0 (Flt.cos a) (Flt.cos b) := by
  obtain ⟨r, rfl, rfl, h3⟩ := h
  exact ⟨M.cos r, rfl, rfl, by simpa using M.cos_le r⟩

theorem floor (h : Same k a b) : Same (k + 1) (Flt.floor a) (Flt.floor b) := by
  obtain ⟨r, rfl, rfl, h3⟩ := h
  refine ⟨(⌊r⌋ : ℝ), rfl, rfl, ?_⟩
  have h1 := Int.floor_le r
  have h2 := Int.lt_floor_add_one r
  have h4 : (1 : ℝ) ≤ 2 ^ k := one_le_pow₀ (by norm_num)
  rw [abs_le] at h3 ⊢
  rw [pow_succ]
  constructor <;> linarith [h3.1, h3.2]

theorem lit {n : Int} {e : Nat} (h : |(n : ℝ) / 10 ^ e| ≤ 2 ^ 53) :
    Same 55 (Flt.lit n e : ODbl M) (Flt.lit n e : RDbl M) :=
  ⟨M.rnd ((n : ℝ) / 10 ^ e), lit_ord h, rfl, (rnd_pow h (by norm_num) (by norm_num)).1⟩

theorem pi : Same 10 (Flt.pi : ODbl M) (Flt.pi : RDbl M) := by
  refine ⟨M.rnd Real.pi, rfl, rfl, (rnd_pow (k := 2) ?_ (by norm_num) (by norm_num)).1⟩
  rw [abs_of_pos Real.pi_pos]
  linarith [Real.pi_le_four]

theorem lt (h : Same k a b) (h' : Same l c d) : Flt.lt a c = Flt.lt b d := by
  obtain ⟨r, rfl, rfl, -⟩ := h
  obtain ⟨s, rfl, rfl, -⟩ := h'
  rfl

theorem fabs (h : Same k a b) : Same k (Ergodic.fabs a) (Ergodic.fabs b) := by
  unfold Ergodic.fabs
  rw [h.lt (lit (by norm_num))]
  split
  · exact h.neg
  · exact h

theorem trunc (h : Same k a b) : Flt.trunc? a = Flt.trunc? b := by
  obtain ⟨r, rfl, rfl, -⟩ := h
  rfl

theorem castU32 (h : Same k a b) : Ergodic.castU32 a = Ergodic.castU32 b := by
  unfold Ergodic.castU32; rw [h.trunc]

theorem castI32 (h : Same k a b) : Ergodic.castI32 a = Ergodic.castI32 b := by
  unfold Ergodic.castI32; rw [h.trunc]

end Same
end

end Ergodic
