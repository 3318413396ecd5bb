import Verif.Base.Rounded

/-!
# Rounded arithmetic that overflows

`ODbl M` are the rounded numbers of `RDbl M` with overflow: a finite result whose rounded magnitude
reaches `2^1024` becomes an infinity of the same sign, as IEEE-754 prescribes for rounding to
nearest.  There is no signed zero.
-/

namespace Ergodic

/-- The smallest power of two that is not a double. -/
noncomputable def huge : ℝ := 2 ^ 1024

theorem pow_lt_huge {k : ℕ} (h : k ≤ 1023) : (2 : ℝ) ^ k < huge :=
  pow_lt_pow_right₀ (by norm_num) (by omega)

theorem huge_pos : 0 < huge := by unfold huge; positivity

/-- A rounded double that overflows. -/
def ODbl (_ : Machine) : Type := Dbl

namespace ODbl
variable {M : Machine}

/-- A finite number. -/
def fin (x : ℝ) : ODbl M := Dbl.fin x
/-- Not a number. -/
def nan : ODbl M := Dbl.nan
/-- An infinity. -/
def inf (negative : Bool) : ODbl M := Dbl.inf negative

/-- A finite result out of range becomes an infinity. -/
noncomputable def cap : Dbl → Dbl
  | .fin x => open Classical in if |x| < huge then .fin x else .inf (Dbl.sgn x)
  | x => x

/-- Round a finite result, then overflow. -/
noncomputable def rd (M : Machine) (a : Dbl) : Dbl := cap (RDbl.rd M a)

end ODbl

/-- Rounded arithmetic with IEEE-754 special values and overflow. -/
noncomputable instance instFltODbl (M : Machine) : Flt (ODbl M) where
  add a b := ODbl.rd M (Dbl.add a b)
  sub a b := ODbl.rd M (Dbl.add a (Dbl.neg b))
  mul a b := ODbl.rd M (Dbl.mul a b)
  div a b := ODbl.rd M (Dbl.div a b)
  neg := Dbl.neg
  lt := Dbl.lt
  floor a := match a with
    | Dbl.fin r => Dbl.fin (⌊r⌋ : ℝ)
    | x => x
  round a := match a with
    | Dbl.fin r => Dbl.fin (realRound r)
    | x => x
  sqrt a := ODbl.rd M (Dbl.sqrt a)
  sin := Dbl.lift M.sin
  cos := Dbl.lift M.cos
  exp a := match a with
    | Dbl.fin r => ODbl.cap (Dbl.fin (M.exp r))
    | x => Dbl.exp x
  log a := match a with
    | Dbl.fin r => open Classical in
        if r < 0 then Dbl.nan else if r = 0 then Dbl.inf true else Dbl.fin (M.log r)
    | x => Dbl.log x
  atan2 a b := match a, b with
    | Dbl.fin y, Dbl.fin x => Dbl.fin (M.atan2 y x)
    | y, x => ODbl.rd M (Dbl.atan2 y x)
  pow a b := match a, b with
    | Dbl.fin x, Dbl.fin y => open Classical in
        if x < 0 then Dbl.nan else ODbl.cap (Dbl.fin (M.pow x y))
    | x, y => Dbl.pow x y
  lit m e := ODbl.rd M (Dbl.fin ((m : ℝ) / 10 ^ e))
  ofInt n := ODbl.rd M (Dbl.fin (n : ℝ))
  pi := Dbl.fin (M.rnd Real.pi)
  maxFin := Dbl.fin (2 ^ 1024 - 2 ^ 971)
  trunc? a := match a with
    | Dbl.fin r => some (realTrunc r)
    | _ => none

namespace ODbl
variable {M : Machine}

theorem cap_small {x : ℝ} (h : |x| < huge) : cap (.fin x) = .fin x :=
  if_pos h

theorem cap_large {x : ℝ} (h : huge ≤ |x|) : cap (.fin x) = .inf (Dbl.sgn x) :=
  if_neg (not_lt.mpr h)

theorem rd_small {x : ℝ} (h : |M.rnd x| < huge) : rd M (.fin x) = .fin (M.rnd x) :=
  cap_small h

theorem rd_large {x : ℝ} (h : huge ≤ |M.rnd x|) : rd M (.fin x) = .inf (Dbl.sgn (M.rnd x)) :=
  cap_large h

theorem lt_fin (a b : ℝ) : Flt.lt (fin a : ODbl M) (fin b) = true ↔ a < b := by
  show (decide (a < b) = true) ↔ _
  simp

theorem lt_fin_false (a b : ℝ) : Flt.lt (fin a : ODbl M) (fin b) = false ↔ b ≤ a := by
  rw [← not_lt, ← lt_fin (M := M), Bool.not_eq_true]

end ODbl
end Ergodic
