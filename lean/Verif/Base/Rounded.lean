import Verif.Base.Flt

/-!
# Rounded arithmetic

A `Machine` is a rounding of the reals to binary64 numbers together with a mathematical library.
Its laws are those IEEE-754 guarantees for round-to-nearest (with gradual underflow) and weak ones
for the library functions, which IEEE-754 does not specify.  `RDbl M` are the numbers of `Dbl` with
every finite result rounded by `M`: NaN and `±∞` as in `Dbl`, no overflow of finite results and no
signed zero.
-/

namespace Ergodic

/-- Half the smallest positive number. -/
noncomputable def tiny : ℝ := (2 : ℝ) ^ (-1075 : ℤ)

theorem tiny_pos : 0 < tiny := by unfold tiny; positivity

theorem tiny_le (n : ℕ) (h : n ≤ 1075) : tiny ≤ 1 / 2 ^ n := by
  unfold tiny
  rw [one_div, ← zpow_natCast, ← zpow_neg]
  exact zpow_le_zpow_right₀ (by norm_num) (by omega)

/-- Rounding to nearest with 53 bits, smallest positive number `2^-1074`, and library functions. -/
structure Machine where
  /-- the nearest machine number -/
  rnd : ℝ → ℝ
  mono : Monotone rnd
  idem : ∀ x, rnd (rnd x) = rnd x
  neg : ∀ x, rnd (-x) = -rnd x
  /-- integers up to `2^53` are machine numbers -/
  int : ∀ n : ℤ, |n| ≤ 2 ^ 53 → rnd n = n
  /-- relative error `2^-53`, absolute error `2^-1075` in the subnormal range -/
  near : ∀ x, |rnd x - x| ≤ |x| / 2 ^ 53 + tiny
  /-- doubling a machine number is exact -/
  double : ∀ x, rnd x = x → rnd (2 * x) = 2 * x
  sin : ℝ → ℝ
  cos : ℝ → ℝ
  exp : ℝ → ℝ
  log : ℝ → ℝ
  atan2 : ℝ → ℝ → ℝ
  pow : ℝ → ℝ → ℝ
  sin_le : ∀ x, |sin x| ≤ 1
  cos_le : ∀ x, |cos x| ≤ 1
  exp_nonneg : ∀ x, 0 ≤ exp x

/-- A rounded double. -/
def RDbl (_ : Machine) : Type := Dbl

namespace RDbl
variable {M : Machine}

/-- A finite number. -/
def fin (x : ℝ) : RDbl M := Dbl.fin x
/-- Not a number. -/
def nan : RDbl M := Dbl.nan
/-- An infinity. -/
def inf (negative : Bool) : RDbl M := Dbl.inf negative

/-- Round a finite result. -/
def rd (M : Machine) : Dbl → Dbl
  | .fin x => .fin (M.rnd x)
  | x => x

end RDbl

/-- Rounded arithmetic with IEEE-754 special values. -/
noncomputable instance instFltRDbl (M : Machine) : Flt (RDbl M) where
  add a b := RDbl.rd M (Dbl.add a b)
  sub a b := RDbl.rd M (Dbl.add a (Dbl.neg b))
  mul a b := RDbl.rd M (Dbl.mul a b)
  div a b := RDbl.rd M (Dbl.div a b)
  neg := Dbl.neg
  lt := Dbl.lt
  floor a := match a with
    | Dbl.fin r => Dbl.fin (⌊r⌋ : ℝ)
    | x => x
  round a := match a with
    | Dbl.fin r => Dbl.fin (realRound r)
    | x => x
  sqrt a := RDbl.rd M (Dbl.sqrt a)
  sin := Dbl.lift M.sin
  cos := Dbl.lift M.cos
  exp a := match a with
    | Dbl.fin r => Dbl.fin (M.exp r)
    | x => Dbl.exp x
  log a := match a with
    | Dbl.fin r => open Classical in
        if r < 0 then Dbl.nan else if r = 0 then Dbl.inf true else Dbl.fin (M.log r)
    | x => Dbl.log x
  atan2 a b := match a, b with
    | Dbl.fin y, Dbl.fin x => Dbl.fin (M.atan2 y x)
    | y, x => RDbl.rd M (Dbl.atan2 y x)
  pow a b := match a, b with
    | Dbl.fin x, Dbl.fin y => open Classical in if x < 0 then Dbl.nan else Dbl.fin (M.pow x y)
    | x, y => Dbl.pow x y
  lit m e := Dbl.fin (M.rnd ((m : ℝ) / 10 ^ e))
  ofInt n := Dbl.fin (M.rnd (n : ℝ))
  pi := Dbl.fin (M.rnd Real.pi)
  maxFin := Dbl.fin (2 ^ 1024 - 2 ^ 971)
  trunc? a := match a with
    | Dbl.fin r => some (realTrunc r)
    | _ => none

namespace RDbl
variable {M : Machine}

@[simp] theorem add_fin (a b : ℝ) : (fin a : RDbl M) +. fin b = fin (M.rnd (a + b)) := rfl
@[simp] theorem sub_fin (a b : ℝ) : (fin a : RDbl M) -. fin b = fin (M.rnd (a - b)) := by
  rw [sub_eq_add_neg]; rfl
@[simp] theorem mul_fin (a b : ℝ) : (fin a : RDbl M) *. fin b = fin (M.rnd (a * b)) := rfl
theorem div_fin (a : ℝ) {b : ℝ} (h : b ≠ 0) : (fin a : RDbl M) /. fin b = fin (M.rnd (a / b)) := by
  show RDbl.rd M (if b = 0 then _ else Dbl.fin (a / b)) = _
  rw [if_neg h]; rfl
@[simp] theorem neg_fin (a : ℝ) : ~-. (fin a : RDbl M) = fin (-a) := rfl
@[simp] theorem lt_fin (a b : ℝ) : Flt.lt (fin a : RDbl M) (fin b) = true ↔ a < b := by
  show (decide (a < b) = true) ↔ _
  simp
@[simp] theorem lt_fin_false (a b : ℝ) : Flt.lt (fin a : RDbl M) (fin b) = false ↔ b ≤ a := by
  rw [← not_lt, ← lt_fin (M := M), Bool.not_eq_true]
@[simp] theorem floor_fin (a : ℝ) : Flt.floor (fin a : RDbl M) = fin (⌊a⌋ : ℝ) := rfl
@[simp] theorem round_fin (a : ℝ) : Flt.round (fin a : RDbl M) = fin (realRound a) := rfl
@[simp] theorem sin_fin (a : ℝ) : Flt.sin (fin a : RDbl M) = fin (M.sin a) := rfl
@[simp] theorem cos_fin (a : ℝ) : Flt.cos (fin a : RDbl M) = fin (M.cos a) := rfl
@[simp] theorem exp_fin (a : ℝ) : Flt.exp (fin a : RDbl M) = fin (M.exp a) := rfl
@[simp] theorem lit_fin (m : Int) (e : Nat) : (lit m e : RDbl M) = fin (M.rnd ((m : ℝ) / 10 ^ e)) := rfl
@[simp] theorem ofInt_fin (n : Int) : (Flt.ofInt n : RDbl M) = fin (M.rnd (n : ℝ)) := rfl
@[simp] theorem pi_fin : (Flt.pi : RDbl M) = fin (M.rnd Real.pi) := rfl
theorem maxFin_fin : (Flt.maxFin : RDbl M) = fin (2 ^ 1024 - 2 ^ 971) := rfl
@[simp] theorem trunc_fin (a : ℝ) : Flt.trunc? (fin a : RDbl M) = some (realTrunc a) := rfl
theorem fin_inj {a b : ℝ} : (fin a : RDbl M) = fin b ↔ a = b := Dbl.fin.injEq a b ▸ Iff.rfl

end RDbl

namespace Machine
variable (M : Machine)

@[simp] theorem rnd_zero : M.rnd 0 = 0 := by simpa using M.int 0 (by norm_num)
@[simp] theorem rnd_one : M.rnd 1 = 1 := by simpa using M.int 1 (by norm_num)
@[simp] theorem rnd_two : M.rnd 2 = 2 := by simpa using M.int 2 (by norm_num)

theorem rnd_nat {n : Nat} (h : n ≤ 2 ^ 53) : M.rnd n = n := by
  have := M.int n (by rw [Nat.abs_cast]; exact_mod_cast h)
  simpa using this

theorem rnd_nonneg {x : ℝ} (h : 0 ≤ x) : 0 ≤ M.rnd x := by
  have := M.mono h; rwa [rnd_zero] at this

theorem rnd_nonpos {x : ℝ} (h : x ≤ 0) : M.rnd x ≤ 0 := by
  have := M.mono h; rwa [rnd_zero] at this

theorem rnd_le_int {x : ℝ} {n : ℤ} (hn : |n| ≤ 2 ^ 53) (h : x ≤ n) : M.rnd x ≤ n := by
  have := M.mono h; rwa [M.int n hn] at this

theorem int_le_rnd {x : ℝ} {n : ℤ} (hn : |n| ≤ 2 ^ 53) (h : (n : ℝ) ≤ x) : n ≤ M.rnd x := by
  have := M.mono h; rwa [M.int n hn] at this

end Machine
end Ergodic
