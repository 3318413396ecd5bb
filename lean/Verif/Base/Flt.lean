import Mathlib.Analysis.SpecialFunctions.Pow.Real
import Mathlib.Analysis.SpecialFunctions.Complex.Arg
import Mathlib.Analysis.SpecialFunctions.Trigonometric.Basic
import Verif.Base.Res

/-!
# Floating-point numbers as an interface

The repository computes with `double`.  The model is written once, over an arbitrary
number type `F` that offers the operations the code uses (`class Flt`).  No law is
assumed of them.  Therefore

* a theorem stated for every `[Flt F]` makes no assumption about arithmetic and holds in
  particular for IEEE-754 doubles with all their rounding, infinities and NaNs;
* a theorem stated at `ℝ` is about exact real arithmetic (no rounding);
* a theorem stated at `Dbl` is about exact arithmetic extended with `±∞` and `NaN`
  propagated by the IEEE-754 rules (no rounding, no overflow, no signed zero).
-/

namespace Ergodic

/-- The `double` operations used by the code. -/
class Flt (F : Type) where
  /-- C++ `a + b` on doubles -/
  add : F → F → F
  /-- C++ `a - b` on doubles -/
  sub : F → F → F
  /-- C++ `a * b` on doubles -/
  mul : F → F → F
  /-- C++ `a / b` on doubles -/
  div : F → F → F
  /-- C++ unary minus -/
  neg : F → F
  /-- C++ `<` (false when an operand is NaN); `a > b` is `lt b a`. -/
  lt : F → F → Bool
  /-- `std::floor` -/
  floor : F → F
  /-- `std::round` (half away from zero) -/
  round : F → F
  sqrt : F → F
  sin : F → F
  cos : F → F
  exp : F → F
  log : F → F
  /-- `std::atan2(y, x)` -/
  atan2 : F → F → F
  /-- `std::pow` -/
  pow : F → F → F
  /-- the decimal literal `m · 10^(-e)` -/
  lit : Int → Nat → F
  /-- implicit conversion of an integer to `double` -/
  ofInt : Int → F
  /-- `constexpr double PI` (numerics.hpp:58) -/
  pi : F
  /-- `std::numeric_limits<double>::max()` -/
  maxFin : F
  /-- truncation toward zero of a finite number; `none` for an infinity or NaN -/
  trunc? : F → Option Int

export Flt (lit)

@[inherit_doc] scoped infixl:65 " +. " => Flt.add
@[inherit_doc] scoped infixl:65 " -. " => Flt.sub
@[inherit_doc] scoped infixl:70 " *. " => Flt.mul
@[inherit_doc] scoped infixl:70 " /. " => Flt.div
@[inherit_doc] scoped prefix:max "~-." => Flt.neg

section ops
variable {F : Type} [Flt F]

/-- `std::abs` / `std::fabs` on doubles. -/
def fabs (x : F) : F := if Flt.lt x (lit 0 0) then ~-. x else x

/-- `std::max(a, b)`: `(a < b) ? b : a`. -/
def fmax (a b : F) : F := if Flt.lt a b then b else a

/-- `std::min(a, b)`: `(b < a) ? b : a`. -/
def fmin (a b : F) : F := if Flt.lt b a then b else a

/-- `std::clamp(v, lo, hi)`: `(v < lo) ? lo : (hi < v) ? hi : v`. -/
def fclamp (v lo hi : F) : F :=
  if Flt.lt v lo then lo else if Flt.lt hi v then hi else v

/-- `static_cast<unsigned int>(double)`: truncation; undefined when the truncated value
does not fit (in particular for negative values, infinities and NaN). -/
def castU32 (x : F) : Res UInt32 :=
  match Flt.trunc? x with
  | some n => if 0 ≤ n ∧ n < 4294967296 then .ok (UInt32.ofNat n.toNat) else .ub
  | none => .ub

/-- conversion `double → int`: truncation; undefined when the truncated value does not fit. -/
def castI32 (x : F) : Res Int :=
  match Flt.trunc? x with
  | some n => if -2147483648 ≤ n ∧ n < 2147483648 then .ok n else .ub
  | none => .ub

/-- `static_cast<int8_t>(double)`: truncation; undefined when the truncated value does
not fit. -/
def castI8 (x : F) : Res Int8 :=
  match Flt.trunc? x with
  | some n => if -128 ≤ n ∧ n < 128 then .ok (Int8.ofInt n) else .ub
  | none => .ub

/-- Conversion `unsigned int → int` (value modulo `2^32`, as every supported compiler does;
implementation-defined before C++20). -/
def u2i (u : UInt32) : Int :=
  if u.toNat < 2147483648 then (u.toNat : Int) else (u.toNat : Int) - 4294967296

/-- Conversion `int → unsigned int`: modulo `2^32` (defined by the standard). -/
def i2u (n : Int) : UInt32 := UInt32.ofNat (n % 4294967296).toNat

end ops

/-! ## Exact reals -/

/-- `std::round` over the reals: half away from zero. -/
noncomputable def realRound (x : ℝ) : ℝ :=
  if 0 ≤ x then (⌊x + 1 / 2⌋ : ℝ) else -(⌊-x + 1 / 2⌋ : ℝ)

/-- Truncation toward zero. -/
noncomputable def realTrunc (x : ℝ) : Int := if 0 ≤ x then ⌊x⌋ else ⌈x⌉

/-- `std::atan2(y, x)` over the reals (value in `(-π, π]`, `0` at the origin). -/
noncomputable def realAtan2 (y x : ℝ) : ℝ := Complex.arg ⟨x, y⟩

/-- Exact real arithmetic.  `numeric_limits<double>::max()` is `2^1024 - 2^971`. -/
noncomputable instance instFltReal : Flt ℝ where
  add a b := a + b
  sub a b := a - b
  mul a b := a * b
  div a b := a / b
  neg a := -a
  lt a b := open Classical in decide (a < b)
  floor a := (⌊a⌋ : ℝ)
  round := realRound
  sqrt := Real.sqrt
  sin := Real.sin
  cos := Real.cos
  exp := Real.exp
  log := Real.log
  atan2 := realAtan2
  pow a b := a ^ b
  lit m e := (m : ℝ) / 10 ^ e
  ofInt n := (n : ℝ)
  pi := Real.pi
  maxFin := 2 ^ 1024 - 2 ^ 971
  trunc? x := some (realTrunc x)

section real
@[simp] theorem real_add (a b : ℝ) : Flt.add a b = a + b := rfl
@[simp] theorem real_sub (a b : ℝ) : Flt.sub a b = a - b := rfl
@[simp] theorem real_mul (a b : ℝ) : Flt.mul a b = a * b := rfl
@[simp] theorem real_div (a b : ℝ) : Flt.div a b = a / b := rfl
@[simp] theorem real_neg (a : ℝ) : Flt.neg a = -a := rfl
@[simp] theorem real_lt (a b : ℝ) : (Flt.lt a b = true) ↔ a < b := by
  simp [Flt.lt]
@[simp] theorem real_lt_false (a b : ℝ) : (Flt.lt a b = false) ↔ b ≤ a := by
  simp [Flt.lt]
@[simp] theorem real_floor (a : ℝ) : Flt.floor a = (⌊a⌋ : ℝ) := rfl
@[simp] theorem real_round (a : ℝ) : Flt.round a = realRound a := rfl
@[simp] theorem real_sqrt (a : ℝ) : Flt.sqrt a = Real.sqrt a := rfl
@[simp] theorem real_sin (a : ℝ) : Flt.sin a = Real.sin a := rfl
@[simp] theorem real_cos (a : ℝ) : Flt.cos a = Real.cos a := rfl
@[simp] theorem real_exp (a : ℝ) : Flt.exp a = Real.exp a := rfl
@[simp] theorem real_log (a : ℝ) : Flt.log a = Real.log a := rfl
@[simp] theorem real_atan2 (a b : ℝ) : Flt.atan2 a b = realAtan2 a b := rfl
@[simp] theorem real_pow (a b : ℝ) : Flt.pow a b = a ^ b := rfl
@[simp] theorem real_lit (m : Int) (e : Nat) : (Flt.lit m e : ℝ) = (m : ℝ) / 10 ^ e := rfl
@[simp] theorem real_ofInt (n : Int) : (Flt.ofInt n : ℝ) = (n : ℝ) := rfl
@[simp] theorem real_pi : (Flt.pi : ℝ) = Real.pi := rfl
theorem real_maxFin : (Flt.maxFin : ℝ) = 2 ^ 1024 - 2 ^ 971 := rfl
@[simp] theorem real_trunc (x : ℝ) : Flt.trunc? x = some (realTrunc x) := rfl
end real

/-! ## Extended reals with NaN -/

/-- A `double` without rounding: NaN, `±∞`, or a finite real. -/
inductive Dbl where
  | nan
  | inf (negative : Bool)
  | fin (r : ℝ)

namespace Dbl

/-- IEEE-754 addition on special values, exact on finite ones. -/
noncomputable def add : Dbl → Dbl → Dbl
  | nan, _ => nan
  | _, nan => nan
  | inf a, inf b => if a = b then inf a else nan
  | inf a, fin _ => inf a
  | fin _, inf b => inf b
  | fin a, fin b => fin (a + b)

/-- Negation. -/
noncomputable def neg : Dbl → Dbl
  | nan => nan
  | inf a => inf (!a)
  | fin a => fin (-a)

/-- sign bit of a finite real (there is no negative zero in this model) -/
noncomputable def sgn (r : ℝ) : Bool := open Classical in decide (r < 0)

/-- IEEE-754 multiplication on special values, exact on finite ones. -/
noncomputable def mul : Dbl → Dbl → Dbl
  | nan, _ => nan
  | _, nan => nan
  | inf a, inf b => inf (a != b)
  | inf a, fin b => open Classical in if b = 0 then nan else inf (a != sgn b)
  | fin a, inf b => open Classical in if a = 0 then nan else inf (sgn a != b)
  | fin a, fin b => fin (a * b)

/-- IEEE-754 division on special values, exact on finite ones; the divisor zero is taken
to be `+0` (no signed zero in this model). -/
noncomputable def div : Dbl → Dbl → Dbl
  | nan, _ => nan
  | _, nan => nan
  | inf _, inf _ => nan
  | inf a, fin b => inf (a != sgn b)
  | fin _, inf _ => fin 0
  | fin a, fin b => open Classical in
      if b = 0 then (if a = 0 then nan else inf (sgn a)) else fin (a / b)

/-- IEEE-754 `<`: false when an operand is NaN. -/
noncomputable def lt : Dbl → Dbl → Bool
  | nan, _ => false
  | _, nan => false
  | inf a, inf b => a && !b
  | inf a, fin _ => a
  | fin _, inf b => !b
  | fin a, fin b => open Classical in decide (a < b)

/-- Apply a real function to finite values only; NaN on infinities. -/
noncomputable def lift (f : ℝ → ℝ) : Dbl → Dbl
  | fin a => fin (f a)
  | _ => nan

/-- `log`: `-∞` at zero, NaN below, `+∞` at `+∞`. -/
noncomputable def log : Dbl → Dbl
  | nan => nan
  | inf a => if a then nan else inf false
  | fin a => open Classical in
      if a < 0 then nan else if a = 0 then inf true else fin (Real.log a)

/-- `exp`: `0` at `-∞`, `+∞` at `+∞`. -/
noncomputable def exp : Dbl → Dbl
  | nan => nan
  | inf a => if a then fin 0 else inf false
  | fin a => fin (Real.exp a)

/-- `sqrt`: NaN on negative numbers. -/
noncomputable def sqrt : Dbl → Dbl
  | nan => nan
  | inf a => if a then nan else inf false
  | fin a => open Classical in if a < 0 then nan else fin (Real.sqrt a)

/-- direction of a number as seen by `atan2` when an operand is infinite -/
def dir : Dbl → ℝ
  | inf a => if a then -1 else 1
  | _ => 0

/-- `atan2`, with the IEEE-754 limits at infinities. -/
noncomputable def atan2 : Dbl → Dbl → Dbl
  | nan, _ => nan
  | _, nan => nan
  | fin y, fin x => fin (realAtan2 y x)
  | y, x => fin (realAtan2 (dir y) (dir x))

/-- `pow` for a non-negative base and a positive exponent (the only uses in the code). -/
noncomputable def pow : Dbl → Dbl → Dbl
  | nan, _ => nan
  | _, nan => nan
  | inf a, fin b => open Classical in if a = false ∧ 0 < b then inf false else nan
  | fin a, fin b => open Classical in if a < 0 then nan else fin (a ^ b)
  | _, inf _ => nan

end Dbl

/-- Exact arithmetic with IEEE-754 special values. -/
noncomputable instance instFltDbl : Flt Dbl where
  add := Dbl.add
  sub a b := Dbl.add a (Dbl.neg b)
  mul := Dbl.mul
  div := Dbl.div
  neg := Dbl.neg
  lt := Dbl.lt
  floor a := match a with
    | .fin r => .fin (⌊r⌋ : ℝ)
    | x => x
  round a := match a with
    | .fin r => .fin (realRound r)
    | x => x
  sqrt := Dbl.sqrt
  sin := Dbl.lift Real.sin
  cos := Dbl.lift Real.cos
  exp := Dbl.exp
  log := Dbl.log
  atan2 := Dbl.atan2
  pow := Dbl.pow
  lit m e := .fin ((m : ℝ) / 10 ^ e)
  ofInt n := .fin (n : ℝ)
  pi := .fin Real.pi
  maxFin := .fin (2 ^ 1024 - 2 ^ 971)
  trunc? a := match a with
    | .fin r => some (realTrunc r)
    | _ => none

end Ergodic
