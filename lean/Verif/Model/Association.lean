import Verif.Model.Summation
import Verif.Model.ErgodicControl

/-!
# Products of three matrices in an unspecified association

`Verif.Model.ErgodicControl` reads `-Rinv_ * fdu.t() * rho` from left to right, as C++ does.
Armadillo delays the evaluation and multiplies the two factors first whose product is smaller, and
it moves the sign out of the product.  Here the result is that of any association, with the sign
inside or outside, and with every dot product added in any order.  Fused multiply-add is not
covered.
-/

namespace Ergodic
variable {F : Type} [Flt F]

/-- `d` is the dot product of `a` and `b`, added in some order. -/
def IsDot (a b : V3 F) (d : F) : Prop := IsSum [a.c0 *. b.c0, a.c1 *. b.c1, a.c2 *. b.c2] d

/-- `w` is the product `m v`. -/
def IsMulVec (m : M3 F) (v w : V3 F) : Prop :=
  IsDot m.r0 v w.c0 ∧ IsDot m.r1 v w.c1 ∧ IsDot m.r2 v w.c2

/-- `w` is the row `v b`; the columns of `b` are the rows of its transpose. -/
def IsRow (v : V3 F) (b : M3 F) (w : V3 F) : Prop :=
  IsDot v b.t.r0 w.c0 ∧ IsDot v b.t.r1 w.c1 ∧ IsDot v b.t.r2 w.c2

/-- `p` is the product `a b`. -/
def IsMul (a b p : M3 F) : Prop := IsRow a.r0 b p.r0 ∧ IsRow a.r1 b p.r1 ∧ IsRow a.r2 b p.r2

/-- `d` is a result of `-R * B.t() * rho` (ergodic_control.hpp:444). -/
inductive IsDirection (R B : M3 F) (rho d : V3 F) : Prop
  | left (p : M3 F) (h : IsMul R.neg B.t p) (hd : IsMulVec p rho d)
  | right (v : V3 F) (h : IsMulVec B.t rho v) (hd : IsMulVec R.neg v d)
  | leftNeg (p : M3 F) (w : V3 F) (h : IsMul R B.t p) (hw : IsMulVec p rho w) (hd : d = w.neg)
  | rightNeg (v w : V3 F) (h : IsMulVec B.t rho v) (hw : IsMulVec R v w) (hd : d = w.neg)

/-- `u` is a result of one iteration of `updateControl` (ergodic_control.hpp:444-449). -/
def ErgodicControl.IsNewControl (e : ErgodicControl F) (x rho u : V3 F) : Prop :=
  ∃ d, IsDirection e.Rinv (e.model.fdu x) rho d ∧
    clampR d.c0 e.umin.c0 e.umax.c0 = .ok u.c0 ∧
    clampR d.c1 e.umin.c1 e.umax.c1 = .ok u.c1 ∧
    clampR d.c2 e.umin.c2 e.umax.c2 = .ok u.c2

end Ergodic
