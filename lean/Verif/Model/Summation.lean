import Verif.Model.Target

/-!
# Sums in an unspecified order

`Verif.Model.Basis` adds left to right.  Armadillo does not promise an order: `sum` of a matrix
adds column by column, `sum` of a vector keeps two partial sums, and with OpenMP or BLAS the
terms may be divided in other ways.  Here a sum is any result of adding the terms two at a time,
in any order and with any brackets, with partial sums that may start from zero.
-/

namespace Ergodic
variable {F : Type} [Flt F]

/-- A way of adding numbers two at a time. -/
inductive SumTree (F : Type) where
  | zero
  | term (x : F)
  | add (a b : SumTree F)

namespace SumTree

/-- the numbers added -/
def terms {F : Type} : SumTree F → List F
  | zero => []
  | term x => [x]
  | add a b => a.terms ++ b.terms

/-- the result -/
def eval : SumTree F → F
  | zero => lit 0 0
  | term x => x
  | add a b => a.eval +. b.eval

end SumTree

/-- `s` is a sum of `l` in some order (`arma::sum`, target.cpp:87, basis.cpp:119 and 132). -/
def IsSum (l : List F) (s : F) : Prop := ∃ t : SumTree F, t.terms.Perm l ∧ t.eval = s

/-- `c` is the entry for frequency `k` of `Basis::trajCoeff` (basis.cpp:109-120), the row added in
some order. -/
def Basis.IsTrajCoeff (b : Basis F) (xt : List (V3 F)) (k : Int × Int) (c : F) : Prop :=
  ∃ s, IsSum (xt.map fun x => b.fk x.xy k) s ∧ c = (lit 1 0 /. Flt.ofInt xt.length) *. s

/-- `c` is the entry for frequency `k` of `Basis::spatialCoeff` (basis.cpp:122-133), the row added
in some order. -/
def Basis.IsSpatialCoeff (b : Basis F) (phi_vals : List F) (phi_grid : List (V2 F)) (k : Int × Int)
    (c : F) : Prop :=
  IsSum (List.zipWith (fun p v => b.fk p k *. v) phi_grid phi_vals) c

/-- `vals` is the result of `Target::fill` (target.cpp:78-89), the values added in some order. -/
def Target.IsFill (t : Target F) (trans : V2 F) (phi_grid : List (V2 F)) (vals : List F) : Prop :=
  ∃ s, IsSum (phi_grid.map fun p => t.evaluate p trans) s ∧
    vals = phi_grid.map fun p => t.evaluate p trans /. s

end Ergodic
