import Verif.Model.Numerics

/-!
# Model of `basis.hpp` / `basis.cpp`

Vectors of length `num_basis²` are lists.  Simplification: `num_basis * num_basis` is
computed in natural numbers (the code's counters fail above 46340, see
`Verif.Model.Launch`).  Sums add left
to right from zero; Armadillo's accumulation order may differ.
-/

namespace Ergodic
variable {F : Type} [Flt F]

/-- Sum of a list of numbers, left to right, starting from zero. -/
def fsum (l : List F) : F := l.foldl (fun s x => s +. x) (lit 0 0)

/-- `class Basis` data members (basis.hpp:102-105); `k` lists the columns of `k_`. -/
structure Basis (F : Type) where
  lx : F
  ly : F
  lamdak : List F
  k : List (Int × Int)

namespace Basis

/-- The basis-number loops (basis.cpp:58-67): `k_(0, col) = j`, `k_(1, col) = i`. -/
def numbers (num_basis : Nat) : List (Int × Int) :=
  (List.range num_basis).flatMap fun i : Nat =>
    (List.range num_basis).map fun j : Nat => ((j : Int), (i : Int))

/-- The frequency weight of one column (basis.cpp:74). -/
def weight (k : Int × Int) : F :=
  lit 1 0 /. Flt.pow (lit 1 0 +. Flt.sqrt (Flt.ofInt (k.1 * k.1 + k.2 * k.2))) (lit 15 1)

/-- `Basis::Basis` (basis.cpp:48-77). -/
def new (lx ly : F) (num_basis : Nat) : Basis F :=
  { lx, ly, lamdak := (numbers num_basis).map weight, k := numbers num_basis }

/-- one entry of `fourierBasis` (basis.cpp:84-85) -/
def fk (b : Basis F) (x : V2 F) (k : Int × Int) : F :=
  Flt.cos (Flt.ofInt k.1 *. (Flt.pi /. b.lx) *. x.c0)
    *. Flt.cos (Flt.ofInt k.2 *. (Flt.pi /. b.ly) *. x.c1)

/-- `Basis::fourierBasis` (basis.cpp:79-89). -/
def fourierBasis (b : Basis F) (x : V2 F) : List F := b.k.map (b.fk x)

/-- one column of `gradFourierBasis` (basis.cpp:99-103) -/
def dfk (b : Basis F) (x : V2 F) (k : Int × Int) : V2 F :=
  let k1 := Flt.ofInt k.1 *. (Flt.pi /. b.lx)
  let k2 := Flt.ofInt k.2 *. (Flt.pi /. b.ly)
  ⟨~-. k1 *. Flt.sin (k1 *. x.c0) *. Flt.cos (k2 *. x.c1),
   ~-. k2 *. Flt.cos (k1 *. x.c0) *. Flt.sin (k2 *. x.c1)⟩

/-- `Basis::gradFourierBasis` (basis.cpp:91-107): the list of columns. -/
def gradFourierBasis (b : Basis F) (x : V2 F) : List (V2 F) := b.k.map (b.dfk x)

/-- `Basis::trajCoeff` (basis.cpp:109-120); only rows 0 and 1 of `xt` are read. -/
def trajCoeff (b : Basis F) (xt : List (V3 F)) : List F :=
  b.k.map fun k =>
    (lit 1 0 /. Flt.ofInt xt.length) *. fsum (xt.map fun x => b.fk x.xy k)

/-- `Basis::spatialCoeff` (basis.cpp:122-133).  Reading `phi_vals(i)` past its end throws;
entries beyond the grid are ignored. -/
def spatialCoeff (b : Basis F) (phi_vals : List F) (phi_grid : List (V2 F)) :
    Res (List F) :=
  if phi_vals.length < phi_grid.length then .throw .logicError
  else .ok (b.k.map fun k =>
    fsum (List.zipWith (fun p v => b.fk p k *. v) phi_grid phi_vals))

end Basis
end Ergodic
