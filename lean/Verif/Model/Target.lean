import Verif.Model.Basis

/-!
# Model of `target.hpp` / `target.cpp`

Vectors are lists or `V2`; `visualization_msgs/Marker` keeps the fields that depend on the
inputs (the constant colour, type, action, lifetime fields are dropped).
-/

namespace Ergodic
variable {F : Type} [Flt F]

/-- `struct Gaussian` (target.hpp:104-106). -/
structure Gaussian (F : Type) where
  mu : V2 F
  cov : M2 F
  cov_inv : M2 F

namespace Gaussian

/-- `Gaussian::Gaussian(mu, sigmas)` (target.hpp:68-71).  External contract: Armadillo's
`inv` of the diagonal matrix `diag(a, b)` is `diag(1/a, 1/b)`, and it throws
`std::runtime_error` when the matrix is singular (here: a diagonal entry is not
positive; the entries are squares). -/
def new (mu sigmas : V2 F) : Res (Gaussian F) :=
  let a := sigmas.c0 *. sigmas.c0
  let b := sigmas.c1 *. sigmas.c1
  if ¬ Flt.lt (lit 0 0) a ∨ ¬ Flt.lt (lit 0 0) b then .throw .runtimeError
  else .ok
    { mu
      cov := ⟨⟨a, lit 0 0⟩, ⟨lit 0 0, b⟩⟩
      cov_inv := ⟨⟨lit 1 0 /. a, lit 0 0⟩, ⟨lit 0 0, lit 1 0 /. b⟩⟩ }

/-- `exp(-0.5 * dot(diff.t() * cov_inv, diff))` (target.hpp:81 and 101). -/
def expForm (g : Gaussian F) (diff : V2 F) : F :=
  let row : V2 F :=
    ⟨diff.c0 *. g.cov_inv.r0.c0 +. diff.c1 *. g.cov_inv.r1.c0,
     diff.c0 *. g.cov_inv.r0.c1 +. diff.c1 *. g.cov_inv.r1.c1⟩
  Flt.exp (lit (-5) 1 *. row.dot diff)

/-- `Gaussian::operator()(pt)` (target.hpp:78-82). -/
def eval (g : Gaussian F) (pt : V2 F) : F := g.expForm (pt.sub g.mu)

/-- `Gaussian::operator()(pt, trans)` (target.hpp:91-102). -/
def evalTrans (g : Gaussian F) (pt trans : V2 F) : F := g.expForm (pt.sub (g.mu.sub trans))

end Gaussian

/-- `class Target` (target.hpp:160). -/
structure Target (F : Type) where
  gaussians : List (Gaussian F) := []

/-- The fields of `visualization_msgs/Marker` that depend on the input. -/
structure Marker (F : Type) where
  frame_id : String
  id : Nat
  px : F
  py : F
  sx : F
  sy : F

namespace Target

/-- `Target::addGaussian` (target.cpp:58-61). -/
def addGaussian (t : Target F) (g : Gaussian F) : Target F :=
  { t with gaussians := t.gaussians ++ [g] }

/-- `Target::deleteGaussian` (target.cpp:63-66): `erase(begin() + idx)`; undefined when
`idx` is not the index of an element. -/
def deleteGaussian (t : Target F) (idx : Nat) : Res (Target F) :=
  if idx < t.gaussians.length then .ok { t with gaussians := t.gaussians.eraseIdx idx }
  else .ub

/-- `Target::evaluate` (target.cpp:68-76). -/
def evaluate (t : Target F) (pt trans : V2 F) : F :=
  t.gaussians.foldl (fun val g => val +. g.evalTrans pt trans) (lit 0 0)

/-- `Target::fill` (target.cpp:78-89). -/
def fill (t : Target F) (trans : V2 F) (phi_grid : List (V2 F)) : List F :=
  let phi_vals := phi_grid.map fun p => t.evaluate p trans
  let s := fsum phi_vals
  phi_vals.map fun v => v /. s

/-- External contract: `arma::eig_sym` of a diagonal 2×2 matrix is its diagonal in
ascending order. -/
def eigSym (cov : M2 F) : V2 F := ⟨fmin cov.r0.c0 cov.r1.c1, fmax cov.r0.c0 cov.r1.c1⟩

/-- `Target::markers` (target.cpp:91-119). -/
def markers (t : Target F) (frame : String) : List (Marker F) :=
  t.gaussians.mapIdx fun i g =>
    let eigval := eigSym g.cov
    { frame_id := frame, id := i, px := g.mu.c0, py := g.mu.c1,
      sx := lit 2 0 *. eigval.c0, sy := lit 2 0 *. eigval.c1 }

end Target
end Ergodic
