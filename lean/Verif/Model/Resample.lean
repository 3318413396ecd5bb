import Verif.Model.Integrator

/-!
# Model of the last part of `RungeKutta45::solve` (integrator.hpp)

The accepted samples are fitted by one quartic per component, which is evaluated at equidistant
times.  The least-squares solver inside `arma::polyfit` is a parameter; everything around it is
modelled.
-/

namespace Ergodic
variable {F U : Type} [Flt F]

/-- `arma::linspace(a, b, n)`: `a + i (b - a)/(n - 1)`, the last one `b` itself, one element is `b`.
Simplification: no elements for `n = 0`, as in current versions of Armadillo. -/
def linspace (a b : F) : Nat → List F
  | 0 => []
  | 1 => [b]
  | n + 2 =>
    (List.range (n + 1)).map (fun i : Nat => a +. Flt.ofInt i *. ((b -. a) /. Flt.ofInt (n + 1))) ++ [b]

/-- `arma::polyval(p, x)`: Horner's rule, highest power first. -/
def polyval (p : List F) (x : F) : F :=
  match p with
  | [] => lit 0 0
  | c :: cs => cs.foldl (fun y c => y *. x +. c) c

/-- The solver inside `arma::polyfit`: from the samples and the order the coefficients, highest power
first, or `none` when it fails. -/
abbrev Solver (F : Type) := List (F × F) → Nat → Option (List F)

/-- `arma::polyfit(X, Y, N)`: no samples give no coefficients; the order has to be below the number of samples;
a failure of the solver is a `std::runtime_error`. -/
def polyfit (fit : Solver F) (samples : List (F × F)) (n : Nat) : Res (List F) :=
  if samples = [] then .ok []
  else if samples.length ≤ n then .throw .logicError
  else match fit samples n with
    | some p => .ok p
    | none => .throw .runtimeError

/-- The samples of one component, `tvec_max.rows(0, stored - 1)` and
`xt_max(span(i, i), span(0, stored - 1))`. -/
def component (f : V3 F → F) (samples : List (F × V3 F)) : List (F × F) :=
  samples.map fun s => (s.1, f s.2)

/-- The quartic fits (integrator.hpp:310-318 and 442-450), as columns. -/
def resample (fit : Solver F) (samples : List (F × V3 F)) (horizon : F) (steps : Nat) :
    Res (List (V3 F)) := do
  let tvec := linspace (lit 0 0) horizon steps
  let p0 ← polyfit fit (component V3.c0 samples) 4
  let p1 ← polyfit fit (component V3.c1 samples) 4
  let p2 ← polyfit fit (component V3.c2 samples) 4
  .ok (tvec.map fun t => ⟨polyval p0 t, polyval p1 t, polyval p2 t⟩)

namespace RungeKutta45

/-- `RungeKutta45::solve(xt, model, x0, ut, dt, horizon)` (integrator.hpp:227-321): `none` is
`return false`, which leaves `xt` alone. -/
def solveFull (fit : Solver F) (s : RungeKutta45 F) (f : V3 F → U → Res (V3 F)) (x0 : V3 F)
    (ut : List U) (dt horizon : F) : Res (Option (List (V3 F))) := do
  let out ← s.solve f x0 ut dt horizon
  match out with
  | none => .ok none
  | some samples =>
    let steps ← numSteps horizon dt
    let xt ← resample fit samples horizon steps.toNat
    .ok (some xt)

/-- The backward `RungeKutta45::solve(rhot, func, model, …)` (integrator.hpp:357-453). -/
def solveBackFull (fit : Solver F) (s : RungeKutta45 F) (func : CoStateFunc F) (fdx : V3 F → U → M3 F)
    (rhoT : V3 F) (xt : List (V3 F)) (ut : List U) (edx bdx : List (V3 F)) (dt horizon : F) :
    Res (Option (List (V3 F))) := do
  let out ← s.solveBack func fdx rhoT xt ut edx bdx dt horizon
  match out with
  | none => .ok none
  | some samples =>
    let steps ← numSteps horizon dt
    let rhot ← resample fit samples horizon steps.toNat
    .ok (some rhot)

end RungeKutta45
end Ergodic
