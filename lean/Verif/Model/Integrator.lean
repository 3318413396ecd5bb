import Verif.Model.Models

/-!
# Model of `integrator.hpp`

The dynamics `model(x, u)` is a function `f : V3 F → U → Res (V3 F)` (it may throw) and
`model.fdx` a function `fdx : V3 F → U → M3 F`, for any control type `U`.  Matrices whose
columns are states or controls are lists of columns; `ut.col(i)` past the end throws
(Armadillo's bounds check).
-/

namespace Ergodic
variable {F : Type} [Flt F] {U : Type}

/-- `CoStateFunc` (integrator.hpp:60): co-state, gradient, barrier gradient, Jacobian. -/
abbrev CoStateFunc (F : Type) := V3 F → V3 F → V3 F → M3 F → V3 F

/-- `m.col(i)` with Armadillo's bounds check. -/
def col {α : Type} (m : List α) (i : Nat) : Res α :=
  match m[i]? with
  | some v => .ok v
  | none => .throw .logicError

namespace RungeKutta

/-- `RungeKutta::step(model, x, u)` (integrator.hpp:176-184). -/
def step (dt : F) (f : V3 F → U → Res (V3 F)) (x : V3 F) (u : U) : Res (V3 F) := do
  let k1 ← f x u
  let k2 ← f (x.add (V3.smul dt (V3.smul (lit 5 1) k1))) u
  let k3 ← f (x.add (V3.smul dt (V3.smul (lit 5 1) k2))) u
  let k4 ← f (x.add (V3.smul dt k3)) u
  .ok (x.add (V3.smul (dt /. lit 6 0)
    (((k1.add (V3.smul (lit 2 0) k2)).add (V3.smul (lit 2 0) k3)).add k4)))

/-- `RungeKutta::step(func, rho, gdx, dbar, fdx)` (integrator.hpp:186-194). -/
def stepBack (dt : F) (func : CoStateFunc F) (rho gdx dbar : V3 F) (fdx : M3 F) : V3 F :=
  let k1 := func rho gdx dbar fdx
  let k2 := func (rho.sub (V3.smul dt (V3.smul (lit 5 1) k1))) gdx dbar fdx
  let k3 := func (rho.sub (V3.smul dt (V3.smul (lit 5 1) k2))) gdx dbar fdx
  let k4 := func (rho.sub (V3.smul dt k3)) gdx dbar fdx
  rho.sub (V3.smul (dt /. lit 6 0)
    (((k1.add (V3.smul (lit 2 0) k2)).add (V3.smul (lit 2 0) k3)).add k4))

/-- The loop of `RungeKutta::solve(model, …)` (integrator.hpp:144-149): `n` iterations
left, loop index `i`, current state `x`. -/
def solveLoop (dt : F) (f : V3 F → U → Res (V3 F)) (ut : List U) :
    Nat → Nat → V3 F → Res (List (V3 F))
  | 0, _, _ => .ok []
  | n + 1, i, x => do
    let u ← col ut i
    let x1 ← step dt f x u
    let x2 : V3 F := { x1 with c2 := normalizeAnglePI x1.c2 }
    let rest ← solveLoop dt f ut n (i + 1) x2
    .ok (x2 :: rest)

/-- `RungeKutta::solve(model, x0, ut, horizon)` (integrator.hpp:135-152). -/
def solve (dt : F) (f : V3 F → U → Res (V3 F)) (x0 : V3 F) (ut : List U) (horizon : F) :
    Res (List (V3 F)) := do
  let steps ← numSteps horizon dt
  solveLoop dt f ut steps.toNat 0 x0

/-- The loop of `RungeKutta::solve(func, …)` (integrator.hpp:166-171): `i` runs down from
`n - 1` to `0`; `acc` holds the columns `n, …, steps - 1` already written. -/
def solveBackLoop (dt : F) (func : CoStateFunc F) (fdx : V3 F → U → M3 F)
    (xt : List (V3 F)) (ut : List U) (edx bdx : List (V3 F)) :
    Nat → V3 F → List (V3 F) → Res (List (V3 F))
  | 0, _, acc => .ok acc
  | i + 1, rho, acc => do
    let e ← col edx i
    let b ← col bdx i
    let x ← col xt i
    let u ← col ut i
    let rho' := stepBack dt func rho e b (fdx x u)
    solveBackLoop dt func fdx xt ut edx bdx i rho' (rho' :: acc)

/-- `RungeKutta::solve(func, model, rhoT, xt, ut, edx, bdx, horizon)`
(integrator.hpp:154-174). -/
def solveBack (dt : F) (func : CoStateFunc F) (fdx : V3 F → U → M3 F) (rhoT : V3 F)
    (xt : List (V3 F)) (ut : List U) (edx bdx : List (V3 F)) (horizon : F) :
    Res (List (V3 F)) := do
  let steps ← numSteps horizon dt
  solveBackLoop dt func fdx xt ut edx bdx steps.toNat rhoT []

end RungeKutta

/-- `class RungeKutta45` data members (integrator.hpp:217-219). -/
structure RungeKutta45 (F : Type) where
  hmin : F
  hmax : F
  epsilon : F
  max_iter : Nat

namespace RungeKutta45

/-- `RungeKutta45::RungeKutta45(hmin, hmax, epsilon, max_iter)` (integrator.hpp:222-225).
The declaration at integrator.hpp:199 names the first two parameters in the opposite
order; positions are what matters. -/
def new (hmin hmax epsilon : F) (max_iter : Nat) : RungeKutta45 F :=
  { hmin, hmax, epsilon, max_iter }

/-- the quotient `a / b` of two integer-valued literals -/
def q (a b : Int) : F := lit a 0 /. lit b 0

/-- `max(abs(v))` of a 3-vector (Armadillo).  Simplification: for finite entries; Armadillo
skips NaN entries, this definition does not. -/
def maxAbs (v : V3 F) : F := fmax (fmax (fabs v.c0) (fabs v.c1)) (fabs v.c2)

/-- Butcher tableau of both `step` functions (integrator.hpp:323-355 and 455-488), with
`g` the already scaled derivative `h * model(·, u)` resp. `-h * func(·)`.
The weight `2197/4101` is the code's. -/
def fehlberg (g : V3 F → Res (V3 F)) (x : V3 F) (h : F) : Res (V3 F × F) := do
  let k1 ← g x
  let k2 ← g (x.add (V3.smul (q 1 4) k1))
  let k3 ← g ((x.add (V3.smul (q 3 32) k1)).add (V3.smul (q 9 32) k2))
  let k4 ← g (((x.add (V3.smul (q 1932 2197) k1)).sub (V3.smul (q 7200 2197) k2)).add
    (V3.smul (q 7296 2197) k3))
  let k5 ← g ((((x.add (V3.smul (q 439 216) k1)).sub (V3.smul (lit 8 0) k2)).add
    (V3.smul (q 3680 513) k3)).sub (V3.smul (q 845 4104) k4))
  let k6 ← g (((((x.sub (V3.smul (q 8 27) k1)).add (V3.smul (lit 2 0) k2)).sub
    (V3.smul (q 3544 2565) k3)).add (V3.smul (q 1859 4104) k4)).sub (V3.smul (q 11 40) k5))
  let x_new := (((x.add (V3.smul (q 25 216) k1)).add (V3.smul (q 1408 2565) k3)).add
    (V3.smul (q 2197 4101) k4)).sub (V3.smul (q 1 5) k5)
  let z := ((((x.add (V3.smul (q 16 135) k1)).add (V3.smul (q 6656 12825) k3)).add
    (V3.smul (q 28561 56430) k4)).sub (V3.smul (q 9 50) k5)).add (V3.smul (q 2 55) k6)
  .ok (x_new, maxAbs (z.sub x_new) /. h)

/-- `RungeKutta45::step(x_new, model, x, u, h)` (integrator.hpp:323-355): returns the new
state and the error estimate. -/
def step (f : V3 F → U → Res (V3 F)) (x : V3 F) (u : U) (h : F) : Res (V3 F × F) :=
  fehlberg (fun y => do let d ← f y u; .ok (V3.smul h d)) x h

/-- `RungeKutta45::step(rho_new, func, rho, gdx, dbar, fdx, h)` (integrator.hpp:455-488). -/
def stepBack (func : CoStateFunc F) (rho gdx dbar : V3 F) (fdx : M3 F) (h : F) :
    Res (V3 F × F) :=
  fehlberg (fun y => .ok (V3.smul (~-. h) (func y gdx dbar fdx))) rho h

/-- `static_cast<unsigned int>(std::floor(std::round(static_cast<double>(steps - 1) *
std::abs(t / horizon))))` (integrator.hpp:256-257, 387-388); `steps - 1` is unsigned. -/
def timeIndex (steps : UInt32) (t horizon : F) : Res UInt32 :=
  castU32 (Flt.floor (Flt.round (Flt.ofInt (steps - 1).toNat *. fabs (t /. horizon))))

/-- Step size update and clamp (integrator.hpp:274-275, 406-407); `std::clamp` with
`hi < lo` is undefined. -/
def nextH (s : RungeKutta45 F) (h r : F) : Res F :=
  let h := h *. (lit 84 2 *. Flt.pow (s.epsilon /. r) (lit 25 2))
  if Flt.lt s.hmax s.hmin then .ub else .ok (fclamp h s.hmin s.hmax)

/-- Outcome of `RungeKutta45::solve` before the polynomial fit: `none` is `return false`,
`some l` the accepted `(time, state)` pairs handed to `polyfit`. -/
abbrev Outcome (F : Type) := Option (List (F × V3 F))

/-- The loop of `RungeKutta45::solve(xt, model, …)` (integrator.hpp:254-298).
`stored` is the length of `acc`; `acc` lists the stored columns, oldest first.  Writing
column `stored` of a matrix with `max_steps` columns throws when `stored ≥ max_steps`. -/
def solveLoop (s : RungeKutta45 F) (f : V3 F → U → Res (V3 F)) (ut : List U)
    (steps : UInt32) (max_steps : Nat) (horizon : F) :
    Nat → Nat → F → F → V3 F → List (F × V3 F) → Res (Outcome F)
  | 0, _, _, _, _, _ => .timeout
  | fuel + 1, iter, t, h, x, acc => do
    let i ← timeIndex steps t horizon
    let u ← col ut i.toNat
    let (x_new, r) ← step f x u h
    let accept := Flt.lt r s.epsilon || almostEqual r s.epsilon
    if accept ∧ max_steps ≤ acc.length then .throw .logicError
    else do
      let x' := if accept then x_new else x
      let t' := if accept then t +. h else t
      let acc' := if accept then acc ++ [(t', x_new)] else acc
      let h' ← nextH s h r
      let flag := Flt.lt horizon t' || almostEqual t' horizon
      let h'' := if ¬ flag ∧ Flt.lt horizon (t' +. h') then horizon -. t' else h'
      if iter = s.max_iter then .ok none
      else if flag then .ok (some acc')
      else solveLoop s f ut steps max_steps horizon fuel (iter + 1) t' h'' x' acc'

/-- `RungeKutta45::solve(xt, model, x0, ut, dt, horizon)` (integrator.hpp:227-321) up to
the polynomial fit.  `max_steps` is `static_cast<unsigned>(horizon / hmin_) + 1`. -/
def solve (s : RungeKutta45 F) (f : V3 F → U → Res (V3 F)) (x0 : V3 F) (ut : List U)
    (dt horizon : F) : Res (Outcome F) := do
  let steps ← numSteps horizon dt
  let ms ← castU32 (horizon /. s.hmin)
  let max_steps := (ms + 1).toNat
  if max_steps = 0 then .throw .logicError
  else
    solveLoop s f ut steps max_steps horizon (s.max_iter + 1) 0 (lit 0 0)
      ((s.hmax +. s.hmin) /. lit 2 0) x0 [(lit 0 0, x0)]

/-- The loop of the backward `RungeKutta45::solve(rhot, func, …)`
(integrator.hpp:385-430). -/
def solveBackLoop (s : RungeKutta45 F) (func : CoStateFunc F) (fdx : V3 F → U → M3 F)
    (xt : List (V3 F)) (ut : List U) (edx bdx : List (V3 F))
    (steps : UInt32) (max_steps : Nat) (horizon : F) :
    Nat → Nat → F → F → V3 F → List (F × V3 F) → Res (Outcome F)
  | 0, _, _, _, _, _ => .timeout
  | fuel + 1, iter, t, h, rho, acc => do
    let i ← timeIndex steps t horizon
    let e ← col edx i.toNat
    let b ← col bdx i.toNat
    let x ← col xt i.toNat
    let u ← col ut i.toNat
    let (rho_new, r) ← stepBack func rho e b (fdx x u) h
    let accept := Flt.lt r s.epsilon || almostEqual r s.epsilon
    if accept ∧ max_steps ≤ acc.length then .throw .logicError
    else do
      let rho' := if accept then rho_new else rho
      let t' := if accept then t -. h else t
      let acc' := if accept then acc ++ [(t', rho_new)] else acc
      let h' ← nextH s h r
      let flag := Flt.lt t' (lit 0 0) || almostEqual t' (lit 0 0)
      let h'' := if ¬ flag ∧ Flt.lt (t' -. h') (lit 0 0) then t' else h'
      if iter = s.max_iter then .ok none
      else if flag then .ok (some acc')
      else
        solveBackLoop s func fdx xt ut edx bdx steps max_steps horizon fuel (iter + 1)
          t' h'' rho' acc'

/-- The backward `RungeKutta45::solve(rhot, func, model, …)` (integrator.hpp:357-453) up to
the polynomial fit. -/
def solveBack (s : RungeKutta45 F) (func : CoStateFunc F) (fdx : V3 F → U → M3 F)
    (rhoT : V3 F) (xt : List (V3 F)) (ut : List U) (edx bdx : List (V3 F))
    (dt horizon : F) : Res (Outcome F) := do
  let steps ← numSteps horizon dt
  let ms ← castU32 (horizon /. s.hmin)
  let max_steps := (ms + 1).toNat
  if max_steps = 0 then .throw .logicError
  else
    solveBackLoop s func fdx xt ut edx bdx steps max_steps horizon (s.max_iter + 1) 0
      horizon s.hmin rhoT [(horizon, rhoT)]

end RungeKutta45
end Ergodic
