import Verif.Spec.ErgodicControl
import Verif.Base.Rounded

/-!
# Finite inputs of the ergodic controller in rounded arithmetic
-/

namespace Ergodic
variable {M : Machine}

/-- `x` is a finite number, neither NaN nor infinite -/
def Num (x : RDbl M) : Prop := ∃ r : ℝ, x = .fin r

/-- both entries are finite numbers -/
def V2Num (v : V2 (RDbl M)) : Prop := Num v.c0 ∧ Num v.c1

/-- all entries are finite numbers -/
def V3Num (v : V3 (RDbl M)) : Prop := Num v.c0 ∧ Num v.c1 ∧ Num v.c2

/-- all entries are finite numbers -/
def M3Num (m : M3 (RDbl M)) : Prop := V3Num m.r0 ∧ V3Num m.r1 ∧ V3Num m.r2

/-- all numbers of a Gaussian are finite -/
def GaussNum (G : Gaussian (RDbl M)) : Prop :=
  V2Num G.mu ∧ V2Num G.cov_inv.r0 ∧ V2Num G.cov_inv.r1

/-- the motion model turns finite numbers into finite numbers -/
def ModelNum (m : TwistModel (RDbl M)) : Prop :=
  (∀ x u d, V3Num x → V3Num u → m.f x u = .ok d → V3Num d) ∧
  (∀ x u, V3Num x → V3Num u → M3Num (m.fdx x u)) ∧ ∀ x, V3Num x → M3Num (m.fdu x)

/-- the library's `pow` of a base that is at least one to a nonnegative power is positive -/
def PowPositive (M : Machine) : Prop := ∀ x y, 1 ≤ x → 0 ≤ y → 0 < M.pow x y

/-- a map with a finite lower corner and sides of at least a millimetre -/
def MapNum (g : GridMap (RDbl M)) : Prop :=
  Num g.xmin ∧ Num g.ymin ∧ (∃ a : ℝ, g.xmax -. g.xmin = .fin a ∧ 1 / 1000 ≤ a) ∧
    ∃ b : ℝ, g.ymax -. g.ymin = .fin b ∧ 1 / 1000 ≤ b

/-- on the target grid of the map some Gaussian of the target has, at some point, a value that does
not underflow -/
def TargetSeen (t : Target (RDbl M)) (resolution : RDbl M) (g : GridMap (RDbl M)) : Prop :=
  ∀ pts, ErgodicControl.phiGrid (g.xmax -. g.xmin) (g.ymax -. g.ymin) resolution = .ok pts →
    ∃ p ∈ pts, ∃ G ∈ t.gaussians, ∃ v : ℝ,
      G.evalTrans p ⟨g.xmin, g.ymin⟩ = .fin v ∧ 1 / 2 ^ 1000 ≤ v

/-- A history of calls on the object `e0` with finite inputs: every map as in `MapNum` with the
target in sight, every pose and every target finite. -/
inductive FiniteHistory (e0 : ErgodicControl (RDbl M)) : ErgodicControl (RDbl M) → Prop
  | start : FiniteHistory e0 e0
  | control {e e' : ErgodicControl (RDbl M)} {u : V3 (RDbl M)} (g : GridMap (RDbl M))
      (x : V3 (RDbl M)) (draws : List Nat) :
      FiniteHistory e0 e → MapNum g → TargetSeen e.target e.resolution g → V3Num x →
      e.control g x draws = .ok (e', u) → FiniteHistory e0 e'
  | addStateMemory {e : ErgodicControl (RDbl M)} (x : V3 (RDbl M)) :
      FiniteHistory e0 e → V3Num x → FiniteHistory e0 (e.addStateMemory x)
  | setTarget {e : ErgodicControl (RDbl M)} (t : Target (RDbl M)) :
      FiniteHistory e0 e → (∀ G ∈ t.gaussians, GaussNum G) → FiniteHistory e0 (e.setTarget t)

/-- all parameters of the constructor are finite numbers -/
structure ParamsNum (model : TwistModel (RDbl M)) (dt horizon resolution weight : RDbl M)
    (Rinv : M3 (RDbl M)) (umin umax : V3 (RDbl M)) : Prop where
  model : ModelNum model
  dt : Num dt
  horizon : Num horizon
  resolution : Num resolution
  weight : Num weight
  Rinv : M3Num Rinv
  umin : V3Num umin
  umax : V3Num umax

end Ergodic
