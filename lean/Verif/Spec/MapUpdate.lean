import Verif.Spec.Mapping

/-!
# Which scans a map can take in
-/

namespace Ergodic
variable {F : Type} [Flt F]

/-- A beam of the scan that ends in the map ends in, or passes through, the cell in column `x`, row `y`. -/
def Touched (g : GridMap F) (Tms : M3 F) (scan : LaserScan F) (src : UInt32 × UInt32) (x y : Int) : Prop :=
  ∃ (k : Nat) (r : F) (hit : UInt32 × UInt32), scan.ranges[k]? = some r ∧ beamHit g Tms scan k r = some hit ∧
    ((x = hit.2.toNat ∧ y = hit.1.toNat) ∨ OnRay src.2.toNat src.1.toNat hit.2.toNat hit.1.toNat x y)

/-- The stored value in column `x`, row `y` is a percentage. -/
def PctAt (g : GridMap F) (x y : Int) : Prop :=
  ∀ v, cellAt g y.toNat x.toNat = some v → 0 ≤ v.toInt ∧ v.toInt ≤ 100

/-- The end points of all valid beams have cell indices. -/
def EndsConvert (g : GridMap F) (Tms : M3 F) (scan : LaserScan F) : Prop :=
  ∀ (k : Nat) (r : F), scan.ranges[k]? = some r → RangeValid scan r →
    ∃ p, g.world2Grid (beamEnd Tms scan k r).c0 (beamEnd Tms scan k r).c1 = .ok p

end Ergodic
