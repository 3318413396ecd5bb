import Verif.Spec.MapUpdate

/-!
# What a scan shows of a cell
-/

namespace Ergodic
variable {F : Type} [Flt F]

/-- The cells (row, column) in which the beams with the given ranges end, from beam `k` on and in order; beams with
an invalid range or an end outside the map are left out. -/
def beamCells (g : GridMap F) (Tms : M3 F) (scan : LaserScan F) : List F → Nat → List (UInt32 × UInt32)
  | [], _ => []
  | r :: rs, k => (beamHit g Tms scan k r).toList ++ beamCells g Tms scan rs (k + 1)

/-- A beam to the cell `h` ends in column `x`, row `y`. -/
def EndsIn (x y : Int) (h : UInt32 × UInt32) : Prop := x = h.2.toNat ∧ y = h.1.toNat

/-- A beam from `src` to the cell `h` crosses the cell in column `x`, row `y` before it ends. -/
def PassesBy (src : UInt32 × UInt32) (x y : Int) (h : UInt32 × UInt32) : Prop :=
  ¬ EndsIn x y h ∧ OnRay src.2.toNat src.1.toNat h.2.toNat h.1.toNat x y

instance (x y : Int) (h : UInt32 × UInt32) : Decidable (EndsIn x y h) := inferInstanceAs (Decidable (_ ∧ _))

instance (src : UInt32 × UInt32) (x y : Int) (h : UInt32 × UInt32) : Decidable (PassesBy src x y h) :=
  inferInstanceAs (Decidable (_ ∧ _))

/-- The scan, taken at `pose`, can be entered into the map and shows the cell in column `x`, row `y`: a beam ends in
it and at most one beam crosses it on its way to a cell farther away. -/
def Shows (Tbs : M3 F) (g : GridMap F) (scan : LaserScan F) (pose : V3 F) (x y : Int) : Prop :=
  ∃ src, g.world2Grid pose.c0 pose.c1 = .ok src ∧ IsCell g src.1 src.2 ∧
    EndsConvert g ((transform2d pose.c0 pose.c1 pose.c2).mul Tbs) scan ∧
    (∃ h ∈ beamCells g ((transform2d pose.c0 pose.c1 pose.c2).mul Tbs) scan scan.ranges 0, EndsIn x y h) ∧
    (beamCells g ((transform2d pose.c0 pose.c1 pose.c2).mul Tbs) scan scan.ranges 0).countP
      (fun h => decide (PassesBy src x y h)) ≤ 1

end Ergodic
