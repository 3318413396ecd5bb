import Verif.Spec.Grid
import Verif.Model.Mapping

/-!
# Specification vocabulary for occupancy mapping
-/

namespace Ergodic

/-- Cell `(x, y)` on the digital segment that is walked along `x` from its left end
`(xa, ya)` to its right end `(xb, yb)`: twice its vertical deviation from the straight line
(times `xb - xa`) is at most the width; a tie goes to the cell nearer to `ya`. -/
def SegmentCell (xa ya xb yb x y : Int) : Prop :=
  xa ≤ x ∧ x ≤ xb ∧
  -(xb - xa) < 2 * ((if yb < ya then -1 else 1) * ((x - xa) * (yb - ya) - (y - ya) * (xb - xa))) ∧
  2 * ((if yb < ya then -1 else 1) * ((x - xa) * (yb - ya) - (y - ya) * (xb - xa))) ≤ xb - xa

/-- Cell `(x, y)` on the digital segment between two distinct cells, ends included.  The
segment is walked along its longer axis, from the end with the smaller coordinate. -/
def OnRay (x0 y0 x1 y1 x y : Int) : Prop :=
  if |y1 - y0| ≤ |x1 - x0| then
    if x0 ≤ x1 then SegmentCell x0 y0 x1 y1 x y else SegmentCell x1 y1 x0 y0 x y
  else
    if y0 ≤ y1 then SegmentCell y0 x0 y1 x1 y x else SegmentCell y1 x1 y0 x0 y x

instance (xa ya xb yb x y : Int) : Decidable (SegmentCell xa ya xb yb x y) :=
  inferInstanceAs (Decidable (_ ∧ _ ∧ _ ∧ _))

instance (x0 y0 x1 y1 x y : Int) : Decidable (OnRay x0 y0 x1 y1 x y) :=
  inferInstanceAs (Decidable (ite _ _ _))

/-- `(x, y)` is a cell of the map (column `x`, row `y`). -/
def InGrid {F : Type} (g : GridMap F) (x y : Int) : Prop :=
  0 ≤ x ∧ x < g.xsize.toNat ∧ 0 ≤ y ∧ y < g.ysize.toNat

instance {F : Type} (g : GridMap F) (x y : Int) : Decidable (InGrid g x y) :=
  inferInstanceAs (Decidable (_ ∧ _ ∧ _ ∧ _))

/-- Row and column indices are `int` values. -/
def SmallGrid {F : Type} (g : GridMap F) : Prop :=
  g.xsize.toNat < 2147483648 ∧ g.ysize.toNat < 2147483648

/-- Same geometry: everything but the data. -/
def SameGeometry {F : Type} (g g' : GridMap F) : Prop := g' = { g with data := g'.data }

/-- Bayes' rule for a binary state: prior probability `p` of "occupied", and an observation
that is `s : 1 - s` evidence for it. -/
noncomputable def posterior (p s : ℝ) : ℝ := p * s / (p * s + (1 - p) * (1 - s))


/-- A percentage after one "occupied" observation (`s = 0.90`), rounded down. -/
def occStep (c : Int) : Int := 900 * c / (100 + 8 * c)

/-- A percentage after one "free" observation (`s = 0.35`), rounded down. -/
def freeStep (c : Int) : Int := 700 * c / (1300 - 6 * c)

/-- All cells of the map are percentages. -/
def Percentages {F : Type} (g : GridMap F) : Prop :=
  ∀ v ∈ g.data, 0 ≤ v.toInt ∧ v.toInt ≤ 100

/-- Angle of beam `k`. -/
def beamAngle {F : Type} [Flt F] (scan : LaserScan F) (k : Nat) : F :=
  (fun a => a +. scan.angle_increment)^[k] scan.angle_min

/-- The range is one the sensor can measure. -/
def RangeValid {F : Type} [Flt F] (scan : LaserScan F) (r : F) : Prop :=
  Flt.lt scan.range_max r = false ∧ Flt.lt r scan.range_min = false

instance {F : Type} [Flt F] (scan : LaserScan F) (r : F) : Decidable (RangeValid scan r) :=
  inferInstanceAs (Decidable (_ ∧ _))

/-- End point of beam `k` with range `r`, in the map frame; `Tms` is the sensor pose. -/
def beamEnd {F : Type} [Flt F] (Tms : M3 F) (scan : LaserScan F) (k : Nat) (r : F) : V3 F :=
  Tms.mulVec (polar2CartesianHomo (beamAngle scan k) r)

/-- The cell beam `k` ends in, if the range is valid and the end point is in the map. -/
def beamHit {F : Type} [Flt F] (g : GridMap F) (Tms : M3 F) (scan : LaserScan F) (k : Nat)
    (r : F) : Option (UInt32 × UInt32) :=
  if RangeValid scan r then
    match g.world2Grid (beamEnd Tms scan k r).c0 (beamEnd Tms scan k r).c1 with
    | .ok ptg => if IsCell g ptg.1 ptg.2 then some ptg else none
    | _ => none
  else none

/-- What one beam from cell `src` to cell `hit` says about the cell in column `x`, row `y`:
occupied at the end, free before it, nothing elsewhere. -/
def beamEvidence (src : UInt32 × UInt32) (hit : Option (UInt32 × UInt32)) (x y : Int) (c : Int) :
    Int :=
  match hit with
  | none => c
  | some h =>
    if x = h.2.toNat ∧ y = h.1.toNat then occStep c
    else if OnRay src.2.toNat src.1.toNat h.2.toNat h.1.toNat x y then freeStep c
    else c

/-- The value of a cell after all beams of a scan, in order (`k` is the index of the first). -/
def scanEvidence {F : Type} [Flt F] (g : GridMap F) (Tms : M3 F) (scan : LaserScan F)
    (src : UInt32 × UInt32) (x y : Int) : List F → Nat → Int → Int
  | [], _, c => c
  | r :: rs, k, c =>
    scanEvidence g Tms scan src x y rs (k + 1) (beamEvidence src (beamHit g Tms scan k r) x y c)

end Ergodic
