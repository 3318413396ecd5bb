import Verif.Spec.MapUpdate
import Verif.Spec.Failure

/-!
# Specification vocabulary: the conversions a map update relies on
-/

namespace Ergodic
variable {F : Type} [Flt F]

/-- The percentage, as a floating-point number, that the evidence `log` makes of the stored value `v`. -/
def revised (m : OccupancyMapper F) (log : F) (v : Int8) : F :=
  let p := Flt.ofInt v.toInt /. lit 100 0
  let l := Flt.log (p /. (lit 1 0 -. p)) +. log -. m.log_odds_prior
  (lit 1 0 -. lit 1 0 /. (lit 1 0 +. Flt.exp l)) *. lit 100 0

/-- The two kinds of evidence. -/
def IsEvidence (m : OccupancyMapper F) (log : F) : Prop := log = m.log_odds_free ∨ log = m.log_odds_occ

/-- The values a cell can come to have: those in the map, and what evidence makes of them as long as the result fits an
`int8_t`. -/
inductive Arises (m : OccupancyMapper F) (g : GridMap F) : Int8 → Prop
  | stored {v : Int8} : v ∈ g.data → Arises m g v
  | revised {v : Int8} {log : F} {n : Int} : Arises m g v → IsEvidence m log →
      Flt.trunc? (revised m log v) = some n → -128 ≤ n → n < 128 → Arises m g (Int8.ofInt n)

/-- Evidence about every value that can arise gives a value that fits an `int8_t`. -/
def ValuesFit (m : OccupancyMapper F) (g : GridMap F) : Prop :=
  ∀ v log, Arises m g v → IsEvidence m log → InRange32 (revised m log v) (-128) 128

/-- The cell of the point `(x, y)` is a pair of `unsigned int`s. -/
def PointFits (g : GridMap F) (x y : F) : Prop :=
  InRange32 (Flt.floor ((x -. g.xmin) /. g.resolution)) 0 4294967296 ∧
    InRange32 (Flt.floor ((y -. g.ymin) /. g.resolution)) 0 4294967296

/-- The ends of all beams with a valid range have cells. -/
def EndsFit (m : OccupancyMapper F) (g : GridMap F) (scan : LaserScan F) (pose : V3 F) : Prop :=
  ∀ (k : Nat) (r : F), scan.ranges[k]? = some r → RangeValid scan r →
    PointFits g (beamEnd ((transform2d pose.c0 pose.c1 pose.c2).mul m.Tbs) scan k r).c0
      (beamEnd ((transform2d pose.c0 pose.c1 pose.c2).mul m.Tbs) scan k r).c1

/-- What the geometry of the map, the scan and the pose have to provide. -/
def ScanFits (m : OccupancyMapper F) (g : GridMap F) (sp : LaserScan F × V3 F) : Prop :=
  PointFits g sp.2.c0 sp.2.c1 ∧ EndsFit m g sp.1 sp.2

end Ergodic
