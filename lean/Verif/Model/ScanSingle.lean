import Verif.Model.Mapping

/-!
# Entering a scan with single-precision beam angles

`sensor_msgs/LaserScan` carries `float32` fields, so `beam_angle` in `updateMap` is a `float` and is
accumulated in single precision.  `Model/Mapping.lean` uses the same arithmetic for it as for everything else;
here the addition of two `float`s is a parameter.  The conversions from `float` to `double` in the calls are
exact, and the comparisons of a range with its limits give the same result in both types.
-/

namespace Ergodic
variable {F : Type} [Flt F]

namespace OccupancyMapper

/-- The beam loop (mapping.cpp:94-125) with `beam_angle` a `float`: `addF` adds two `float`s. -/
def beamLoopF (addF : F → F → F) (m : OccupancyMapper F) (scan : LaserScan F) (Tms : M3 F)
    (psg : UInt32 × UInt32) : List F → F → GridMap F → Res (GridMap F)
  | [], _, g => .ok g
  | r :: rs, a, g => do
    let g ← m.beam scan Tms psg a r g
    beamLoopF addF m scan Tms psg rs (addF a scan.angle_increment) g

/-- `OccupancyMapper::updateMap` (mapping.cpp:77-128) with `beam_angle` a `float`. -/
def updateMapF (addF : F → F → F) (m : OccupancyMapper F) (g : GridMap F) (scan : LaserScan F) (pose : V3 F) :
    Res (Bool × GridMap F) := do
  let psg ← g.world2Grid pose.c0 pose.c1
  if ¬ g.gridBounds psg.1 psg.2 then .ok (false, g)
  else do
    let Tms := (transform2d pose.c0 pose.c1 pose.c2).mul m.Tbs
    let g ← m.beamLoopF addF scan Tms psg scan.ranges scan.angle_min g
    .ok (true, g)

end OccupancyMapper
end Ergodic
