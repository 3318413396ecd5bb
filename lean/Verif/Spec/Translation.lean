import Verif.Spec.Session
import Verif.Lemmas.Real

/-!
# Specification vocabulary for a displaced map frame

The same surroundings described in a map frame whose origin is elsewhere: every position in it is
changed by the same vector `d`; headings, twists, sizes and cells stay.
-/

namespace Ergodic

/-- a displaced point -/
def V2.move (p d : V2 ℝ) : V2 ℝ := ⟨p.c0 + d.c0, p.c1 + d.c1⟩

/-- a displaced pose -/
def V3.move (d : V2 ℝ) (x : V3 ℝ) : V3 ℝ := ⟨x.c0 + d.c0, x.c1 + d.c1, x.c2⟩

/-- a displaced map -/
def GridMap.move (d : V2 ℝ) (g : GridMap ℝ) : GridMap ℝ :=
  { g with xmin := g.xmin + d.c0, ymin := g.ymin + d.c1, xmax := g.xmax + d.c0, ymax := g.ymax + d.c1 }

/-- a map message with a displaced origin -/
def OccupancyGrid.move (d : V2 ℝ) (m : OccupancyGrid ℝ) : OccupancyGrid ℝ :=
  { m with originX := m.originX + d.c0, originY := m.originY + d.c1 }

/-- a displaced bump of the target -/
def Gaussian.move (d : V2 ℝ) (g : Gaussian ℝ) : Gaussian ℝ := { g with mu := g.mu.move d }

/-- a displaced target -/
def Target.move (d : V2 ℝ) (t : Target ℝ) : Target ℝ := ⟨t.gaussians.map (Gaussian.move d)⟩

/-- a transform with displaced translation -/
def TransformMsg.move (d : V2 ℝ) (t : TransformMsg ℝ) : TransformMsg ℝ :=
  { t with x := t.x + d.c0, y := t.y + d.c1 }

/-- an event in the displaced frame; odometry is measured in the body frame -/
def Event.move (d : V2 ℝ) : Event ℝ → Event ℝ
  | .map m => .map (m.move d)
  | .odom v => .odom v
  | .tick tf draws => .tick (tf.map (TransformMsg.move d)) draws

/-- a displaced pose of a path -/
def PoseMsg.move (d : V2 ℝ) (p : PoseMsg ℝ) : PoseMsg ℝ := { p with px := p.px + d.c0, py := p.py + d.c1 }

/-- a displaced path -/
def PathMsg.move (d : V2 ℝ) (p : PathMsg ℝ) : PathMsg ℝ := { p with poses := p.poses.map (PoseMsg.move d) }

/-- a displaced marker -/
def Marker.move (d : V2 ℝ) (m : Marker ℝ) : Marker ℝ := { m with px := m.px + d.c0, py := m.py + d.c1 }

/-- what is published in the displaced frame: twists are the same -/
def Out.move (d : V2 ℝ) : Out ℝ → Out ℝ
  | .target ms => .target (ms.map (Marker.move d))
  | .trajectory p => .trajectory (p.move d)
  | .dwaPath p => .dwaPath (p.move d)
  | .twist u => .twist u

/-- parameters with a displaced target -/
def Params.move (d : V2 ℝ) (p : Params ℝ) : Params ℝ :=
  { p with targets := p.targets.map fun t => (t.1.move d, t.2) }

end Ergodic
