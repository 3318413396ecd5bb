import Verif.Model.ErgodicControl
import Verif.Model.DynamicWindow
import Verif.Model.Mapping
import Verif.Lemmas.Real

/-!
# The unit of length

Vocabulary of C134.  Lengths are measured in another unit: every length is multiplied by `l`; angles,
times, numbers of cells and contents of cells stay.
-/

namespace Ergodic
namespace Units

/-- a point -/
noncomputable def point (l : ℝ) (p : V2 ℝ) : V2 ℝ := ⟨l * p.c0, l * p.c1⟩
/-- a pose or a twist: two lengths and an angle -/
noncomputable def pose (l : ℝ) (p : V3 ℝ) : V3 ℝ := ⟨l * p.c0, l * p.c1, p.c2⟩
/-- a map -/
noncomputable def grid (l : ℝ) (g : GridMap ℝ) : GridMap ℝ :=
  { g with resolution := l * g.resolution, xmin := l * g.xmin, ymin := l * g.ymin, xmax := l * g.xmax, ymax := l * g.ymax }
/-- the radii of the collision check; the threshold of occupancy is no length -/
noncomputable def detector (l : ℝ) (c : Collision ℝ) : Collision ℝ :=
  { c with
    boundary_radius := l * c.boundary_radius
    search_radius := l * c.search_radius
    obstacle_threshold := l * c.obstacle_threshold }
/-- a scan -/
noncomputable def scan (l : ℝ) (s : LaserScan ℝ) : LaserScan ℝ :=
  { s with range_min := l * s.range_min, range_max := l * s.range_max, ranges := s.ranges.map (l * ·) }
/-- the pose of the sensor as a matrix -/
noncomputable def mount (l : ℝ) (a : M3 ℝ) : M3 ℝ :=
  ⟨⟨a.r0.c0, a.r0.c1, l * a.r0.c2⟩, ⟨a.r1.c0, a.r1.c1, l * a.r1.c2⟩, ⟨a.r2.c0 / l, a.r2.c1 / l, a.r2.c2⟩⟩
/-- a mapper -/
noncomputable def mapper (l : ℝ) (m : OccupancyMapper ℝ) : OccupancyMapper ℝ := { m with Tbs := mount l m.Tbs }
/-- the cosine basis -/
noncomputable def basis (l : ℝ) (b : Basis ℝ) : Basis ℝ := { b with lx := l * b.lx, ly := l * b.ly }
/-- a Gaussian -/
noncomputable def gaussian (l : ℝ) (g : Gaussian ℝ) : Gaussian ℝ :=
  { mu := point l g.mu
    cov := ⟨⟨l * l * g.cov.r0.c0, l * l * g.cov.r0.c1⟩, ⟨l * l * g.cov.r1.c0, l * l * g.cov.r1.c1⟩⟩
    cov_inv := ⟨⟨g.cov_inv.r0.c0 / (l * l), g.cov_inv.r0.c1 / (l * l)⟩, ⟨g.cov_inv.r1.c0 / (l * l), g.cov_inv.r1.c1 / (l * l)⟩⟩ }
/-- a target -/
noncomputable def target (l : ℝ) (t : Target ℝ) : Target ℝ := ⟨t.gaussians.map (gaussian l)⟩
/-- the settings of a controller that describe the target and the map -/
noncomputable def controller (l : ℝ) (e : ErgodicControl ℝ) : ErgodicControl ℝ :=
  { e with resolution := l * e.resolution, basis := basis l e.basis, target := target l e.target }
/-- the collision check of a dynamic window -/
noncomputable def window (l : ℝ) (d : DynamicWindow ℝ) : DynamicWindow ℝ := { d with collision := detector l d.collision }

end Units
end Ergodic
