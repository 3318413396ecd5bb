import Verif.Spec.Exchange

/-!
# A quarter turn of the plane

Vocabulary of the quarter turn in C133: counter-clockwise about the origin, followed by a displacement.
-/

namespace Ergodic
namespace Quarter

/-- image of a Gaussian: the mean is turned and displaced, the covariance turned from both sides -/
noncomputable def gaussian (a b : ℝ) (g : Gaussian ℝ) : Gaussian ℝ :=
  { mu := ⟨a - g.mu.c1, b + g.mu.c0⟩
    cov := ⟨⟨g.cov.r1.c1, -g.cov.r1.c0⟩, ⟨-g.cov.r0.c1, g.cov.r0.c0⟩⟩
    cov_inv := ⟨⟨g.cov_inv.r1.c1, -g.cov_inv.r1.c0⟩, ⟨-g.cov_inv.r0.c1, g.cov_inv.r0.c0⟩⟩ }

/-- image of a target -/
noncomputable def target (a b : ℝ) (t : Target ℝ) : Target ℝ := ⟨t.gaussians.map (gaussian a b)⟩

/-- A moment at which a controller plans: the map, the pose and the random draws. -/
abbrev Moment := GridMap ℝ × V3 ℝ × List Nat

/-- The second moment is the first turned: the map covers the turned area, the pose is turned, the heading increased by
a right angle; the draws are the same. -/
structure Moments (a b : ℝ) (p q : Moment) : Prop where
  xmin : q.1.xmin = a - p.1.ymax
  xmax : q.1.xmax = a - p.1.ymin
  ymin : q.1.ymin = b + p.1.xmin
  ymax : q.1.ymax = b + p.1.xmax
  x : q.2.1.c0 = a - p.2.1.c1
  y : q.2.1.c1 = b + p.2.1.c0
  heading : q.2.1.c2 = p.2.1.c2 + Real.pi / 2
  draws : q.2.2 = p.2.2

/-- The twists planned at successive moments; each pose is remembered first. -/
noncomputable def plans : ErgodicControl ℝ → List Moment → Res (List (V3 ℝ))
  | _, [] => .ok []
  | e, p :: ps => do
    let r ← (e.addStateMemory p.2.1).control p.1 p.2.1 p.2.2
    let us ← plans r.1 ps
    .ok (r.2 :: us)

/-- The maps suit the controller: they have an extent, the height is a multiple of the resolution of the target grid,
and none is confused with a previous, slightly different one. -/
def Suited : ErgodicControl ℝ → List Moment → Prop
  | _, [] => True
  | e, p :: ps =>
    p.1.xmax - p.1.xmin ≠ 0 ∧ p.1.ymax - p.1.ymin ≠ 0 ∧ (∃ n : ℕ, p.1.ymax - p.1.ymin = n * e.resolution) ∧
    (almostEqual (p.1.xmax - p.1.xmin) e.basis.lx = true → almostEqual (p.1.ymax - p.1.ymin) e.basis.ly = true →
      p.1.xmax - p.1.xmin = e.basis.lx ∧ p.1.ymax - p.1.ymin = e.basis.ly) ∧
    ∀ r, (e.addStateMemory p.2.1).control p.1 p.2.1 p.2.2 = .ok r → Suited r.1 ps

/-- The second map shows the first turned: rows become columns, the top row the left column. -/
structure Maps (a b : ℝ) (g q : GridMap ℝ) : Prop where
  xmin : q.xmin = a - g.ymax
  xmax : q.xmax = a - g.ymin
  ymin : q.ymin = b + g.xmin
  ymax : q.ymax = b + g.xmax
  xsize : q.xsize = g.ysize
  ysize : q.ysize = g.xsize
  resolution : q.resolution = g.resolution
  right : g.xmax = g.xmin + g.xsize.toNat * g.resolution
  top : g.ymax = g.ymin + g.ysize.toNat * g.resolution
  size : q.data.length = g.data.length
  cells : ∀ i j, i < g.ysize.toNat → j < g.xsize.toNat → cellAt q j (g.ysize.toNat - 1 - i) = cellAt g i j

/-- The second pose is the first turned. -/
def Poses (a b : ℝ) (p q : V3 ℝ) : Prop :=
  q.c0 = a - p.c1 ∧ q.c1 = b + p.c0 ∧ q.c2 = p.c2 + Real.pi / 2

/-- The pose is in the map and not on an edge between two rows. -/
def Clear (g : GridMap ℝ) (p : V3 ℝ) : Prop :=
  InRect g p.c0 p.c1 ∧ ∀ n : ℕ, 0 < n → n < g.ysize.toNat → p.c1 ≠ g.ymin + n * g.resolution

end Quarter
end Ergodic
