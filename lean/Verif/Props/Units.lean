import Verif.Spec.Units
import Verif.Props.Mirror
import Verif.Props.Mapping
import Verif.Props.DynamicWindow

/-!
# Property C134: the unit of length

Exact arithmetic.
-/

namespace Ergodic
open Real

namespace Units

theorem ratio {l : ℝ} (hl : 0 < l) (a b : ℝ) : l * a / (l * b) = a / b := mul_div_mul_left a b hl.ne'

theorem cells {l : ℝ} (hl : 0 < l) (x m r : ℝ) : (l * x - l * m) / (l * r) = (x - m) / r := by
  rw [← mul_sub, ratio hl]

end Units

/-! ## Cells and collisions -/

/-- C134: a position lies in the same cell whatever the unit, and the middle of a cell is where it was. -/
theorem C134_cell {l : ℝ} (hl : 0 < l) (g : GridMap ℝ) :
    (∀ x y, (Units.grid l g).world2Grid (l * x) (l * y) = g.world2Grid x y) ∧
    (∀ i j, (Units.grid l g).grid2World i j = Units.point l (g.grid2World i j)) := by
  constructor
  · intro x y
    simp only [GridMap.world2Grid, Units.grid, real_sub, real_div, Units.cells hl]
    rfl
  · intro i j
    simp only [GridMap.grid2World, Units.grid, Units.point, real_add, real_mul, real_div]
    congr 1 <;> ring

namespace Units

theorem checkCell_units (l : ℝ) (c : Collision ℝ) (g : GridMap ℝ) :
    Collision.checkCell (detector l c) (grid l g) = Collision.checkCell c g := rfl

theorem circleLoop_units (l : ℝ) (c : Collision ℝ) (g : GridMap ℝ) (n : Nat) :
    Collision.circleLoop (detector l c) (grid l g) n = Collision.circleLoop c g n := by
  induction n with
  | zero => rfl
  | succ n ih =>
    funext x y err cfg
    simp only [Collision.circleLoop, checkCell_units, ih]

theorem searchLoop_units (l : ℝ) (c : Collision ℝ) (g : GridMap ℝ) (n : Nat) :
    Collision.searchLoop (detector l c) (grid l g) n = Collision.searchLoop c g n := by
  induction n with
  | zero => rfl
  | succ n ih =>
    funext r cfg
    simp only [Collision.searchLoop, Collision.bresenhamCircle, circleLoop_units, ih]

theorem search_units (l : ℝ) (c : Collision ℝ) (g : GridMap ℝ) (cfg : CollisionConfig) :
    Collision.search (detector l c) (grid l g) cfg = Collision.search c g cfg := by
  simp only [Collision.search, searchLoop_units]

theorem config_units {l : ℝ} (hl : 0 < l) (c : Collision ℝ) (g : GridMap ℝ) (p : V3 ℝ) :
    (detector l c).config (grid l g) (pose l p) = c.config g p := by
  unfold Collision.config
  rw [show (grid l g).world2Grid (pose l p).c0 (pose l p).c1 = g.world2Grid p.c0 p.c1 from (C134_cell hl g).1 _ _]
  simp only [detector, grid, real_div, real_add, ← mul_add, ratio hl]

end Units

/-- C134: the collision check does not depend on the unit of length. -/
theorem C134_check {l : ℝ} (hl : 0 < l) (c : Collision ℝ) (g : GridMap ℝ) (p : V3 ℝ) :
    (Units.detector l c).collisionCheck (Units.grid l g) (Units.pose l p) = c.collisionCheck g p := by
  simp only [Collision.collisionCheck, Units.config_units hl, Units.search_units]

/-- C134: the distance to an obstacle is the same in the other unit.  The two other answers, 0 for a
collision and the greatest number for no obstacle, are the same number. -/
theorem C134_distance {l : ℝ} (hl : 0 < l) (c : Collision ℝ) (g : GridMap ℝ) (p : V3 ℝ) :
    (Units.detector l c).minDistance (Units.grid l g) (Units.pose l p) =
      (c.minDistance g p).bind fun r => .ok (r.1, if r.1 = .obstacle then l * r.2 else r.2) := by
  simp only [Collision.minDistance, Units.config_units hl, Units.search_units]
  cases c.config g p with
  | ok cfg =>
    simp only [Res.ok_bind]
    cases Collision.search c g cfg with
    | ok r =>
      obtain ⟨hit, cfg'⟩ := r
      simp only [Res.ok_bind]
      split
      · rfl
      · split
        · show Res.ok _ = Res.ok _
          simp only [Units.detector, Units.grid, real_mul, real_sub, if_true]
          congr 2
          ring
        · rfl
    | throw e => rfl
    | ub => rfl
    | timeout => rfl
  | throw e => rfl
  | ub => rfl
  | timeout => rfl

/-- C134: so is the displacement to the nearest obstacle. -/
theorem C134_direction {l : ℝ} (hl : 0 < l) (c : Collision ℝ) (g : GridMap ℝ) (p : V3 ℝ) :
    (Units.detector l c).minDirection (Units.grid l g) (Units.pose l p) =
      (c.minDirection g p).bind fun r => .ok (r.1, if r.1 = .obstacle then Units.point l r.2 else r.2) := by
  simp only [Collision.minDirection, Units.config_units hl, Units.search_units]
  cases c.config g p with
  | ok cfg =>
    simp only [Res.ok_bind]
    cases Collision.search c g cfg with
    | ok r =>
      obtain ⟨hit, cfg'⟩ := r
      simp only [Res.ok_bind]
      cases Collision.search c g cfg' with
      | ok r =>
        obtain ⟨hit, cfg''⟩ := r
        simp only [Res.ok_bind]
        split
        · rfl
        · split
          · show Res.ok _ = Res.ok _
            simp only [Units.grid, Units.point, real_mul, if_true]
            congr 3 <;> ring
          · rfl
      | throw e => rfl
      | ub => rfl
      | timeout => rfl
    | throw e => rfl
    | ub => rfl
    | timeout => rfl
  | throw e => rfl
  | ub => rfl
  | timeout => rfl

namespace Units

theorem step_units (l : ℝ) (x u : V3 ℝ) (dt : ℝ) : stepPose (pose l u) dt (pose l x) = pose l (stepPose u dt x) := by
  have h : integrateTwist (pose l x) (pose l u) dt = pose l (integrateTwist x u dt) := by
    unfold integrateTwist
    by_cases h : almostEqual u.c2 (lit 0 0) = true
    · dsimp only
      rw [if_pos h, if_pos (show almostEqual (pose l u).c2 (lit 0 0) = true from h)]
      simp only [pose, V3.add, M3.mulVec, V3.dot, transform2dAngle, real_add, real_mul, real_neg, real_lit]
      norm_num
      constructor <;> ring
    · dsimp only
      rw [if_neg h, if_neg (show ¬almostEqual (pose l u).c2 (lit 0 0) = true from h)]
      simp only [pose, V3.add, M3.mulVec, V3.dot, transform2dAngle, real_add, real_mul, real_neg, real_lit, real_div,
        real_sub, real_sin, real_cos]
      norm_num
      constructor <;> ring
  unfold stepPose
  rw [h]
  rfl

theorem poseAfter_units (l : ℝ) (x u : V3 ℝ) (dt : ℝ) (k : Nat) :
    poseAfter (pose l u) dt (pose l x) k = pose l (poseAfter u dt x k) := by
  induction k generalizing x with
  | zero => rfl
  | succ k ih =>
    show poseAfter (pose l u) dt (stepPose (pose l u) dt (pose l x)) k = pose l (poseAfter u dt (stepPose u dt x) k)
    rw [step_units, ih]

theorem validateLoop_units {l : ℝ} (hl : 0 < l) (c : Collision ℝ) (g : GridMap ℝ) (u : V3 ℝ) (dt : ℝ) (n : Nat) :
    ∀ x : V3 ℝ, validateLoop (detector l c) (grid l g) (pose l u) dt n (pose l x) = validateLoop c g u dt n x := by
  induction n with
  | zero => intro; rfl
  | succ n ih =>
    intro x
    show ((detector l c).collisionCheck (grid l g) (stepPose (pose l u) dt (pose l x))).bind (fun hit =>
        if hit then .ok false else validateLoop (detector l c) (grid l g) (pose l u) dt n (stepPose (pose l u) dt (pose l x))) =
      (c.collisionCheck g (stepPose u dt x)).bind (fun hit =>
        if hit then .ok false else validateLoop c g u dt n (stepPose u dt x))
    rw [step_units, C134_check hl, ih]

end Units

/-- C134: validation accepts the same twists in both units. -/
theorem C134_validate {l : ℝ} (hl : 0 < l) (c : Collision ℝ) (g : GridMap ℝ) (x u : V3 ℝ) (dt horizon : ℝ) :
    validateControl (Units.detector l c) (Units.grid l g) (Units.pose l x) (Units.pose l u) dt horizon =
      validateControl c g x u dt horizon := by
  unfold validateControl
  simp only [Units.validateLoop_units hl]

/-! ## Mapping -/

namespace Units

theorem updateCell_units (l : ℝ) (m : OccupancyMapper ℝ) (g : GridMap ℝ) (x y : Int) (log : ℝ) :
    Alike (fun a b => b = grid l a) (m.updateCell g x y log) ((mapper l m).updateCell (grid l g) x y log) := by
  unfold OccupancyMapper.updateCell
  refine Alike.same fun p _ => ?_
  refine Alike.same fun v _ => ?_
  show Alike _ (if (g.grid2RowMajor (i2u y) (i2u x)).toNat < g.data.length then _ else _)
    (if (g.grid2RowMajor (i2u y) (i2u x)).toNat < g.data.length then _ else _)
  by_cases h : (g.grid2RowMajor (i2u y) (i2u x)).toNat < g.data.length
  · rw [if_pos h, if_pos h]
    rfl
  · rw [if_neg h, if_neg h]
    rfl

theorem applyUpd_units (l : ℝ) (m : OccupancyMapper ℝ) (us : List (Int × Int × ℝ)) (g : GridMap ℝ) :
    Alike (fun a b => b = grid l a) (applyUpd m us g) (applyUpd (mapper l m) us (grid l g)) := by
  induction us generalizing g with
  | nil => rfl
  | cons q t ih =>
    obtain ⟨x, y, log⟩ := q
    simp only [applyUpd]
    refine (updateCell_units l m g x y log).bind fun a b hab => ?_
    subst hab
    exact ih a

theorem rayTrace_units (l : ℝ) (m : OccupancyMapper ℝ) (g : GridMap ℝ) (x0 y0 x1 y1 : Int) :
    Alike (fun a b => b = grid l a) (m.rayTrace g x0 y0 x1 y1) ((mapper l m).rayTrace (grid l g) x0 y0 x1 y1) := by
  rw [rayTrace_eq, rayTrace_eq]
  exact applyUpd_units l m _ g

theorem beamPoint_units {l : ℝ} (hl : 0 < l) (x : V3 ℝ) (T : M3 ℝ) (a r : ℝ) :
    let q := ((transform2d x.c0 x.c1 x.c2).mul T).mulVec (polar2CartesianHomo a r)
    let q' := ((transform2d (pose l x).c0 (pose l x).c1 (pose l x).c2).mul (mount l T)).mulVec
      (polar2CartesianHomo a (l * r))
    q'.c0 = l * q.c0 ∧ q'.c1 = l * q.c1 := by
  have := hl.ne'
  simp only [M3.mulVec, M3.mul, M3.t, V3.dot, transform2d, polar2CartesianHomo, mount, pose, real_add, real_mul,
    real_neg, real_cos, real_sin, real_lit]
  constructor <;> field_simp

theorem beam_units {l : ℝ} (hl : 0 < l) (m : OccupancyMapper ℝ) (sc : LaserScan ℝ) (x : V3 ℝ) (s : UInt32 × UInt32)
    (a r : ℝ) (g : GridMap ℝ) :
    Alike (fun a b => b = grid l a) (m.beam sc ((transform2d x.c0 x.c1 x.c2).mul m.Tbs) s a r g)
      ((mapper l m).beam (scan l sc) ((transform2d (pose l x).c0 (pose l x).c1 (pose l x).c2).mul (mount l m.Tbs)) s a
        (l * r) (grid l g)) := by
  obtain ⟨e0, e1⟩ := beamPoint_units hl x m.Tbs a r
  unfold OccupancyMapper.beam
  have hr : (Flt.lt (scan l sc).range_max (l * r) || Flt.lt (l * r) (scan l sc).range_min) =
      (Flt.lt sc.range_max r || Flt.lt r sc.range_min) := by
    rw [Bool.eq_iff_iff]
    simp only [scan, Bool.or_eq_true, real_lt, mul_lt_mul_iff_right₀ hl]
  dsimp only at e0 e1 ⊢
  rw [hr, e0, e1, (C134_cell hl g).1]
  by_cases h : (Flt.lt sc.range_max r || Flt.lt r sc.range_min) = true
  · rw [if_pos h, if_pos h]
    rfl
  · rw [if_neg h, if_neg h]
    refine Alike.same fun p _ => ?_
    show Alike _ (if g.gridBounds p.1 p.2 then _ else _) (if g.gridBounds p.1 p.2 then _ else _)
    by_cases hb : g.gridBounds p.1 p.2 = true
    · rw [if_pos hb, if_pos hb]
      refine (rayTrace_units l m g _ _ _ _).bind fun a b hab => ?_
      subst hab
      exact updateCell_units l m a _ _ _
    · rw [if_neg hb, if_neg hb]
      rfl

theorem beamLoop_units {l : ℝ} (hl : 0 < l) (m : OccupancyMapper ℝ) (sc : LaserScan ℝ) (x : V3 ℝ)
    (s : UInt32 × UInt32) (rs : List ℝ) : ∀ (a : ℝ) (g : GridMap ℝ),
    Alike (fun a b => b = grid l a) (m.beamLoop sc ((transform2d x.c0 x.c1 x.c2).mul m.Tbs) s rs a g)
      ((mapper l m).beamLoop (scan l sc) ((transform2d (pose l x).c0 (pose l x).c1 (pose l x).c2).mul (mount l m.Tbs)) s
        (rs.map (l * ·)) a (grid l g)) := by
  induction rs with
  | nil => intros; rfl
  | cons r rs ih =>
    intro a g
    rw [List.map_cons]
    unfold OccupancyMapper.beamLoop
    refine (beam_units hl m sc x s a r g).bind fun b c hbc => ?_
    subst hbc
    exact ih _ _

end Units

/-- C134: a scan changes the same cells in the same way whatever the unit of length. -/
theorem C134_scan {l : ℝ} (hl : 0 < l) (m : OccupancyMapper ℝ) (g : GridMap ℝ) (scan : LaserScan ℝ) (p : V3 ℝ) :
    (Units.mapper l m).updateMap (Units.grid l g) (Units.scan l scan) (Units.pose l p) =
      (m.updateMap g scan p).bind fun r => .ok (r.1, Units.grid l r.2) := by
  have key : Alike (fun a b => b = (a.1, Units.grid l a.2)) (m.updateMap g scan p)
      ((Units.mapper l m).updateMap (Units.grid l g) (Units.scan l scan) (Units.pose l p)) := by
    unfold OccupancyMapper.updateMap
    rw [show (Units.grid l g).world2Grid (Units.pose l p).c0 (Units.pose l p).c1 = g.world2Grid p.c0 p.c1 from
      (C134_cell hl g).1 _ _]
    refine Alike.same fun s _ => ?_
    show Alike _ (if ¬ g.gridBounds s.1 s.2 then _ else _) (if ¬ g.gridBounds s.1 s.2 then _ else _)
    by_cases hb : g.gridBounds s.1 s.2 = true
    · rw [if_neg (by simp [hb]), if_neg (by simp [hb])]
      refine (Units.beamLoop_units hl m scan p s scan.ranges scan.angle_min g).bind fun a b hab => ?_
      subst hab
      rfl
    · rw [if_pos hb, if_pos hb]
      rfl
  revert key
  cases m.updateMap g scan p <;>
    cases (Units.mapper l m).updateMap (Units.grid l g) (Units.scan l scan) (Units.pose l p) <;>
    simp only [Alike] <;> intro key <;> first | exact key.elim | (subst key; rfl) | rfl

/-! ## The cosine basis and the target -/

namespace Units

theorem wave {l : ℝ} (hl : 0 < l) (k p x : ℝ) : k * (π / (l * p)) * (l * x) = k * (π / p) * x := by
  have := hl.ne'
  by_cases hp : p = 0
  · simp [hp]
  · field_simp

theorem fk_units {l : ℝ} (hl : 0 < l) (b : Basis ℝ) (x : V2 ℝ) (k : Int × Int) :
    (basis l b).fk (point l x) k = b.fk x k := by
  simp only [Basis.fk, basis, point, real_mul, real_div, real_pi, wave hl]

end Units

/-- C134: the coefficients of a trajectory do not depend on the unit; the gradient of the basis is measured
in its inverse. -/
theorem C134_basis {l : ℝ} (hl : 0 < l) (b : Basis ℝ) :
    (∀ xt, (Units.basis l b).trajCoeff (xt.map (Units.pose l)) = b.trajCoeff xt) ∧
    (∀ x, (Units.basis l b).fourierBasis (Units.point l x) = b.fourierBasis x) ∧
    (∀ x, (Units.basis l b).gradFourierBasis (Units.point l x) = (b.gradFourierBasis x).map (Units.point l⁻¹)) := by
  refine ⟨fun xt => ?_, fun x => ?_, fun x => ?_⟩
  · unfold Basis.trajCoeff
    simp only [List.length_map, List.map_map]
    refine List.map_congr_left fun k _ => ?_
    congr 2
    refine List.map_congr_left fun x _ => ?_
    exact Units.fk_units hl b x.xy k
  · exact List.map_congr_left fun k _ => Units.fk_units hl b x k
  · unfold Basis.gradFourierBasis
    rw [List.map_map]
    refine List.map_congr_left fun k _ => ?_
    simp only [Basis.dfk, Units.basis, Units.point, Function.comp, real_mul, real_div, real_neg, real_sin, real_cos,
      real_pi, Units.wave hl]
    have := hl.ne'
    congr 1 <;> rw [← div_div, mul_comm l⁻¹] <;> ring

namespace Units

theorem evalTrans_units {l : ℝ} (hl : 0 < l) (g : Gaussian ℝ) (p q : V2 ℝ) :
    (gaussian l g).evalTrans (point l p) (point l q) = g.evalTrans p q := by
  have := hl.ne'
  simp only [Gaussian.evalTrans, Gaussian.expForm, gaussian, point, V2.sub, V2.dot, real_sub, real_mul, real_add,
    real_exp]
  congr 2
  field_simp

theorem evaluate_units {l : ℝ} (hl : 0 < l) (t : Target ℝ) (p q : V2 ℝ) :
    (target l t).evaluate (point l p) (point l q) = t.evaluate p q := by
  unfold Target.evaluate target
  rw [List.foldl_map]
  simp only [evalTrans_units hl]

theorem fill_units {l : ℝ} (hl : 0 < l) (t : Target ℝ) (q : V2 ℝ) (pts : List (V2 ℝ)) :
    (target l t).fill (point l q) (pts.map (point l)) = t.fill q pts := by
  unfold Target.fill
  simp only [List.map_map, Function.comp_def, evaluate_units hl]

theorem accumList_units (l s r : ℝ) (n : Nat) : ErgodicControl.accumList (l * s) (l * r) n = (ErgodicControl.accumList s r n).map (l * ·) := by
  induction n generalizing s with
  | zero => rfl
  | succ n ih =>
    unfold ErgodicControl.accumList
    rw [List.map_cons, ← ih]
    simp only [real_add, mul_add]

theorem phiGrid_units {l : ℝ} (hl : 0 < l) (lx ly r : ℝ) :
    ErgodicControl.phiGrid (l * lx) (l * ly) (l * r) = (ErgodicControl.phiGrid lx ly r).bind fun pts => .ok (pts.map (point l)) := by
  have z : (lit 0 0 : ℝ) = l * lit 0 0 := by simp [real_lit]
  have ax (x : ℝ) : axisLength (lit 0 0) (l * x) (l * r) = axisLength (lit 0 0) x r := by
    unfold axisLength
    rw [z, real_sub, real_div, cells hl, real_sub, real_div, ← z]
  unfold ErgodicControl.phiGrid
  rw [ax, ax]
  cases axisLength (lit 0 0) lx r with
  | ok nx =>
    simp only [Res.ok_bind]
    cases axisLength (lit 0 0) ly r with
    | ok ny =>
      simp only [Res.ok_bind]
      split
      · rfl
      · show Res.ok _ = Res.ok _
        congr 1
        rw [z, accumList_units, accumList_units, ← z, List.map_flatMap, List.flatMap_map]
        simp only [List.map_map]
        rfl
    | throw e => rfl
    | ub => rfl
    | timeout => rfl
  | throw e => rfl
  | ub => rfl
  | timeout => rfl

end Units

/-- C134: when the map has another extent than before, in both units, the coefficients of the target are
computed anew and do not depend on the unit. -/
theorem C134_target {l : ℝ} (hl : 0 < l) (e : ErgodicControl ℝ) (g : GridMap ℝ)
    (h : ¬ (almostEqual (g.xmax - g.xmin) e.basis.lx && almostEqual (g.ymax - g.ymin) e.basis.ly) = true)
    (h' : ¬ (almostEqual (l * g.xmax - l * g.xmin) (l * e.basis.lx) &&
      almostEqual (l * g.ymax - l * g.ymin) (l * e.basis.ly)) = true) :
    Alike (fun a b => b.phik = a.phik ∧ b.basis = Units.basis l a.basis) (e.configTarget g)
      ((Units.controller l e).configTarget (Units.grid l g)) := by
  have hx : l * g.xmax - l * g.xmin = l * (g.xmax - g.xmin) := by ring
  have hy : l * g.ymax - l * g.ymin = l * (g.ymax - g.ymin) := by ring
  unfold ErgodicControl.configTarget
  dsimp only [Units.controller, Units.grid, Units.basis]
  simp only [real_sub]
  rw [if_neg h, if_neg h', hx, hy, Units.phiGrid_units hl]
  cases ErgodicControl.phiGrid (g.xmax - g.xmin) (g.ymax - g.ymin) e.resolution with
  | ok pts =>
    show Alike _ (Basis.spatialCoeff _ _ _ >>= _) (Basis.spatialCoeff _ _ _ >>= _)
    have : Basis.spatialCoeff (Units.basis l { e.basis with lx := g.xmax - g.xmin, ly := g.ymax - g.ymin })
        ((Units.target l e.target).fill (Units.point l ⟨g.xmin, g.ymin⟩) (pts.map (Units.point l))) (pts.map (Units.point l)) =
        Basis.spatialCoeff { e.basis with lx := g.xmax - g.xmin, ly := g.ymax - g.ymin }
          (e.target.fill ⟨g.xmin, g.ymin⟩ pts) pts := by
      unfold Basis.spatialCoeff
      rw [Units.fill_units hl, List.length_map]
      simp only [List.zipWith_map_left, Units.fk_units hl]
      rfl
    dsimp only [Units.basis, Units.point] at this
    rw [this]
    exact Alike.same fun ph _ => ⟨rfl, rfl⟩
  | throw e => rfl
  | ub => trivial
  | timeout => trivial

/-! ## What depends on the unit -/

/-- C134, false: the barrier at the edge of the map begins at the same places in every unit. -/
def C134_barrier_statement : Prop := ∀ l > 0, ∀ x p : ℝ, 0 ≤ x → x ≤ p →
  (ErgodicControl.barrierAxis (l * x) (l * p) = 0 ↔ ErgodicControl.barrierAxis x p = 0)

/-- C134: the barrier is 0.05 wide in whatever unit: one centimetre from the edge it acts if lengths are in
metres and not if they are in centimetres. -/
theorem C134_barrier_refuted : ¬ C134_barrier_statement := by
  intro h
  have := h 100 (by norm_num) (1 / 100) 1 (by norm_num) (by norm_num)
  simp only [ErgodicControl.barrierAxis, b2f, real_sub, real_add, real_mul, real_lit, real_lt] at this
  norm_num at this

/-- C134: in any surroundings in which both are free, the cost of following a standing reference prefers
moving at one unit of length per second to turning at two radians per second, and the other way round when
the unit of length is a third. -/
theorem C134_preference (d : DynamicWindow ℝ) (g : GridMap ℝ) (x : V3 ℝ) (h1 : FreeRollout d g x ⟨1, 0, 0⟩)
    (h2 : FreeRollout d g x ⟨0, 0, 2⟩) :
    d.objectiveTwist g x ⟨0, 0, 0⟩ ⟨1, 0, 0⟩ = .ok 1 ∧ d.objectiveTwist g x ⟨0, 0, 0⟩ ⟨0, 0, 2⟩ = .ok 4 ∧
    (Units.window 3 d).objectiveTwist (Units.grid 3 g) (Units.pose 3 x) (Units.pose 3 ⟨0, 0, 0⟩) (Units.pose 3 ⟨1, 0, 0⟩) =
      .ok 9 ∧
    (Units.window 3 d).objectiveTwist (Units.grid 3 g) (Units.pose 3 x) (Units.pose 3 ⟨0, 0, 0⟩) (Units.pose 3 ⟨0, 0, 2⟩) =
      .ok 4 := by
  have free {u : V3 ℝ} (h : FreeRollout d g x u) :
      FreeRollout (Units.window 3 d) (Units.grid 3 g) (Units.pose 3 x) (Units.pose 3 u) := by
    intro k hk
    show (Units.detector 3 d.collision).collisionCheck (Units.grid 3 g) (poseAfter (Units.pose 3 u) d.dt (Units.pose 3 x) (k + 1)) = _
    rw [Units.poseAfter_units, C134_check (by norm_num)]
    exact h k hk
  refine ⟨?_, ?_, ?_, ?_⟩
  · refine (objectiveTwist_ok _ _ _ _ _ _).mpr (.inl ⟨h1, ?_⟩)
    simp only [V3.sub, V3.dot, real_sub, real_add, real_mul]; norm_num
  · refine (objectiveTwist_ok _ _ _ _ _ _).mpr (.inl ⟨h2, ?_⟩)
    simp only [V3.sub, V3.dot, real_sub, real_add, real_mul]; norm_num
  · refine (objectiveTwist_ok _ _ _ _ _ _).mpr (.inl ⟨free h1, ?_⟩)
    simp only [Units.pose, V3.sub, V3.dot, real_sub, real_add, real_mul]; norm_num
  · refine (objectiveTwist_ok _ _ _ _ _ _).mpr (.inl ⟨free h2, ?_⟩)
    simp only [Units.pose, V3.sub, V3.dot, real_sub, real_add, real_mul]; norm_num

end Ergodic
