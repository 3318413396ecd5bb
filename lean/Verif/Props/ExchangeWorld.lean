import Verif.Props.Exchange
import Verif.Props.MirrorWorld
import Verif.Props.Mapping

/-!
# Property C133, continued: cells, collision queries, rays and validation with the axes exchanged

Exact arithmetic.
-/

namespace Ergodic
open Real

namespace Exchange

theorem maps_sensible {g g' : GridMap ℝ} (h : Maps g g') {c : Collision ℝ} (hs : Sensible c g) : Sensible c g' where
  wf := ⟨by unfold Fits numCells; rw [h.xsize, h.ysize, Nat.mul_comm]; exact hs.wf.fits,
    by rw [h.size, hs.wf.size]; unfold numCells; rw [h.xsize, h.ysize, Nat.mul_comm]⟩
  res := by rw [h.resolution]; exact hs.res
  x0 := by rw [h.xsize]; exact hs.y0
  y0 := by rw [h.ysize]; exact hs.x0
  xsize := by rw [h.xsize]; exact hs.ysize
  ysize := by rw [h.ysize]; exact hs.xsize
  bnd := hs.bnd
  obs := hs.obs
  order := hs.order
  search := by rw [h.resolution]; exact hs.search
  col := by rw [h.resolution]; exact hs.col

theorem occupied_exchange {g g' : GridMap ℝ} (h : Maps g g') (thr : ℝ) (i j : Int) :
    Occupied thr g' j i ↔ Occupied thr g i j := by
  unfold Occupied
  rw [h.xsize, h.ysize]
  constructor
  · rintro ⟨a, b, c, d, v, hv, hl⟩
    rw [h.cells _ _ (by omega) (by omega)] at hv
    exact ⟨c, d, a, b, v, hv, hl⟩
  · rintro ⟨a, b, c, d, v, hv, hl⟩
    rw [← h.cells _ _ (by omega) (by omega)] at hv
    exact ⟨c, d, a, b, v, hv, hl⟩

/-- The second search is the first with the axes exchanged. -/
structure Searches (cfg cfg' : CollisionConfig) : Prop where
  bnd : cfg'.r_bnd = cfg.r_bnd
  col : cfg'.r_col = cfg.r_col
  max : cfg'.r_max = cfg.r_max
  cx : cfg'.cx = cfg.cy
  cy : cfg'.cy = cfg.cx

theorem config_exchange {g g' : GridMap ℝ} (h : Maps g g') {c : Collision ℝ} (hs : Sensible c g) {p p' : V3 ℝ}
    (hp : Poses p p') (hc : InRect g p.c0 p.c1) :
    ∃ cfg cfg', c.config g p = .ok cfg ∧ c.config g' p' = .ok cfg' ∧ InRange g cfg ∧ InRange g' cfg' ∧
      Searches cfg cfg' := by
  have hs' := maps_sensible h hs
  obtain ⟨x0, x1, y0, y1⟩ := hc
  obtain ⟨j, cj, bj, -, -⟩ := fold_index g.xsize hs.res (uint32_pos_iff.mp hs.x0) x0 x1
  obtain ⟨i, ci, bi, -, -⟩ := fold_index g.ysize hs.res (uint32_pos_iff.mp hs.y0) y0 y1
  have w : g.world2Grid p.c0 p.c1 = .ok (if i = g.ysize then i - 1 else i, if j = g.xsize then j - 1 else j) := by
    simp only [GridMap.world2Grid, real_sub, real_div, cj, ci, Res.ok_bind]
  have w' : g'.world2Grid p'.c0 p'.c1 = .ok (if j = g.xsize then j - 1 else j, if i = g.ysize then i - 1 else i) := by
    simp only [GridMap.world2Grid, real_sub, real_div, h.resolution, hp.1, hp.2.1, h.xmin, h.ymin, cj, ci, Res.ok_bind,
      h.xsize, h.ysize]
  have hx := hs.xsize
  have hy := hs.ysize
  obtain ⟨a1, a2⟩ := config_of_cell c g hs p _ _ w (by omega) (by omega)
  obtain ⟨b1, b2⟩ := config_of_cell c g' hs' p' _ _ w' (by omega) (by omega)
  exact ⟨_, _, a1, b1, a2, b2, by simp only [h.resolution], by simp only [h.resolution], by simp only [h.resolution],
    rfl, rfl⟩

theorem visited_exchange {cfg cfg' : CollisionConfig} (h : Searches cfg cfg') (dx dy : Int) :
    Visited cfg' dy dx ↔ Visited cfg dx dy := by
  unfold Visited
  rw [h.bnd, h.max]
  simp only [onRing_swap (a := dy)]

theorem occupied_offset {g g' : GridMap ℝ} (h : Maps g g') {cfg cfg' : CollisionConfig} (hc : Searches cfg cfg')
    (thr : ℝ) (dx dy : Int) :
    Occupied thr g' (cfg'.cy + dx) (cfg'.cx + dy) ↔ Occupied thr g (cfg.cy + dy) (cfg.cx + dx) := by
  rw [hc.cx, hc.cy, occupied_exchange h]

end Exchange

/-- C133: with the axes exchanged the collision check gives the same verdict and the same distance to the
nearest obstacle, at every pose in the map. -/
theorem C133_check {g g' : GridMap ℝ} (h : Exchange.Maps g g') {c : Collision ℝ} (hs : Sensible c g)
    {p p' : V3 ℝ} (hp : Exchange.Poses p p') (hc : InRect g p.c0 p.c1) :
    c.collisionCheck g' p' = c.collisionCheck g p ∧ c.minDistance g' p' = c.minDistance g p := by
  have hs' := Exchange.maps_sensible h hs
  obtain ⟨cfg, cfg', h1, h2, r1, r2, hS⟩ := Exchange.config_exchange h hs hp hc
  obtain ⟨b, d, v, hb, hd, -, hv⟩ := C28_agree c g hs.wf p cfg h1 r1
  obtain ⟨b', d', v', hb', hd', -, hv'⟩ := C28_agree c g' hs'.wf p' cfg' h2 r2
  rw [hb, hd, hb', hd']
  have fwd := fun dx dy (hV : Visited cfg dx dy) (hO : Occupied c.occupied_threshold g (cfg.cy + dy) (cfg.cx + dx)) =>
    And.intro ((Exchange.visited_exchange hS dx dy).mpr hV) ((Exchange.occupied_offset h hS _ dx dy).mpr hO)
  have bwd := fun dx dy (hV : Visited cfg' dx dy)
      (hO : Occupied c.occupied_threshold g' (cfg'.cy + dy) (cfg'.cx + dx)) =>
    And.intro ((Exchange.visited_exchange hS dy dx).mp hV) ((Exchange.occupied_offset h hS _ dy dx).mp hO)
  cases hv with
  | crash dx dy a1 a2 a3 =>
    obtain ⟨f1, f2⟩ := fwd _ _ a1 a2
    cases hv' with
    | crash => exact ⟨rfl, rfl⟩
    | obstacle ex ey e1 e2 e3 e4 =>
      have := e4 _ _ f1 f2
      rw [hS.col] at e3
      omega
    | none e1 => exact absurd f2 (e1 _ _ f1)
  | obstacle dx dy a1 a2 a3 a4 =>
    obtain ⟨f1, f2⟩ := fwd _ _ a1 a2
    cases hv' with
    | crash ex ey e1 e2 e3 =>
      obtain ⟨q1, q2⟩ := bwd _ _ e1 e2
      have := a4 _ _ q1 q2
      rw [hS.col] at e3
      omega
    | obstacle ex ey e1 e2 e3 e4 =>
      obtain ⟨q1, q2⟩ := bwd _ _ e1 e2
      have u1 := a4 _ _ q1 q2
      have u2 := e4 _ _ f1 f2
      rw [show ex * ex + ey * ey = dx * dx + dy * dy by omega, h.resolution]
      exact ⟨rfl, rfl⟩
    | none e1 => exact absurd f2 (e1 _ _ f1)
  | none a1 =>
    cases hv' with
    | crash ex ey e1 e2 e3 => obtain ⟨q1, q2⟩ := bwd _ _ e1 e2; exact absurd q2 (a1 _ _ q1)
    | obstacle ex ey e1 e2 e3 e4 => obtain ⟨q1, q2⟩ := bwd _ _ e1 e2; exact absurd q2 (a1 _ _ q1)
    | none => exact ⟨rfl, rfl⟩

/-- C133: the displacement to the nearest obstacle is exchanged too, up to a choice among obstacles at the
same distance. -/
theorem C133_direction {g g' : GridMap ℝ} (h : Exchange.Maps g g') {c : Collision ℝ} (hs : Sensible c g)
    {p p' : V3 ℝ} (hp : Exchange.Poses p p') (hc : InRect g p.c0 p.c1) {v : V2 ℝ}
    (hv : c.minDirection g p = .ok (.obstacle, v)) :
    ∃ w : V2 ℝ, c.minDirection g' p' = .ok (.obstacle, Exchange.point w) ∧
      w.c0 ^ 2 + w.c1 ^ 2 = v.c0 ^ 2 + v.c1 ^ 2 ∧
      ∃ cfg dx dy, c.config g p = .ok cfg ∧ w = ⟨g.resolution * (dx : Int), g.resolution * (dy : Int)⟩ ∧
        Occupied c.occupied_threshold g (cfg.cy + dy) (cfg.cx + dx) := by
  have hs' := Exchange.maps_sensible h hs
  obtain ⟨cfg, cfg', h1, h2, r1, r2, hS⟩ := Exchange.config_exchange h hs hp hc
  obtain ⟨b, d, v1, hb, hd, hv1, hV⟩ := C28_agree c g hs.wf p cfg h1 r1
  obtain ⟨b', d', v', hb', hd', hv', hV'⟩ := C28_agree c g' hs'.wf p' cfg' h2 r2
  obtain ⟨k1, k2⟩ := C133_check h hs hp hc
  rw [hv] at hv1
  cases hv1
  rw [hb, hb'] at k1
  rw [hd, hd'] at k2
  cases hV with
  | obstacle dx dy a1 a2 a3 a4 =>
    cases hV' with
    | crash => simp at k1
    | none => simp at k2
    | obstacle ex ey e1 e2 e3 e4 =>
      have q1 := (Exchange.visited_exchange hS ey ex).mp e1
      have q2 := (Exchange.occupied_offset h hS _ ey ex).mp e2
      have u1 := a4 _ _ q1 q2
      have u2 := e4 _ _ ((Exchange.visited_exchange hS _ _).mpr a1) ((Exchange.occupied_offset h hS _ _ _).mpr a2)
      have u3 : ey * ey + ex * ex = dx * dx + dy * dy := by omega
      refine ⟨⟨g.resolution * (ey : Int), g.resolution * (ex : Int)⟩, ?_, ?_, cfg, _, _, h1, rfl, q2⟩
      · rw [hv']
        simp only [Exchange.point, h.resolution, real_mul, real_ofInt]
      · have u4 : (ey : ℝ) * ey + ex * ex = dx * dx + dy * dy := by exact_mod_cast u3
        simp only [real_mul, real_ofInt]
        linear_combination g.resolution ^ 2 * u4

/-! ## Rays -/

theorem rayCells_exchange (x0 y0 x1 y1 : Int) : rayCells y0 x0 y1 x1 = (rayCells x0 y0 x1 y1).map Prod.swap := by
  have sw (l : List (Int × Int)) : (l.map Prod.swap).map Prod.swap = l := by
    rw [List.map_map, Prod.swap_swap_eq, List.map_id]
  unfold rayCells
  have hc : (y1 - y0 = 0 ∨ x1 - x0 = 0 ∨ |x1 - x0| = |y1 - y0|) ↔
      (x1 - x0 = 0 ∨ y1 - y0 = 0 ∨ |y1 - y0| = |x1 - x0|) := by
    constructor <;> rintro (h | h | h) <;> simp [h]
  by_cases h : x1 - x0 = 0 ∨ y1 - y0 = 0 ∨ |y1 - y0| = |x1 - x0|
  · rw [if_pos (hc.mpr h), if_pos h, Nat.max_comm, List.map_map]
    rfl
  · rw [if_neg (fun k => h (hc.mp k)), if_neg h]
    have hne : |y1 - y0| ≠ |x1 - x0| := fun k => h (.inr (.inr k))
    by_cases hl : |y1 - y0| < |x1 - x0|
    · rw [if_neg (not_lt.mpr hl.le), if_pos hl, List.map_cons]
      split <;> rfl
    · rw [if_pos (by omega), if_neg hl, List.map_cons]
      split
      · rw [sw]; rfl
      · rw [sw]; rfl

/-- C133: with the axes exchanged a ray marks the exchanged cells, in the same order.  For every
arithmetic. -/
theorem C133_ray {F : Type} [Flt F] (x0 y0 x1 y1 : Int) :
    ∃ l : List (Int × Int), ∀ (m : OccupancyMapper F) (g : GridMap F),
      m.rayTrace g x0 y0 x1 y1 = l.foldlM (fun g p => m.updateCell g p.1 p.2 m.log_odds_free) g ∧
      m.rayTrace g y0 x0 y1 x1 = l.foldlM (fun g p => m.updateCell g p.2 p.1 m.log_odds_free) g := by
  have key (l : List (Int × Int)) (m : OccupancyMapper F) (g : GridMap F) :
      applyUpd m (markFree m l) g = l.foldlM (fun g p => m.updateCell g p.1 p.2 m.log_odds_free) g := by
    induction l generalizing g with
    | nil => rfl
    | cons p t ih =>
      obtain ⟨x, y⟩ := p
      simp only [markFree, List.map_cons, applyUpd, List.foldlM_cons]
      congr 1; funext g1
      exact ih g1
  refine ⟨rayCells x0 y0 x1 y1, fun m g => ⟨?_, ?_⟩⟩
  · rw [rayTrace_eq, key]
  · rw [rayTrace_eq, key, rayCells_exchange]
    generalize rayCells x0 y0 x1 y1 = l
    induction l generalizing g with
    | nil => rfl
    | cons p t ih =>
      rw [List.map_cons, List.foldlM_cons, List.foldlM_cons]
      congr 1; funext g1
      exact ih g1

/-- C133: the cells of the exchanged ray are the exchanged cells. -/
theorem C133_ray_cells {x0 y0 x1 y1 : Int} (x y : Int) (h : (x, y) ≠ (x1, y1)) :
    OnRay y0 x0 y1 x1 y x ↔ OnRay x0 y0 x1 y1 x y := by
  have a := mem_rayCells (x0 := x0) (y0 := y0) (x1 := x1) (y1 := y1) (x := x) (y := y)
  have b := mem_rayCells (x0 := y0) (y0 := x0) (x1 := y1) (y1 := x1) (x := y) (y := x)
  have h' : (y, x) ≠ (y1, x1) := by
    simp only [ne_eq, Prod.mk.injEq, not_and] at h ⊢
    exact fun h1 h2 => h h2 h1
  rw [rayCells_exchange] at b
  have c : (y, x) ∈ (rayCells x0 y0 x1 y1).map Prod.swap ↔ (x, y) ∈ rayCells x0 y0 x1 y1 := by
    simp [List.mem_map]
  rw [c, a] at b
  constructor
  · exact fun k => (b.mpr ⟨k, h'⟩).1
  · exact fun k => (b.mp ⟨k, h⟩).1

/-- The knight's move, along the second axis and along the first. -/
example : OnRay 0 0 2 1 1 0 ∧ OnRay 0 0 1 2 0 1 := by decide

/-! ## Validation -/

namespace Exchange

theorem stepPose_exchange {x x' : V3 ℝ} (h : Poses x x') (u : V3 ℝ) (dt : ℝ) :
    Poses (stepPose u dt x) (stepPose (twist u) dt x') := by
  unfold stepPose
  refine poses_heading (x := integrateTwist x u dt) (x' := integrateTwist x' (twist u) dt) ?_
  have rot (d : V3 ℝ) : (transform2dAngle x'.c2).mulVec (twist d) = vec ((transform2dAngle x.c2).mulVec d) := by
    obtain ⟨-, -, h2, h3⟩ := h
    ext <;> simp only [transform2dAngle, M3.mulVec, V3.dot, twist, vec, real_add, real_mul, real_neg, real_cos,
      real_sin, real_lit, h2, h3] <;> norm_num <;> ring
  unfold integrateTwist
  have ae : almostEqual (twist u).c2 (lit 0 0 : ℝ) = almostEqual u.c2 (lit 0 0 : ℝ) := by
    rw [Bool.eq_iff_iff, real_almostEqual_eps, real_almostEqual_eps]
    simp only [twist, real_lit]
    simp
  dsimp only
  rw [ae]
  split
  · have := rot ⟨u.c0 * dt, u.c1 * dt, 0⟩
    simp only [twist, neg_zero] at this
    simp only [twist, real_mul, real_lit]
    norm_num
    rw [this]
    exact poses_add h _
  · have := rot ⟨(u.c0 * dt * sin (u.c2 * dt) + u.c1 * dt * (cos (u.c2 * dt) - 1)) / (u.c2 * dt),
      (u.c1 * dt * sin (u.c2 * dt) + u.c0 * dt * (1 - cos (u.c2 * dt))) / (u.c2 * dt), u.c2 * dt⟩
    have e : (⟨(u.c0 * dt * sin (-u.c2 * dt) + -u.c1 * dt * (cos (-u.c2 * dt) - 1)) / (-u.c2 * dt),
        (-u.c1 * dt * sin (-u.c2 * dt) + u.c0 * dt * (1 - cos (-u.c2 * dt))) / (-u.c2 * dt), -u.c2 * dt⟩ : V3 ℝ) =
        twist ⟨(u.c0 * dt * sin (u.c2 * dt) + u.c1 * dt * (cos (u.c2 * dt) - 1)) / (u.c2 * dt),
      (u.c1 * dt * sin (u.c2 * dt) + u.c0 * dt * (1 - cos (u.c2 * dt))) / (u.c2 * dt), u.c2 * dt⟩ := by
      simp only [twist]
      ext <;> simp only [neg_mul, sin_neg, cos_neg]
      · rw [div_neg, ← neg_div]; congr 1; ring
      · rw [div_neg]; congr 2; ring
    have ex : (lit 1 0 : ℝ) = 1 := by simp [real_lit]
    simp only [twist, real_mul, real_add, real_sub, real_div, real_sin, real_cos, ex] at e ⊢
    rw [e, show (⟨_, _, _⟩ : V3 ℝ) = twist ⟨_, _, _⟩ from rfl, rot]
    exact poses_add h _

theorem seen_succ {c : Collision ℝ} {g : GridMap ℝ} {u : V3 ℝ} {dt : ℝ} {n : Nat} {x : V3 ℝ}
    (h : Seen c g u dt (n + 1) x) :
    InRect g (stepPose u dt x).c0 (stepPose u dt x).c1 ∧
      (c.collisionCheck g (stepPose u dt x) = .ok false → Seen c g u dt n (stepPose u dt x)) := by
  refine ⟨h 0 (by omega) (by omega), fun hf k hk hl => h (k + 1) (by omega) fun l hlk => ?_⟩
  cases l with
  | zero => exact hf
  | succ l => exact hl l (by omega)

theorem validateSeen {g g' : GridMap ℝ} (h : Maps g g') {c : Collision ℝ} (hs : Sensible c g) (u : V3 ℝ)
    (dt : ℝ) (n : Nat) : ∀ {x x' : V3 ℝ}, Poses x x' → Seen c g u dt n x →
    validateLoop c g' (twist u) dt n x' = validateLoop c g u dt n x := by
  induction n with
  | zero => intros; rfl
  | succ n ih =>
    intro x x' hx hc
    obtain ⟨c1, c2⟩ := seen_succ hc
    have hx1 := stepPose_exchange hx u dt
    show (c.collisionCheck g' (stepPose (twist u) dt x')).bind (fun hit =>
        if hit then .ok false else validateLoop c g' (twist u) dt n (stepPose (twist u) dt x')) =
      (c.collisionCheck g (stepPose u dt x)).bind (fun hit =>
        if hit then .ok false else validateLoop c g u dt n (stepPose u dt x))
    rw [(C133_check h hs hx1 c1).1]
    cases hk : c.collisionCheck g (stepPose u dt x) with
    | ok b =>
      cases b with
      | true => rfl
      | false => exact ih hx1 (c2 hk)
    | throw e => rfl
    | ub => rfl
    | timeout => rfl

end Exchange

/-- C133: with the axes exchanged a twist passes validation exactly when it did, if the simulated poses stay
in the map up to the first collision. -/
theorem C133_validate {g g' : GridMap ℝ} (h : Exchange.Maps g g') {c : Collision ℝ} (hs : Sensible c g)
    {x x' : V3 ℝ} (hx : Exchange.Poses x x') (u : V3 ℝ) (dt horizon : ℝ)
    (hc : ∀ n, numSteps horizon dt = .ok n → Exchange.Seen c g u dt n.toNat x) :
    validateControl c g' x' (Exchange.twist u) dt horizon = validateControl c g x u dt horizon := by
  unfold validateControl
  cases hn : numSteps horizon dt with
  | ok n => exact Exchange.validateSeen h hs u dt n.toNat hx (hc n hn)
  | throw e => rfl
  | ub => rfl
  | timeout => rfl

end Ergodic
