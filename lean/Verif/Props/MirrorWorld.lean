import Verif.Props.Mirror
import Verif.Props.Slip
import Verif.Props.Validate

/-!
# Property C132, continued: collision queries and nodes in the mirror

Exact arithmetic.
-/

namespace Ergodic
open Real

namespace Mirror
variable {m : Mirror}

/-! ## Cells -/

theorem flip_index {f : Bool} {a a' x x' res A : ℝ} {N j j' : ℕ} (hr : 0 < res) (hj : j < N) (hj' : j' < N)
    (ha : a' = if f then A - (a + N * res) else A + a) (hx : x' = A + (if f then -1 else 1) * x)
    (h0 : a + j * res ≤ x) (h1 : x ≤ a + (j + 1) * res) (h0' : a' + j' * res ≤ x') (h1' : x' ≤ a' + (j' + 1) * res)
    (hs : f = true → ∀ n : ℕ, 0 < n → n < N → x ≠ a + n * res)
    (hs' : f = false → j' = j) :
    j' = if f then N - 1 - j else j := by
  cases f with
  | false => simpa using hs' rfl
  | true =>
    simp only [if_true] at ha hx ⊢
    by_contra hne
    rcases lt_or_gt_of_ne hne with hlt | hgt
    · -- j' + 1 + j < N, the common edge is N - 1 - j'
      have hb : (j : ℝ) + 1 ≤ (N : ℝ) - 1 - j' := by
        have : j + 1 + 1 + j' ≤ N := by omega
        have : ((j + 1 + 1 + j' : ℕ) : ℝ) ≤ N := by exact_mod_cast this
        push_cast at this
        linarith
      have e : x = a + (j + 1) * res := by
        have := mul_le_mul_of_nonneg_right hb hr.le
        nlinarith
      exact hs rfl (j + 1) (by omega) (by omega) (by push_cast; exact e)
    · have hb : (N : ℝ) - j' ≤ j := by
        have : N ≤ j + j' := by omega
        have : ((N : ℕ) : ℝ) ≤ ((j + j' : ℕ) : ℝ) := by exact_mod_cast this
        push_cast at this
        linarith
      have e : x = a + j * res := by
        have := mul_le_mul_of_nonneg_right hb hr.le
        nlinarith
      have hj0 : 0 < j := by omega
      exact hs rfl j hj0 hj e

theorem axis_cell {f : Bool} {a a' x x' res A : ℝ} {N : UInt32} (hr : 0 < res) (hN : N ≠ 0)
    (ha : a' = if f then A - (a + N.toNat * res) else A + a) (hx : x' = A + (if f then -1 else 1) * x)
    (h0 : a ≤ x) (h1 : x ≤ a + N.toNat * res)
    (hs : f = true → ∀ n : ℕ, 0 < n → n < N.toNat → x ≠ a + n * res) :
    ∃ k k' : UInt32, castU32 (Flt.floor ((x - a) / res)) = .ok k ∧ castU32 (Flt.floor ((x' - a') / res)) = .ok k' ∧
      (if k = N then k - 1 else k).toNat < N.toNat ∧
      (if k' = N then k' - 1 else k').toNat =
        if f then N.toNat - 1 - (if k = N then k - 1 else k).toNat else (if k = N then k - 1 else k).toNat := by
  have hN' := uint32_pos_iff.mp hN
  have h0' : a' ≤ x' := by cases f <;> simp at ha hx <;> linarith
  have h1' : x' ≤ a' + N.toNat * res := by cases f <;> simp at ha hx <;> linarith
  obtain ⟨k, hk, b, c, d⟩ := fold_index N hr hN' h0 h1
  obtain ⟨k', hk', b', c', d'⟩ := fold_index N hr hN' h0' h1'
  refine ⟨k, k', hk, hk', b, ?_⟩
  have up : ∀ {a x : ℝ} {n : ℕ}, x < a + (n + 1) * res ∨ n + 1 = N.toNat ∧ x = a + N.toNat * res →
      x ≤ a + (n + 1) * res := by
    rintro a x n (h | ⟨h, rfl⟩)
    · exact h.le
    · rw [← h]; push_cast; exact le_refl _
  refine flip_index hr b b' ha hx c (up d) c' (up d') hs ?_
  rintro rfl
  have : x' - a' = x - a := by simp at ha hx; linarith
  rw [this, hk] at hk'
  cases hk'
  rfl

theorem maps_sensible {g g' : GridMap ℝ} (h : m.Maps g g') {c : Collision ℝ} (hs : Sensible c g) : Sensible c g' where
  wf := ⟨by unfold Fits numCells; rw [h.xsize, h.ysize]; exact hs.wf.fits,
    by rw [h.size, hs.wf.size]; unfold numCells; rw [h.xsize, h.ysize]⟩
  res := by rw [h.resolution]; exact hs.res
  x0 := by rw [h.xsize]; exact hs.x0
  y0 := by rw [h.ysize]; exact hs.y0
  xsize := by rw [h.xsize]; exact hs.xsize
  ysize := by rw [h.ysize]; exact hs.ysize
  bnd := hs.bnd
  obs := hs.obs
  order := hs.order
  search := by rw [h.resolution]; exact hs.search
  col := by rw [h.resolution]; exact hs.col

/-- an index counted from the other end -/
def back (f : Bool) (N : Nat) (i : Int) : Int := if f then N - 1 - i else i
/-- an offset in the mirror -/
def over (f : Bool) (d : Int) : Int := if f then -d else d

theorem over_over (f : Bool) (d : Int) : over f (over f d) = d := by cases f <;> simp [over]
theorem over_sq (f : Bool) (d : Int) : over f d * over f d = d * d := by cases f <;> simp [over]
theorem back_add (f : Bool) (N : Nat) (i d : Int) : back f N i + over f d = back f N (i + d) := by
  cases f <;> simp [over, back]; ring

theorem occupied_mirror {g g' : GridMap ℝ} (h : m.Maps g g') (thr : ℝ) (i j : Int) :
    Occupied thr g' (back m.fy g.ysize.toNat i) (back m.fx g.xsize.toNat j) ↔ Occupied thr g i j := by
  unfold Occupied
  rw [h.xsize, h.ysize]
  have r : ∀ (f : Bool) (N : Nat) (i : Int), (0 ≤ back f N i ∧ back f N i < N) ↔ (0 ≤ i ∧ i < N) := by
    intro f N i; cases f <;> simp [back] <;> omega
  have t : ∀ (f : Bool) (N : Nat) (i : Int), 0 ≤ i → i < N →
      (back f N i).toNat = if f then N - 1 - i.toNat else i.toNat := by
    intro f N i _ _; cases f <;> simp [back] <;> omega
  have ri := r m.fy g.ysize.toNat i
  have rj := r m.fx g.xsize.toNat j
  constructor
  · rintro ⟨a, b, c, d, v, hv, hl⟩
    obtain ⟨a, b⟩ := ri.mp ⟨a, b⟩
    obtain ⟨c, d⟩ := rj.mp ⟨c, d⟩
    refine ⟨a, b, c, d, v, ?_, hl⟩
    rw [t _ _ _ a b, t _ _ _ c d, h.cells _ _ (by omega) (by omega)] at hv
    exact hv
  · rintro ⟨a, b, c, d, v, hv, hl⟩
    obtain ⟨a', b'⟩ := ri.mpr ⟨a, b⟩
    obtain ⟨c', d'⟩ := rj.mpr ⟨c, d⟩
    refine ⟨a', b', c', d', v, ?_, hl⟩
    rw [t _ _ _ a b, t _ _ _ c d, h.cells _ _ (by omega) (by omega)]
    exact hv

/-- The second search is the first in the mirror. -/
structure Searches (m : Mirror) (g : GridMap ℝ) (cfg cfg' : CollisionConfig) : Prop where
  bnd : cfg'.r_bnd = cfg.r_bnd
  col : cfg'.r_col = cfg.r_col
  max : cfg'.r_max = cfg.r_max
  cx : cfg'.cx = back m.fx g.xsize.toNat cfg.cx
  cy : cfg'.cy = back m.fy g.ysize.toNat cfg.cy

theorem config_mirror {g g' : GridMap ℝ} (h : m.Maps g g') {c : Collision ℝ} (hs : Sensible c g) {p p' : V3 ℝ}
    (hp : m.Poses p p') (hc : m.Clear g p) :
    ∃ cfg cfg', c.config g p = .ok cfg ∧ c.config g' p' = .ok cfg' ∧ InRange g cfg ∧ InRange g' cfg' ∧
      m.Searches g cfg cfg' := by
  have hs' := maps_sensible h hs
  obtain ⟨⟨x0, x1, y0, y1⟩, ex, ey⟩ := hc
  obtain ⟨j, j', cj, cj', bj, fj⟩ := axis_cell (f := m.fx) (A := m.ax) (a' := g'.xmin) (x' := p'.c0) hs.res hs.x0
    (by rw [h.xmin, h.right]) hp.1 x0 x1 ex
  obtain ⟨i, i', ci, ci', bi, fi⟩ := axis_cell (f := m.fy) (A := m.ay) (a' := g'.ymin) (x' := p'.c1) hs.res hs.y0
    (by rw [h.ymin, h.top]) hp.2.1 y0 y1 ey
  have w : g.world2Grid p.c0 p.c1 = .ok (if i = g.ysize then i - 1 else i, if j = g.xsize then j - 1 else j) := by
    simp only [GridMap.world2Grid, real_sub, real_div, cj, ci, Res.ok_bind]
  have w' : g'.world2Grid p'.c0 p'.c1 = .ok (if i' = g.ysize then i' - 1 else i', if j' = g.xsize then j' - 1 else j') := by
    simp only [GridMap.world2Grid, real_sub, real_div, h.resolution, cj', ci', Res.ok_bind, h.xsize, h.ysize]
  have hx := hs.xsize
  have hy := hs.ysize
  have lx : (if j' = g.xsize then j' - 1 else j').toNat < g.xsize.toNat := by rw [fj]; split <;> omega
  have ly : (if i' = g.ysize then i' - 1 else i').toNat < g.ysize.toNat := by rw [fi]; split <;> omega
  obtain ⟨a1, a2⟩ := config_of_cell c g hs p _ _ w (by omega) (by omega)
  obtain ⟨b1, b2⟩ := config_of_cell c g' hs' p' _ _ w' (by omega) (by omega)
  refine ⟨_, _, a1, b1, a2, b2, ?_, ?_, ?_, ?_, ?_⟩
  · simp only [h.resolution]
  · simp only [h.resolution]
  · simp only [h.resolution]
  · simp only [fj, back]; split <;> omega
  · simp only [fi, back]; split <;> omega

theorem visited_mirror {g : GridMap ℝ} {cfg cfg' : CollisionConfig} (h : m.Searches g cfg cfg') (dx dy : Int) :
    Visited cfg' (over m.fx dx) (over m.fy dy) ↔ Visited cfg dx dy := by
  unfold Visited over
  rw [h.bnd, h.max]
  have : ∀ r, OnRing r (if m.fx then -dx else dx) (if m.fy then -dy else dy) ↔ OnRing r dx dy := by
    intro r; split <;> split <;> simp only [onRing_neg_left, onRing_neg_right]
  simp only [this]

theorem occupied_offset {g g' : GridMap ℝ} (h : m.Maps g g') {cfg cfg' : CollisionConfig} (hc : m.Searches g cfg cfg')
    (thr : ℝ) (dx dy : Int) :
    Occupied thr g' (cfg'.cy + over m.fy dy) (cfg'.cx + over m.fx dx) ↔ Occupied thr g (cfg.cy + dy) (cfg.cx + dx) := by
  rw [hc.cx, hc.cy, back_add, back_add, occupied_mirror h]

theorem sx_over (d : Int) : (over m.fx d : ℝ) = m.sx * d := by
  unfold over sx; split <;> simp

theorem sy_over (d : Int) : (over m.fy d : ℝ) = m.sy * d := by
  unfold over sy; split <;> simp

end Mirror

/-- C132: in the mirror the collision check gives the same verdict and the same distance to the nearest
obstacle, at every pose that is not on an edge between two cells. -/
theorem C132_check (m : Mirror) {g g' : GridMap ℝ} (h : m.Maps g g') {c : Collision ℝ} (hs : Sensible c g)
    {p p' : V3 ℝ} (hp : m.Poses p p') (hc : m.Clear g p) :
    c.collisionCheck g' p' = c.collisionCheck g p ∧ c.minDistance g' p' = c.minDistance g p := by
  have hs' := Mirror.maps_sensible h hs
  obtain ⟨cfg, cfg', h1, h2, r1, r2, hS⟩ := Mirror.config_mirror h hs hp hc
  obtain ⟨b, d, v, hb, hd, -, hv⟩ := C28_agree c g hs.wf p cfg h1 r1
  obtain ⟨b', d', v', hb', hd', -, hv'⟩ := C28_agree c g' hs'.wf p' cfg' h2 r2
  rw [hb, hd, hb', hd']
  have fwd := fun dx dy (hV : Visited cfg dx dy) (hO : Occupied c.occupied_threshold g (cfg.cy + dy) (cfg.cx + dx)) =>
    And.intro ((Mirror.visited_mirror hS dx dy).mpr hV) ((Mirror.occupied_offset h hS _ dx dy).mpr hO)
  have bwd : ∀ dx dy, Visited cfg' dx dy → Occupied c.occupied_threshold g' (cfg'.cy + dy) (cfg'.cx + dx) →
      Visited cfg (Mirror.over m.fx dx) (Mirror.over m.fy dy) ∧
      Occupied c.occupied_threshold g (cfg.cy + Mirror.over m.fy dy) (cfg.cx + Mirror.over m.fx dx) := by
    intro dx dy hV hO
    refine ⟨(Mirror.visited_mirror hS _ _).mp ?_, (Mirror.occupied_offset h hS _ _ _).mp ?_⟩
    · rwa [Mirror.over_over, Mirror.over_over]
    · rwa [Mirror.over_over, Mirror.over_over]
  cases hv with
  | crash dx dy a1 a2 a3 =>
    obtain ⟨f1, f2⟩ := fwd _ _ a1 a2
    cases hv' with
    | crash => exact ⟨rfl, rfl⟩
    | obstacle ex ey e1 e2 e3 e4 =>
      have := e4 _ _ f1 f2
      rw [Mirror.over_sq, Mirror.over_sq] at this
      rw [hS.col] at e3
      omega
    | none e1 => exact absurd f2 (e1 _ _ f1)
  | obstacle dx dy a1 a2 a3 a4 =>
    obtain ⟨f1, f2⟩ := fwd _ _ a1 a2
    cases hv' with
    | crash ex ey e1 e2 e3 =>
      obtain ⟨q1, q2⟩ := bwd _ _ e1 e2
      have := a4 _ _ q1 q2
      rw [Mirror.over_sq, Mirror.over_sq] at this
      rw [hS.col] at e3
      omega
    | obstacle ex ey e1 e2 e3 e4 =>
      obtain ⟨q1, q2⟩ := bwd _ _ e1 e2
      have u1 := a4 _ _ q1 q2
      have u2 := e4 _ _ f1 f2
      rw [Mirror.over_sq, Mirror.over_sq] at u1 u2
      rw [show ex * ex + ey * ey = dx * dx + dy * dy by omega, h.resolution]
      exact ⟨rfl, rfl⟩
    | none e1 => exact absurd f2 (e1 _ _ f1)
  | none a1 =>
    cases hv' with
    | crash ex ey e1 e2 e3 => obtain ⟨q1, q2⟩ := bwd _ _ e1 e2; exact absurd q2 (a1 _ _ q1)
    | obstacle ex ey e1 e2 e3 e4 => obtain ⟨q1, q2⟩ := bwd _ _ e1 e2; exact absurd q2 (a1 _ _ q1)
    | none => exact ⟨rfl, rfl⟩

/-- C132: the displacement to the nearest obstacle is mirrored too, up to a choice among obstacles at the
same distance: the mirrored answer is the image of a displacement of the same length to an occupied cell. -/
theorem C132_direction (m : Mirror) {g g' : GridMap ℝ} (h : m.Maps g g') {c : Collision ℝ} (hs : Sensible c g)
    {p p' : V3 ℝ} (hp : m.Poses p p') (hc : m.Clear g p) {v : V2 ℝ} (hv : c.minDirection g p = .ok (.obstacle, v)) :
    ∃ w : V2 ℝ, c.minDirection g' p' = .ok (.obstacle, ⟨m.sx * w.c0, m.sy * w.c1⟩) ∧
      w.c0 ^ 2 + w.c1 ^ 2 = v.c0 ^ 2 + v.c1 ^ 2 ∧
      ∃ cfg dx dy, c.config g p = .ok cfg ∧ w = ⟨g.resolution * (dx : Int), g.resolution * (dy : Int)⟩ ∧
        Occupied c.occupied_threshold g (cfg.cy + dy) (cfg.cx + dx) := by
  have hs' := Mirror.maps_sensible h hs
  obtain ⟨cfg, cfg', h1, h2, r1, r2, hS⟩ := Mirror.config_mirror h hs hp hc
  obtain ⟨b, d, v1, hb, hd, hv1, hV⟩ := C28_agree c g hs.wf p cfg h1 r1
  obtain ⟨b', d', v', hb', hd', hv', hV'⟩ := C28_agree c g' hs'.wf p' cfg' h2 r2
  obtain ⟨k1, k2⟩ := C132_check m h hs hp hc
  rw [hv] at hv1
  cases hv1
  rw [hb, hb'] at k1
  rw [hd, hd'] at k2
  cases hV with
  | obstacle dx dy a1 a2 a3 a4 =>
    cases hV' with
    | crash => simp at k1
    | none => simp at k2
    | obstacle ex ey e1 e2 e3 e4 =>
      have q1 : Visited cfg (Mirror.over m.fx ex) (Mirror.over m.fy ey) := (Mirror.visited_mirror hS _ _).mp (by
        rwa [Mirror.over_over, Mirror.over_over])
      have q2 : Occupied c.occupied_threshold g (cfg.cy + Mirror.over m.fy ey) (cfg.cx + Mirror.over m.fx ex) :=
        (Mirror.occupied_offset h hS _ _ _).mp (by rwa [Mirror.over_over, Mirror.over_over])
      have u1 := a4 _ _ q1 q2
      have u2 := e4 _ _ ((Mirror.visited_mirror hS _ _).mpr a1) ((Mirror.occupied_offset h hS _ _ _).mpr a2)
      rw [Mirror.over_sq, Mirror.over_sq] at u1 u2
      have u3 : ex * ex + ey * ey = dx * dx + dy * dy := by omega
      refine ⟨⟨g.resolution * (Mirror.over m.fx ex : Int), g.resolution * (Mirror.over m.fy ey : Int)⟩, ?_, ?_, cfg,
        _, _, h1, rfl, q2⟩
      · rw [hv']
        simp only [Mirror.sx_over, Mirror.sy_over, h.resolution, real_mul, real_ofInt]
        congr 3
        · linear_combination (-(g.resolution * (ex : ℝ))) * m.sx_sq
        · linear_combination (-(g.resolution * (ey : ℝ))) * m.sy_sq
      · have u4 : (ex : ℝ) * ex + ey * ey = dx * dx + dy * dy := by exact_mod_cast u3
        simp only [Mirror.sx_over, Mirror.sy_over, real_mul, real_ofInt]
        linear_combination g.resolution ^ 2 * u4 + (g.resolution * (ex : ℝ)) ^ 2 * m.sx_sq +
          (g.resolution * (ey : ℝ)) ^ 2 * m.sy_sq

/-! ## Validation -/

namespace Mirror
variable {m : Mirror}

theorem stepPose_mirror {x x' : V3 ℝ} (h : m.Poses x x') (u : V3 ℝ) (dt : ℝ) :
    m.Poses (stepPose u dt x) (stepPose (m.twist u) dt x') := by
  unfold stepPose
  refine poses_heading (x := integrateTwist x u dt) (x' := integrateTwist x' (m.twist u) dt) ?_
  have rot (d : V3 ℝ) : (transform2dAngle x'.c2).mulVec (m.twist d) = m.vec ((transform2dAngle x.c2).mulVec d) := by
    obtain ⟨-, -, h2, h3⟩ := h
    ext <;> simp only [transform2dAngle, M3.mulVec, V3.dot, twist, vec, real_add, real_mul, real_neg, real_cos,
      real_sin, real_lit, h2, h3, turn] <;>
      rcases m.sx_cases with a | a <;> rcases m.sy_cases with b | b <;> rw [a, b] <;> norm_num <;> ring
  unfold integrateTwist
  have ae : almostEqual (m.twist u).c2 (lit 0 0 : ℝ) = almostEqual u.c2 (lit 0 0 : ℝ) := by
    rw [Bool.eq_iff_iff, real_almostEqual_eps, real_almostEqual_eps]
    simp only [twist, real_lit]
    rcases m.turn_cases with a | a <;> rw [a] <;> simp
  dsimp only
  rw [ae]
  split
  · have := rot ⟨u.c0 * dt, u.c1 * dt, 0⟩
    simp only [twist, mul_zero] at this
    simp only [twist, real_mul, real_lit]
    norm_num
    rw [← mul_assoc] at this
    rw [this]
    exact poses_add h _
  · rename_i hne
    have := rot ⟨(u.c0 * dt * sin (u.c2 * dt) + u.c1 * dt * (cos (u.c2 * dt) - 1)) / (u.c2 * dt),
      (u.c1 * dt * sin (u.c2 * dt) + u.c0 * dt * (1 - cos (u.c2 * dt))) / (u.c2 * dt), u.c2 * dt⟩
    have e : (⟨(u.c0 * dt * sin (m.turn * u.c2 * dt) + m.turn * u.c1 * dt * (cos (m.turn * u.c2 * dt) - 1)) /
          (m.turn * u.c2 * dt),
        (m.turn * u.c1 * dt * sin (m.turn * u.c2 * dt) + u.c0 * dt * (1 - cos (m.turn * u.c2 * dt))) /
          (m.turn * u.c2 * dt), m.turn * u.c2 * dt⟩ : V3 ℝ) =
        m.twist ⟨(u.c0 * dt * sin (u.c2 * dt) + u.c1 * dt * (cos (u.c2 * dt) - 1)) / (u.c2 * dt),
      (u.c1 * dt * sin (u.c2 * dt) + u.c0 * dt * (1 - cos (u.c2 * dt))) / (u.c2 * dt), u.c2 * dt⟩ := by
      rcases m.turn_cases with a | a <;> simp only [twist, a]
      · simp
      · ext <;> simp only [neg_mul, one_mul, sin_neg, cos_neg]
        · rw [div_neg, ← neg_div]; congr 1; ring
        · rw [div_neg]; congr 2; ring
    have ex : (lit 1 0 : ℝ) = 1 := by simp [real_lit]
    simp only [twist, real_mul, real_add, real_sub, real_div, real_sin, real_cos, ex] at e ⊢
    rw [e, show (⟨_, _, _⟩ : V3 ℝ) = m.twist ⟨_, _, _⟩ from rfl, rot]
    exact poses_add h _

theorem poseAfter_mirror (u : V3 ℝ) (dt : ℝ) (k : Nat) : ∀ {x x' : V3 ℝ}, m.Poses x x' →
    m.Poses (poseAfter u dt x k) (poseAfter (m.twist u) dt x' k) := by
  unfold poseAfter
  induction k with
  | zero => intro x x' h; exact h
  | succ k ih => intro x x' h; exact ih (stepPose_mirror h u dt)

theorem validateLoop_mirror {g g' : GridMap ℝ} (h : m.Maps g g') {c : Collision ℝ} (hs : Sensible c g) (u : V3 ℝ)
    (dt : ℝ) (n : Nat) : ∀ {x x' : V3 ℝ}, m.Poses x x' → (∀ k < n, m.Clear g (poseAfter u dt x (k + 1))) →
    validateLoop c g' (m.twist u) dt n x' = validateLoop c g u dt n x := by
  induction n with
  | zero => intros; rfl
  | succ n ih =>
    intro x x' hx hc
    have hx1 := stepPose_mirror hx u dt
    have := (C132_check m h hs hx1 (hc 0 (by omega))).1
    show (c.collisionCheck g' (stepPose (m.twist u) dt x')).bind (fun hit =>
        if hit then .ok false else validateLoop c g' (m.twist u) dt n (stepPose (m.twist u) dt x')) =
      (c.collisionCheck g (stepPose u dt x)).bind (fun hit =>
        if hit then .ok false else validateLoop c g u dt n (stepPose u dt x))
    rw [this, ih hx1 fun k hk => hc (k + 1) (by omega)]

end Mirror

/-- C132: in the mirror a twist passes validation exactly when it does outside. -/
theorem C132_validate (m : Mirror) {g g' : GridMap ℝ} (h : m.Maps g g') {c : Collision ℝ} (hs : Sensible c g)
    {x x' : V3 ℝ} (hx : m.Poses x x') (u : V3 ℝ) (dt horizon : ℝ)
    (hc : ∀ k n, numSteps horizon dt = .ok n → k < n.toNat → m.Clear g (poseAfter u dt x (k + 1))) :
    validateControl c g' x' (m.twist u) dt horizon = validateControl c g x u dt horizon := by
  unfold validateControl
  cases hn : numSteps horizon dt with
  | ok n => exact Mirror.validateLoop_mirror h hs u dt n.toNat hx fun k hk => hc k n hn hk
  | throw e => rfl
  | ub => rfl
  | timeout => rfl

/-! ## The node -/

namespace Mirror
variable {m : Mirror}

theorem localize_mirror {s s' : Expl ℝ} (h : m.Nodes s s') {tf tf' : Option (TransformMsg ℝ)}
    (ht : (tf = none ∧ tf' = none) ∨ ∃ a b, tf = some a ∧ tf' = some b ∧ m.Poses (poseOf a) (poseOf b)) :
    m.Nodes (s.localize tf) (s'.localize tf') := by
  rcases ht with ⟨rfl, rfl⟩ | ⟨a, b, rfl, rfl, hp⟩
  · exact h
  · exact {
      ec := { h.ec with
        buffer_size := by
          show (ReplayBuffer.append _ _).buffer_size = (ReplayBuffer.append _ _).buffer_size
          unfold ReplayBuffer.append
          split <;> split <;> exact h.ec.buffer_size
        batch_size := by
          show (ReplayBuffer.append _ _).batch_size = (ReplayBuffer.append _ _).batch_size
          unfold ReplayBuffer.append
          split <;> split <;> exact h.ec.batch_size
        memory := append_mirror h.ec.buffer_size h.ec.memory hp }
      collision := h.collision
      dwa := h.dwa
      map_received := h.map_received
      grid := h.grid
      val_dt := h.val_dt
      val_horizon := h.val_horizon
      u := h.u
      pose := fun _ => hp
      pose_known := rfl
      follow_dwa := h.follow_dwa
      i := h.i }

theorem advance_mirror {s s' : Expl ℝ} (h : m.Nodes s s') : m.Nodes s.advanceDwa s'.advanceDwa := by
  unfold Expl.advanceDwa
  rw [h.follow_dwa, h.i, h.dwa]
  split
  · exact { h with dwa := rfl, follow_dwa := rfl, i := rfl }
  · exact h

theorem replan_mirror {s s' : Expl ℝ} (h : m.Nodes s s') (hf : m.Fair s.ec)
    (hM : s.ec.model = omniModel ∨ s.ec.model = cartModel) (hr : s.map_received = true) (hk : s.pose_known = true)
    (hs : m.Suits s.ec s.grid) (draws : List Nat) :
    Alike (fun r r' => m.Nodes r.1 r'.1 ∧ twists r.2 = [] ∧ twists r'.2 = [] ∧ m.Fair r.1.ec ∧
      r.1.ec.model = s.ec.model ∧ r.1.map_received = s.map_received ∧ r.1.pose_known = s.pose_known ∧
      r.1.grid = s.grid ∧ r.1.collision = s.collision)
      (s.replan draws) (s'.replan draws) := by
  unfold Expl.replan
  rw [h.follow_dwa]
  split
  · exact ⟨h, rfl, rfl, hf, rfl, rfl, rfl, rfl, rfl⟩
  · refine (C132_control m h.ec hf hM (h.grid hr).toExtent hs (h.pose hk) draws).bind ?_
    rintro ⟨ec, u⟩ ⟨ec', u'⟩ ⟨hu, hec, hp, hf', hm⟩
    dsimp only at hu hec hp hf' hm ⊢
    have hmod : m.Model ec.model := by
      rw [hm]
      rcases hM with hM | hM <;> rw [hM]
      · exact m.model_omni
      · exact m.model_cart
    have hpath : Alike (fun _ _ => True) (ec.path s.map_frame_id) (ec'.path s'.map_frame_id) := by
      unfold ErgodicControl.path
      rw [hec.model, hec.dt, hec.horizon, hec.ut]
      exact (solve hmod ec.dt ec.horizon ec.ut hp).bind fun _ _ _ => trivial
    refine hpath.bind fun _ _ _ => ?_
    exact ⟨{ h with ec := hec, u := hu, follow_dwa := rfl }, rfl, rfl, hf', hm, rfl, rfl, rfl, rfl⟩

end Mirror

/-- C132: one iteration of the control loop.  If the twist the node plans, or follows, passes validation,
the node in the mirror publishes the mirrored twist and ends in the mirrored state. -/
theorem C132_iteration (m : Mirror) {s s' : Expl ℝ} (h : m.Nodes s s') (hf : m.Fair s.ec)
    (hM : s.ec.model = omniModel ∨ s.ec.model = cartModel) {tf tf' : Option (TransformMsg ℝ)}
    (ht : (tf = none ∧ tf' = none) ∨
      ∃ a b, tf = some a ∧ tf' = some b ∧ m.Poses (Mirror.poseOf a) (Mirror.poseOf b))
    (draws : List Nat)
    (hq : s.map_received = true → (s.localize tf).pose_known = true →
      m.Suits s.ec s.grid ∧ Sensible s.collision s.grid ∧
      ∀ t o, (s.localize tf).advanceDwa.replan draws = .ok (t, o) → m.Passes t) :
    Alike (fun r r' => m.Nodes r.1 r'.1 ∧ twists r'.2 = (twists r.2).map m.twist ∧ m.Fair r.1.ec ∧
      r.1.ec.model = s.ec.model)
      (s.iteration tf draws) (s'.iteration tf' draws) := by
  have hl := Mirror.localize_mirror h ht
  unfold Expl.iteration
  dsimp only
  have el : (s.localize tf).ec.model = s.ec.model ∧ (m.Fair s.ec → m.Fair (s.localize tf).ec) ∧
      (m.Suits s.ec s.grid → m.Suits (s.localize tf).ec (s.localize tf).grid) ∧
      (s.localize tf).map_received = s.map_received ∧ (s.localize tf).collision = s.collision ∧
      (s.localize tf).grid = s.grid := by
    cases tf with
    | none => exact ⟨rfl, id, id, rfl, rfl, rfl⟩
    | some a => exact ⟨rfl, id, fun h => ⟨h.x, h.y, h.gridx, h.gridy, h.size⟩, rfl, rfl, rfl⟩
  obtain ⟨el1, el2, el3, el4, el5, el6⟩ := el
  rw [hl.map_received, hl.pose_known]
  split
  · rename_i hb
    rw [Bool.and_eq_true] at hb
    obtain ⟨q1, q2, q3⟩ := hq (el4.symm.trans hb.1) hb.2
    have ha := Mirror.advance_mirror hl
    have ea : (s.localize tf).advanceDwa.ec = (s.localize tf).ec ∧
        (s.localize tf).advanceDwa.grid = (s.localize tf).grid ∧
        (s.localize tf).advanceDwa.map_received = (s.localize tf).map_received ∧
        (s.localize tf).advanceDwa.pose_known = (s.localize tf).pose_known ∧
        (s.localize tf).advanceDwa.collision = (s.localize tf).collision := by
      unfold Expl.advanceDwa
      split <;> exact ⟨rfl, rfl, rfl, rfl, rfl⟩
    obtain ⟨ea1, ea2, ea3, ea4, ea5⟩ := ea
    have hrp := Mirror.replan_mirror ha (by rw [ea1]; exact el2 hf) (by rw [ea1, el1]; exact hM)
      (by rw [ea3]; exact hb.1) (by rw [ea4]; exact hb.2) (by rw [ea1, ea2]; exact el3 q1) draws
    revert hrp q3
    cases h1 : (s.localize tf).advanceDwa.replan draws with
    | ok r =>
      cases h2 : (s'.localize tf').advanceDwa.replan draws with
      | ok r' =>
        obtain ⟨t, o⟩ := r
        obtain ⟨t', o'⟩ := r'
        rintro q3 ⟨hn, o1, o2, hf', hm', k1, k2, k3, k4⟩
        dsimp only at hn o1 o2 hf' hm' k1 k2 k3 k4
        obtain ⟨v1, v2⟩ := q3 t o rfl
        have hg := hn.grid (by rw [k1, ea3]; exact hb.1)
        have hv := C132_validate m hg (c := t.collision) (by rw [k3, k4, ea2, ea5, el5, el6]; exact q2)
          (hn.pose (by rw [k2, ea4]; exact hb.2)) t.u t.val_dt t.val_horizon v2
        have a1 : t.avoid = .ok (t, []) := by
          unfold Expl.avoid
          rw [v1]
          rfl
        have a2 : t'.avoid = .ok (t', []) := by
          unfold Expl.avoid
          rw [hn.collision, hn.val_dt, hn.val_horizon, hn.u, hv, v1]
          rfl
        simp only [Res.ok_bind, a1, a2]
        refine ⟨hn, ?_, hf', by rw [hm', ea1, el1]⟩
        unfold twists at o1 o2 ⊢
        simp only [List.append_nil, List.filterMap_append, o1, o2, List.nil_append]
        show [t'.u] = [m.twist t.u]
        rw [hn.u]
      | throw => intro _ h; exact h.elim
      | ub => intro _ h; exact h.elim
      | timeout => intro _ h; exact h.elim
    | throw e =>
      cases h2 : (s'.localize tf').advanceDwa.replan draws with
      | throw e' => intro _ h; exact h
      | ok => intro _ h; exact h.elim
      | ub => intro _ h; exact h.elim
      | timeout => intro _ h; exact h.elim
    | ub =>
      cases h2 : (s'.localize tf').advanceDwa.replan draws with
      | ub => intro _ h; exact h
      | ok => intro _ h; exact h.elim
      | throw => intro _ h; exact h.elim
      | timeout => intro _ h; exact h.elim
    | timeout =>
      cases h2 : (s'.localize tf').advanceDwa.replan draws with
      | timeout => intro _ h; exact h
      | ok => intro _ h; exact h.elim
      | throw => intro _ h; exact h.elim
      | ub => intro _ h; exact h.elim
  · exact ⟨hl, rfl, el2 hf, el1⟩

theorem Mirror.step_mirror (m : Mirror) {s s' : Expl ℝ} (h : m.Nodes s s') (hf : m.Fair s.ec)
    (hM : s.ec.model = omniModel ∨ s.ec.model = cartModel) {e e' : Event ℝ} (he : m.Events e e')
    (hq : ∀ tf draws, e = .tick tf draws → s.map_received = true → (s.localize tf).pose_known = true →
      m.Suits s.ec s.grid ∧ Sensible s.collision s.grid ∧
      ∀ t o, (s.localize tf).advanceDwa.replan draws = .ok (t, o) → m.Passes t) :
    Alike (fun r r' => m.Nodes r.1 r'.1 ∧ twists r'.2 = (twists r.2).map m.twist ∧ m.Fair r.1.ec ∧
      r.1.ec.model = s.ec.model) (s.step e) (s'.step e') := by
  cases he with
  | map hm => exact ⟨{ h with map_received := rfl, grid := fun _ => hm }, rfl, hf, rfl⟩
  | odom v w => exact ⟨{ h with }, rfl, hf, rfl⟩
  | lost draws => exact C132_iteration m h hf hM (.inl ⟨rfl, rfl⟩) draws (hq none draws rfl)
  | tick draws hp => exact C132_iteration m h hf hM (.inr ⟨_, _, rfl, rfl, hp⟩) draws (hq _ draws rfl)

/-- C132: a whole history.  As long as every twist the node plans passes validation, the node in the mirror,
fed the mirrored history, publishes the mirrored twists, one by one, and ends in the mirrored state. -/
theorem C132_run (m : Mirror) {es es' : List (Event ℝ)} (he : List.Forall₂ m.Events es es') :
    ∀ {s s' : Expl ℝ}, m.Nodes s s' → m.Fair s.ec → (s.ec.model = omniModel ∨ s.ec.model = cartModel) →
    m.Undisturbed s es →
    Alike (fun r r' => m.Nodes r.1 r'.1 ∧ twists r'.2 = (twists r.2).map m.twist) (s.run es) (s'.run es') := by
  induction he with
  | nil => intro s s' h _ _ _; exact ⟨h, rfl⟩
  | @cons e e' es es' h1 _ ih =>
    intro s s' h hf hM ⟨hq, hu⟩
    have hst := Mirror.step_mirror m h hf hM h1 hq
    unfold Expl.run
    revert hst
    cases k1 : s.step e with
    | ok r =>
      cases k2 : s'.step e' with
      | ok r' =>
        obtain ⟨t, o⟩ := r
        obtain ⟨t', o'⟩ := r'
        rintro ⟨hn, ho, hf', hm'⟩
        dsimp only at hn ho hf' hm'
        simp only [Res.ok_bind]
        refine (ih hn hf' (by rw [hm']; exact hM) (hu t o k1)).bind ?_
        rintro ⟨a, oa⟩ ⟨b, ob⟩ ⟨hab, hoab⟩
        refine ⟨hab, ?_⟩
        dsimp only at hoab ⊢
        unfold twists at ho hoab ⊢
        rw [List.filterMap_append, List.filterMap_append, List.map_append, ho, hoab]
      | throw => intro h; exact h.elim
      | ub => intro h; exact h.elim
      | timeout => intro h; exact h.elim
    | throw e =>
      cases k2 : s'.step e' with
      | throw e' => intro h; exact h
      | ok => intro h; exact h.elim
      | ub => intro h; exact h.elim
      | timeout => intro h; exact h.elim
    | ub =>
      cases k2 : s'.step e' with
      | ub => intro h; exact h
      | ok => intro h; exact h.elim
      | throw => intro h; exact h.elim
      | timeout => intro h; exact h.elim
    | timeout =>
      cases k2 : s'.step e' with
      | timeout => intro h; exact h
      | ok => intro h; exact h.elim
      | throw => intro h; exact h.elim
      | ub => intro h; exact h.elim

end Ergodic
