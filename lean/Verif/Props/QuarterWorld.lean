import Verif.Props.Quarter
import Verif.Props.ExchangeWorld

/-!
# Property C133: collision queries and validation after a quarter turn

Exact arithmetic.
-/

namespace Ergodic
namespace Quarter

/-- the map with its rows in reverse order -/
noncomputable def flipped (a b : ℝ) (g : GridMap ℝ) : GridMap ℝ :=
  { g with
    xmin := b + g.xmin, xmax := b + g.xmax, ymin := a - g.ymax, ymax := a - g.ymin
    data := (List.range g.data.length).map fun k =>
      (cellAt g (g.ysize.toNat - 1 - k / g.xsize.toNat) (k % g.xsize.toNat)).getD 0 }

theorem cell_lt {g : GridMap ℝ} (hw : g.data.length = g.xsize.toNat * g.ysize.toNat) {i j : Nat} (hi : i < g.ysize.toNat)
    (hj : j < g.xsize.toNat) : i * g.xsize.toNat + j < g.data.length := by
  rw [hw]
  calc i * g.xsize.toNat + j < i * g.xsize.toNat + g.xsize.toNat := by omega
    _ = (i + 1) * g.xsize.toNat := by ring
    _ ≤ g.ysize.toNat * g.xsize.toNat := Nat.mul_le_mul_right _ hi
    _ = _ := Nat.mul_comm _ _

theorem flipped_cell (a b : ℝ) {g : GridMap ℝ} (hw : g.data.length = g.xsize.toNat * g.ysize.toNat) {i j : Nat}
    (hi : i < g.ysize.toNat) (hj : j < g.xsize.toNat) :
    cellAt (flipped a b g) (g.ysize.toNat - 1 - i) j = cellAt g i j := by
  have h1 := cell_lt hw (i := g.ysize.toNat - 1 - i) (by omega) hj
  have h2 := cell_lt hw hi hj
  have hx : 0 < g.xsize.toNat := by omega
  show ((List.range g.data.length).map _)[(g.ysize.toNat - 1 - i) * g.xsize.toNat + j]? = _
  rw [List.getElem?_map, List.getElem?_range h1, Option.map_some]
  have d : ((g.ysize.toNat - 1 - i) * g.xsize.toNat + j) / g.xsize.toNat = g.ysize.toNat - 1 - i := by
    rw [Nat.add_comm, Nat.add_mul_div_right _ _ hx, Nat.div_eq_of_lt hj, Nat.zero_add]
  have r : ((g.ysize.toNat - 1 - i) * g.xsize.toNat + j) % g.xsize.toNat = j := by
    rw [Nat.add_comm, Nat.add_mul_mod_self_right, Nat.mod_eq_of_lt hj]
  rw [d, r, show g.ysize.toNat - 1 - (g.ysize.toNat - 1 - i) = i by omega]
  unfold cellAt
  rw [List.getElem?_eq_getElem h2, Option.getD_some]

theorem flip_maps (a b : ℝ) {g q : GridMap ℝ} (h : Maps a b g q) (hw : g.data.length = g.xsize.toNat * g.ysize.toNat) :
    (flip a b).Maps g (flipped a b g) ∧ Exchange.Maps (flipped a b g) q := by
  refine ⟨⟨⟨rfl, rfl, rfl, rfl⟩, rfl, rfl, rfl, h.right, h.top, by simp [flipped], fun i j hi hj => ?_⟩,
    ⟨⟨h.xmin, h.xmax, h.ymin, h.ymax⟩, h.xsize, h.ysize, h.resolution, by simp [flipped, h.size], fun i j hi hj => ?_⟩⟩
  · exact flipped_cell a b hw hi hj
  · have hi' : i < g.ysize.toNat := hi
    have hj' : j < g.xsize.toNat := hj
    have e := h.cells (g.ysize.toNat - 1 - i) j (by omega) hj'
    have f := flipped_cell a b hw (i := g.ysize.toNat - 1 - i) (by omega) hj'
    rw [show g.ysize.toNat - 1 - (g.ysize.toNat - 1 - i) = i by omega] at e f
    rw [e, f]

/-- the pose between the flip and the exchange -/
noncomputable def between (a b : ℝ) (p : V3 ℝ) : V3 ℝ := ⟨b + p.c0, a - p.c1, -p.c2⟩

theorem flip_poses {a b : ℝ} {p q : V3 ℝ} (h : Poses a b p q) :
    (flip a b).Poses p (between a b p) ∧ Exchange.Poses (between a b p) q := by
  obtain ⟨h0, h1, h2⟩ := h
  refine ⟨by simp [Mirror.Poses, flip, Mirror.sx, Mirror.sy, between, sub_eq_add_neg], h0, h1, ?_, ?_⟩
  · rw [h2, Real.cos_add_pi_div_two]; simp [between]
  · rw [h2, Real.sin_add_pi_div_two]; simp [between]

theorem flip_rect {a b : ℝ} {g q : GridMap ℝ} (h : Maps a b g q) {p p' : V3 ℝ} (hp : (flip a b).Poses p p')
    (hr : InRect g p.c0 p.c1) : InRect (flipped a b g) p'.c0 p'.c1 := by
  obtain ⟨h0, h1, -, -⟩ := hp
  obtain ⟨r0, r1, r2, r3⟩ := hr
  have t := h.top
  simp only [flip, Mirror.sx, Mirror.sy] at h0 h1
  norm_num at h0 h1
  simp only [InRect, flipped]
  rw [h0, h1]
  refine ⟨by linarith, by linarith, by linarith, by linarith⟩

end Quarter

/-- C133: after a quarter turn of the map and the pose, the collision check and the distance query give the same
answer. -/
theorem C133_quarter_check {a b : ℝ} {g q : GridMap ℝ} (h : Quarter.Maps a b g q) {c : Collision ℝ} (hs : Sensible c g)
    {p p' : V3 ℝ} (hp : Quarter.Poses a b p p') (hc : Quarter.Clear g p) :
    c.collisionCheck q p' = c.collisionCheck g p ∧ c.minDistance q p' = c.minDistance g p := by
  obtain ⟨m1, m2⟩ := Quarter.flip_maps a b h hs.wf.size
  obtain ⟨p1, p2⟩ := Quarter.flip_poses hp
  have c1 := C132_check (Quarter.flip a b) m1 hs p1 ⟨hc.1, fun h => (by cases h), fun _ => hc.2⟩
  have c2 := C133_check m2 (Mirror.maps_sensible m1 hs) p2 (Quarter.flip_rect h p1 hc.1)
  exact ⟨c2.1.trans c1.1, c2.2.trans c1.2⟩

/-- C133: after a quarter turn the same twists pass validation. -/
theorem C133_quarter_validate {a b : ℝ} {g q : GridMap ℝ} (h : Quarter.Maps a b g q) {c : Collision ℝ}
    (hs : Sensible c g) {x x' : V3 ℝ} (hx : Quarter.Poses a b x x') (u : V3 ℝ) (dt horizon : ℝ)
    (hc : ∀ k n, numSteps horizon dt = .ok n → k < n.toNat → Quarter.Clear g (poseAfter u dt x (k + 1))) :
    validateControl c q x' u dt horizon = validateControl c g x u dt horizon := by
  obtain ⟨m1, m2⟩ := Quarter.flip_maps a b h hs.wf.size
  obtain ⟨p1, p2⟩ := Quarter.flip_poses hx
  have c1 := C132_validate (Quarter.flip a b) m1 hs p1 u dt horizon fun k n hn hk =>
    ⟨(hc k n hn hk).1, fun h => (by cases h), fun _ => (hc k n hn hk).2⟩
  have c2 := C133_validate m2 (Mirror.maps_sensible m1 hs) p2 ((Quarter.flip a b).twist u) dt horizon
    fun n hn k hk _ => Quarter.flip_rect h (Mirror.poseAfter_mirror u dt (k + 1) p1) (hc k n hn hk).1
  rw [Quarter.twist_turn] at c2
  exact c2.trans c1

/-- Case for `C133_quarter_check`, and `C133_quarter_validate` for a robot that stands still: four cells in a row, the
first occupied, become four cells in a column, the lowest occupied; the robot is in the third. -/
example : ∃ (q : GridMap ℝ) (p' : V3 ℝ), Quarter.Maps 1 0 (rowGrid 4 [100, 0, 0, 0]) q ∧
    Sensible ⟨0, 1, 1, 4 / 5⟩ (rowGrid 4 [100, 0, 0, 0]) ∧ Quarter.Poses 1 0 ⟨5 / 2, 1 / 2, 0⟩ p' ∧
    Quarter.Clear (rowGrid 4 [100, 0, 0, 0]) ⟨5 / 2, 1 / 2, 0⟩ ∧
    Occupied (4 / 5 : ℝ) (rowGrid 4 [100, 0, 0, 0]) 0 0 := by
  have e4 : (4 : UInt32).toNat = 4 := rfl
  have e1 : (1 : UInt32).toNat = 1 := rfl
  refine ⟨{ rowGrid 4 [100, 0, 0, 0] with xmin := 0, xmax := 1, ymin := 0, ymax := 4, xsize := 1, ysize := 4 },
    ⟨1 / 2, 5 / 2, Real.pi / 2⟩, ⟨?_, ?_, ?_, ?_, rfl, rfl, rfl, ?_, ?_, rfl, fun i j hi hj => ?_⟩,
    row_sensible (by decide) (by decide) rfl (by norm_num) (by norm_num), ⟨?_, ?_, ?_⟩,
    ⟨by simp only [InRect, rowGrid, e4, e1]; norm_num, fun n h0 h1 => ?_⟩, row_full (j := 0) (by decide) rfl⟩
  · norm_num [rowGrid]
  · norm_num [rowGrid]
  · norm_num [rowGrid]
  · norm_num [rowGrid, e4]
  · norm_num [rowGrid, e4]
  · norm_num [rowGrid, e1]
  · have hi' : i < 1 := hi
    have : i = 0 := by omega
    subst this
    simp only [cellAt, rowGrid, e1, e4]
    norm_num
  · norm_num
  · norm_num
  · norm_num
  · have : n < 1 := h1
    omega

end Ergodic
