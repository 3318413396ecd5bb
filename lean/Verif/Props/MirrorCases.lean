import Verif.Props.MirrorWorld
import Verif.Props.ErgodicControl

/-!
# Property C132, continued: where mirrored histories begin, a case, and what is false
-/

namespace Ergodic
open Real

namespace Mirror

theorem zip_zero (m : Mirror) : ∀ (ks : List (Int × Int)) (n : Nat), ks.length = n →
    List.zipWith (fun k p => m.sign k * p) ks (List.replicate n (0 : ℝ)) = List.replicate n 0
  | [], n, h => by subst h; rfl
  | k :: ks, n, h => by
    subst h
    rw [List.length_cons, List.replicate_succ, List.zipWith_cons_cons, zip_zero m ks _ rfl, mul_zero]

end Mirror

/-- C132: a controller fresh from its constructor, given the mirrored target, is in the mirrored state. -/
theorem C132_fresh (m : Mirror) {M : TwistModel ℝ} {c : Collision ℝ} {dt H res w : ℝ} {nb bs bt : Nat} {R : M3 ℝ}
    {lo hi : V3 ℝ} {e : ErgodicControl ℝ} (h : ErgodicControl.new M c dt H res w nb bs bt R lo hi = .ok e)
    (t : Target ℝ) : m.Controllers (e.setTarget t) (e.setTarget (m.target t)) := by
  simp only [ErgodicControl.new, Res.bind_eq_ok] at h
  obtain ⟨n, -, h⟩ := h
  split at h
  · cases h
  · cases h
    refine ⟨rfl, rfl, rfl, rfl, rfl, rfl, rfl, rfl, rfl, rfl, ?_, ?_, ?_, rfl, rfl, .nil, rfl⟩
    · simp [ErgodicControl.setTarget, Mirror.twist, V3.zero, real_lit]
    · simp [ErgodicControl.setTarget, Mirror.vec, V3.zero, real_lit]
    · have z : (lit 0 0 : ℝ) = 0 := by simp [real_lit]
      simp only [ErgodicControl.setTarget, z]
      rw [m.zip_zero]
      simp [Basis.new, Basis.numbers]

/-- C132: two nodes started with the same settings, one with the mirrored target, are mirror images. -/
theorem C132_start (m : Mirror) {M : TwistModel ℝ} {c : Collision ℝ} {dt H res w : ℝ} {nb bs bt : Nat} {R : M3 ℝ}
    {lo hi : V3 ℝ} {e : ErgodicControl ℝ} (h : ErgodicControl.new M c dt H res w nb bs bt R lo hi = .ok e)
    (c' : Collision ℝ) (d : DynamicWindow ℝ) (t : Target ℝ) (f f' : String) (vdt vh : ℝ) :
    m.Nodes (Expl.start e c' d t f vdt vh).1 (Expl.start e c' d (m.target t) f' vdt vh).1 where
  ec := C132_fresh m h t
  collision := rfl
  dwa := rfl
  map_received := rfl
  grid := fun h => by cases h
  val_dt := rfl
  val_horizon := rfl
  u := by simp [Expl.start, Mirror.twist, V3.zero, real_lit]
  pose := fun h => by cases h
  pose_known := rfl
  follow_dwa := rfl
  i := rfl

/-! ## A case: a gallery of three cells, 100 m each, the last occupied, turned upside down -/

/-- upside down -/
def upside : Mirror := ⟨false, true, 0, 100⟩

/-- the gallery, which is its own image -/
def galleryMsg : OccupancyGrid ℝ := ⟨3, 1, 100, 0, 0, [0, 0, 100]⟩

/-- sees a cell far, collides only within its own -/
noncomputable def galleryDetector : Collision ℝ := ⟨1, 100, 1, 4 / 5⟩

/-- the robot below the middle of the first cell -/
noncomputable def underTf : TransformMsg ℝ := ⟨20, 30, 0, 0, 0, 1⟩
/-- and its image -/
noncomputable def overTf : TransformMsg ℝ := ⟨20, 70, 0, 0, 0, 1⟩

theorem gallery_yaw : getYaw (0 : ℝ) 0 0 1 = 0 := by
  have := C15_pure_yaw 0 1 one_ne_zero (by linarith [Real.pi_pos]) Real.pi_pos.le
  simpa using this

theorem gallery_maps : upside.Maps (mapOf galleryMsg) (mapOf galleryMsg) where
  xmin := by norm_num [upside, mapOf, galleryMsg]
  xmax := by norm_num [upside, mapOf, galleryMsg]
  ymin := by
    have : (1 : UInt32).toNat = 1 := rfl
    norm_num [upside, mapOf, galleryMsg, real_add, real_mul, real_ofInt, this]
  ymax := by
    have : (1 : UInt32).toNat = 1 := rfl
    norm_num [upside, mapOf, galleryMsg, real_add, real_mul, real_ofInt, this]
  xsize := rfl
  ysize := rfl
  resolution := rfl
  right := by simp only [mapOf, real_add, real_mul, real_ofInt]; push_cast; ring
  top := by simp only [mapOf, real_add, real_mul, real_ofInt]; push_cast; ring
  size := rfl
  cells := by
    intro i j hi hj
    have hi' : i < 1 := hi
    have : i = 0 := by omega
    subst this
    rfl

theorem gallery_sensible : Sensible galleryDetector (mapOf galleryMsg) where
  wf := ⟨by decide, by decide⟩
  res := by norm_num [mapOf, galleryMsg]
  x0 := by show (3 : UInt32) ≠ 0; decide
  y0 := by show (1 : UInt32) ≠ 0; decide
  xsize := by show (3 : UInt32).toNat ≤ _; decide
  ysize := by show (1 : UInt32).toNat ≤ _; decide
  bnd := by norm_num [galleryDetector]
  obs := by norm_num [galleryDetector]
  order := by norm_num [galleryDetector]
  search := by norm_num [galleryDetector, mapOf, galleryMsg]
  col := by norm_num [galleryDetector, mapOf, galleryMsg]

theorem gallery_poses : upside.Poses (Mirror.poseOf underTf) (Mirror.poseOf overTf) := by
  simp only [Mirror.Poses, Mirror.poseOf, underTf, overTf, gallery_yaw, upside, Mirror.sx, Mirror.sy]
  norm_num

theorem gallery_clear {p : V3 ℝ} (h0 : 0 ≤ p.c0) (h1 : p.c0 ≤ 300) (h2 : 0 ≤ p.c1) (h3 : p.c1 ≤ 100) :
    upside.Clear (mapOf galleryMsg) p := by
  have e3 : (3 : UInt32).toNat = 3 := rfl
  have e1 : (1 : UInt32).toNat = 1 := rfl
  refine ⟨?_, fun h => (by cases h), fun _ n a b => ?_⟩
  · simp only [InRect, mapOf, galleryMsg, e3, e1]
    norm_num
    exact ⟨h0, h1, h2, h3⟩
  · have : n < 1 := b
    omega

theorem gallery_free {p : V3 ℝ} (h : upside.Clear (mapOf galleryMsg) p) :
    galleryDetector.collisionCheck (mapOf galleryMsg) p = .ok false := by
  obtain ⟨i, j, -, -, hc, hr⟩ := config_real _ _ gallery_sensible p h.1
  obtain ⟨b, hb, hiff⟩ := collisionCheck_iff _ _ gallery_sensible.wf p _ hc hr
  rw [hb]
  cases b with
  | false => rfl
  | true =>
    exfalso
    obtain ⟨dx, dy, ⟨r, r1, -, -, hring⟩, -, hd⟩ := hiff.mp rfl
    have hcol : ⌊(galleryDetector.boundary_radius + galleryDetector.obstacle_threshold) /
        (mapOf galleryMsg).resolution⌋ = 0 := by
      rw [Int.floor_eq_iff]
      norm_num [galleryDetector, mapOf, galleryMsg]
    rw [hcol] at hd
    have hx : dx = 0 := by nlinarith [mul_self_nonneg dx, mul_self_nonneg dy]
    have hy : dy = 0 := by nlinarith [mul_self_nonneg dx, mul_self_nonneg dy]
    subst hx hy
    have := hring.2.1
    simp at this
    nlinarith

/-- Case for `C132_control`, `C132_iteration` and `C132_run`: an omnidirectional robot with a sensible
controller receives the gallery and plans; a target low in the gallery is high in its image. -/
example (d : DynamicWindow ℝ) (draws : List Nat) :
    ∃ e, ErgodicControl.new omniModel galleryDetector 1 3 1 1 2 5 5 ⟨⟨1, 0, 0⟩, ⟨0, 1, 0⟩, ⟨0, 0, 1⟩⟩ ⟨-1, -1, 0⟩ ⟨1, 1, 0⟩ =
      .ok e ∧ ∀ t : Target ℝ,
      upside.Nodes (Expl.start e galleryDetector d t "map" 1 1).1
        (Expl.start e galleryDetector d (upside.target t) "map" 1 1).1 ∧
      upside.Fair (Expl.start e galleryDetector d t "map" 1 1).1.ec ∧
      (Expl.start e galleryDetector d t "map" 1 1).1.ec.model = omniModel ∧
      List.Forall₂ upside.Events [.map galleryMsg, .tick (some underTf) draws]
        [.map galleryMsg, .tick (some overTf) draws] ∧
      upside.Undisturbed (Expl.start e galleryDetector d t "map" 1 1).1
        [.map galleryMsg, .tick (some underTf) draws] := by
  have hn : numSteps (3 : ℝ) 1 = .ok 3 := by
    unfold numSteps
    rw [show fabs (3 /. (1 : ℝ)) = 3 by simp [fabs, real_div]]
    exact castU32_real_of (n := 3) (by norm_num) (by norm_num) (by norm_num)
  have hn1 : numSteps (1 : ℝ) 1 = .ok 1 := by
    unfold numSteps
    rw [show fabs (1 /. (1 : ℝ)) = 1 by simp [fabs, real_div]]
    exact castU32_real_of (n := 1) (by norm_num) (by norm_num) (by norm_num)
  have hnew : ∃ e, ErgodicControl.new omniModel galleryDetector (1 : ℝ) 3 1 1 2 5 5 ⟨⟨1, 0, 0⟩, ⟨0, 1, 0⟩, ⟨0, 0, 1⟩⟩
      ⟨-1, -1, 0⟩ ⟨1, 1, 0⟩ = .ok e ∧ e.model = omniModel ∧ upside.Fair e ∧ e.basis.lx = 0 ∧ e.resolution = 1 := by
    simp only [ErgodicControl.new, hn, Res.ok_bind]
    rw [if_neg (by decide)]
    refine ⟨_, rfl, rfl, .inr ?_, by simp [Basis.new, real_lit], rfl⟩
    norm_num
  obtain ⟨e, he, hm, hf, hlx, hres⟩ := hnew
  refine ⟨e, he, fun t => ⟨C132_start upside he _ _ _ _ _ _ _, hf, hm,
    .cons (.map gallery_maps) (.cons (.tick draws gallery_poses) .nil), ?_⟩⟩
  refine ⟨fun tf dr h => (by cases h), ?_⟩
  rintro s o h
  cases h
  refine ⟨?_, fun _ _ _ => trivial⟩
  rintro tf dr h - -
  cases h
  have e3 : (3 : UInt32).toNat = 3 := rfl
  have e1 : (1 : UInt32).toNat = 1 := rfl
  have sx : (mapOf galleryMsg).xmax - (mapOf galleryMsg).xmin = 300 := by
    simp only [mapOf, galleryMsg, real_add, real_mul, real_ofInt, e3]; norm_num
  have sy : (mapOf galleryMsg).ymax - (mapOf galleryMsg).ymin = 100 := by
    simp only [mapOf, galleryMsg, real_add, real_mul, real_ofInt, e1]; norm_num
  refine ⟨⟨?_, ?_, fun h => (by cases h), fun _ => ⟨100, ?_⟩, fun h => ?_⟩, gallery_sensible, ?_⟩
  · show (mapOf galleryMsg).xmax - (mapOf galleryMsg).xmin ≠ 0
    rw [sx]; norm_num
  · show (mapOf galleryMsg).ymax - (mapOf galleryMsg).ymin ≠ 0
    rw [sy]; norm_num
  · show (mapOf galleryMsg).ymax - (mapOf galleryMsg).ymin = _ * e.resolution
    rw [sy, hres]; norm_num
  · exfalso
    have h : almostEqual ((mapOf galleryMsg).xmax - (mapOf galleryMsg).xmin) e.basis.lx = true := h
    rw [sx, hlx, real_almostEqual_eps] at h
    norm_num at h
  · intro s o h
    unfold Expl.replan at h
    rw [if_neg (by simp [Expl.advanceDwa, Expl.localize, Expl.mapCallback, Expl.start])] at h
    obtain ⟨⟨ec, u⟩, h1, h⟩ := Res.bind_eq_ok.mp h
    obtain ⟨p, -, h⟩ := Res.bind_eq_ok.mp h
    cases h
    have hb : EcBuilt omniModel galleryDetector (1 : ℝ) 3 1 1 2 5 5 ⟨⟨1, 0, 0⟩, ⟨0, 1, 0⟩, ⟨0, 0, 1⟩⟩
        ⟨-1, -1, 0⟩ ⟨1, 1, 0⟩ ((e.setTarget t).addStateMemory (Mirror.poseOf underTf)) :=
      ⟨e, he, .addStateMemory _ (.setTarget t .start)⟩
    have hbox := (C59_limits_partial _ _ _ _ _ _ _ _ _ _ _ _ _ _ _ _ _ _ hb h1).1
    have hcl : ∀ k, k < 1 → upside.Clear (mapOf galleryMsg) (poseAfter u 1 (Mirror.poseOf underTf) (k + 1)) := by
      intro k hk
      obtain rfl : k = 0 := by omega
      have hp : ∀ a : V3 ℝ, InBox ⟨-1, -1, 0⟩ a ⟨1, 1, 0⟩ → |(stepPose a 1 (Mirror.poseOf underTf)).c0 - 20| ≤ 1 ∧
          |(stepPose a 1 (Mirror.poseOf underTf)).c1 - 30| ≤ 1 := by
        have le : ∀ a b : ℝ, AtMost a b ↔ a ≤ b := by
          intro a b; simp only [AtMost, real_lt]; exact le_iff_lt_or_eq.symm
        rintro ⟨a0, a1, a2⟩ ⟨b0, b1, b2⟩
        simp only [le] at b0 b1 b2
        obtain rfl : a2 = 0 := le_antisymm b2.2 b2.1
        have ae : almostEqual (0 : ℝ) (lit 0 0 : ℝ) = true := by
          rw [real_almostEqual_eps]; norm_num [real_lit]
        unfold stepPose integrateTwist
        dsimp only
        rw [if_pos ae]
        simp only [Mirror.poseOf, underTf, gallery_yaw, transform2dAngle,
          M3.mulVec, V3.dot, V3.add, real_add, real_mul, real_neg, real_cos, real_sin, real_lit]
        norm_num
        exact ⟨abs_le.mpr b0, abs_le.mpr b1⟩
      obtain ⟨q0, q1⟩ := hp u hbox
      rw [abs_le] at q0 q1
      show upside.Clear (mapOf galleryMsg) (stepPose u 1 (Mirror.poseOf underTf))
      exact gallery_clear (by linarith) (by linarith) (by linarith) (by linarith)
    refine ⟨?_, ?_⟩
    · refine (C20_accepts_iff _ _ _ _ _ _ 1 hn1).mpr fun k hk => ?_
      exact gallery_free (hcl k hk)
    · intro k n hn' hk
      have : numSteps (1 : ℝ) 1 = .ok n := hn'
      rw [hn1] at this
      cases this
      exact hcl k hk

/-! ## What is false -/

/-- C132, false without the condition on edges: the verdict in the mirror is the same at every pose in the
map. -/
def C132_check_statement : Prop := ∀ (m : Mirror) (g g' : GridMap ℝ) (c : Collision ℝ) (p p' : V3 ℝ), m.Maps g g' →
  Sensible c g → m.Poses p p' → InRect g p.c0 p.c1 → c.collisionCheck g' p' = c.collisionCheck g p

/-- left and right exchanged about the middle of `n` metres -/
noncomputable def sideways (n : ℝ) : Mirror := ⟨true, false, n, 0⟩

/-- a row of cells of 1 m -/
def rowGrid (n : UInt32) (l : List Int8) : GridMap ℝ :=
  { xsize := n, ysize := 1, resolution := 1, xmin := 0, ymin := 0, xmax := n.toNat, ymax := 1, data := l }

theorem row_maps (n : UInt32) (l l' : List Int8) (hl : l'.length = l.length)
    (hc : ∀ j < n.toNat, l'[n.toNat - 1 - j]? = l[j]?) :
    (sideways n.toNat).Maps (rowGrid n l) (rowGrid n l') where
  xmin := by simp [sideways, rowGrid]
  xmax := by simp [sideways, rowGrid]
  ymin := by simp [sideways, rowGrid]
  ymax := by simp [sideways, rowGrid]
  xsize := rfl
  ysize := rfl
  resolution := rfl
  right := by simp [rowGrid]
  top := by
    have : (1 : UInt32).toNat = 1 := rfl
    simp [rowGrid, this]
  size := hl
  cells := by
    intro i j hi hj
    have hi' : i < 1 := hi
    obtain rfl : i = 0 := by omega
    simpa [cellAt, sideways, rowGrid] using hc j hj

theorem row_sensible {n : UInt32} {l : List Int8} (hn : n ≠ 0) (hs : n.toNat ≤ 2 ^ 30) (hl : l.length = n.toNat)
    {s : ℝ} (h0 : 0 ≤ s) (h1 : s < 32768) : Sensible ⟨0, s, 1, 4 / 5⟩ (rowGrid n l) where
  wf := by
    have : (1 : UInt32).toNat = 1 := rfl
    refine ⟨?_, ?_⟩
    · simp only [Fits, numCells, rowGrid, this]; omega
    · simp only [numCells, rowGrid, this, hl]; omega
  res := by norm_num [rowGrid]
  x0 := hn
  y0 := by show (1 : UInt32) ≠ 0; decide
  xsize := hs
  ysize := by show (1 : UInt32).toNat ≤ _; decide
  bnd := le_refl _
  obs := by norm_num
  order := h0
  search := by simpa [rowGrid] using h1
  col := by norm_num [rowGrid]

theorem row_occupied {n : UInt32} {l : List Int8} {i j : Int} (h : Occupied (4 / 5 : ℝ) (rowGrid n l) i j) :
    i = 0 ∧ 0 ≤ j ∧ j < n.toNat ∧ ∃ v : Int8, l[j.toNat]? = some v ∧ v ≠ 0 := by
  obtain ⟨h1, h2, h3, h4, v, hv, hlt⟩ := h
  have h2' : i < 1 := h2
  obtain rfl : i = 0 := by omega
  refine ⟨rfl, h3, h4, v, by simpa [cellAt, rowGrid] using hv, ?_⟩
  rintro rfl
  rw [real_lt_false, show ((0 : Int8).toInt) = 0 from by decide] at hlt
  norm_num at hlt

theorem row_full {n : UInt32} {l : List Int8} {j : Nat} (hj : j < n.toNat) (h : l[j]? = some 100) :
    Occupied (4 / 5 : ℝ) (rowGrid n l) 0 j := by
  refine ⟨le_refl _, by show (0 : Int) < ((1 : UInt32).toNat : Int); decide, by omega,
    by show (j : Int) < (n.toNat : Int); omega, 100, by simpa [cellAt, rowGrid] using h, ?_⟩
  rw [real_lt_false]
  have : ((100 : Int8).toInt) = 100 := by decide
  norm_num [this]

theorem row_poses {n x y : ℝ} : (sideways n).Poses ⟨x, y, 0⟩ ⟨n - x, y, π⟩ := by
  simp only [Mirror.Poses, sideways, Mirror.sx, Mirror.sy]
  norm_num
  ring

/-- Case for `C132_check`, `C132_direction` and `C132_validate`: four cells in a row, the first occupied, the
robot in the middle of the third. -/
example : ∃ (g g' : GridMap ℝ) (c : Collision ℝ) (p p' : V3 ℝ), (sideways 4).Maps g g' ∧ Sensible c g ∧
    (sideways 4).Poses p p' ∧ (sideways 4).Clear g p ∧ Occupied c.occupied_threshold g 0 0 := by
  have e4 : (4 : UInt32).toNat = 4 := rfl
  have e1 : (1 : UInt32).toNat = 1 := rfl
  have hm := row_maps 4 [100, 0, 0, 0] [0, 0, 0, 100] rfl (by decide)
  rw [e4] at hm
  have s1 : Sensible ⟨0, 1, 1, 4 / 5⟩ (rowGrid 4 [100, 0, 0, 0]) :=
    row_sensible (by decide) (by decide) rfl (by norm_num) (by norm_num)
  refine ⟨_, _, _, ⟨5 / 2, 1 / 2, 0⟩, _, hm, s1, row_poses, ⟨by simp only [InRect, rowGrid, e4, e1]; norm_num, ?_,
    fun h => (by cases h)⟩, row_full (j := 0) (by decide) rfl⟩
  intro _ n h0 h1 hn
  simp only [rowGrid] at hn
  have : (5 : ℝ) = ((2 * n : ℕ) : ℝ) := by push_cast; linarith
  have : 5 = 2 * n := by exact_mod_cast this
  omega

/-- C132: between the second and the third of four cells in a row the robot is taken to be in the third, in
the mirror as well: an obstacle at the left end is two cells away, at the right end one. -/
theorem C132_check_refuted : ¬ C132_check_statement := by
  intro h
  have e4 : (4 : UInt32).toNat = 4 := rfl
  have e1 : (1 : UInt32).toNat = 1 := rfl
  have hm := row_maps 4 [100, 0, 0, 0] [0, 0, 0, 100] rfl (by decide)
  rw [e4] at hm
  have s1 : Sensible ⟨0, 1, 1, 4 / 5⟩ (rowGrid 4 [100, 0, 0, 0]) := row_sensible (by decide) (by decide) rfl (by norm_num) (by norm_num)
  have s2 : Sensible ⟨0, 1, 1, 4 / 5⟩ (rowGrid 4 [0, 0, 0, 100]) := row_sensible (by decide) (by decide) rfl (by norm_num) (by norm_num)
  have := h _ _ _ _ ⟨2, 1 / 2, 0⟩ ⟨_, _, _⟩ hm s1 row_poses (by simp only [InRect, rowGrid, e4, e1]; norm_num)
  rw [show ((4 : ℕ) : ℝ) - 2 = 2 by norm_num] at this
  have w : ∀ (l : List Int8), (rowGrid 4 l).world2Grid 2 (1 / 2) = .ok (0, 2) := by
    intro l
    refine C08_half_open_exact _ (by norm_num [rowGrid]) _ _ _ _ ⟨by show (0 : UInt32).toNat < (1 : UInt32).toNat; decide, by show (2 : UInt32).toNat < (4 : UInt32).toNat; decide⟩ ?_
    have e2 : (2 : UInt32).toNat = 2 := rfl
    have e0 : (0 : UInt32).toNat = 0 := rfl
    simp only [InHalfOpenCell, rowGrid, e2, e0]
    norm_num
  obtain ⟨c1, r1⟩ := config_of_cell ⟨0, 1, 1, 4 / 5⟩ _ s1 ⟨2, 1 / 2, 0⟩ 0 2 (w _) (by decide) (by decide)
  obtain ⟨c2, r2⟩ := config_of_cell ⟨0, 1, 1, 4 / 5⟩ _ s2 ⟨2, 1 / 2, π⟩ 0 2 (w _) (by decide) (by decide)
  obtain ⟨b1, h1, i1⟩ := collisionCheck_iff _ _ s1.wf _ _ c1 r1
  obtain ⟨b2, h2, i2⟩ := collisionCheck_iff _ _ s2.wf _ _ c2 r2
  have f2 : b2 = true := by
    refine i2.mpr ⟨1, 0, ⟨1, le_refl _, ?_, ?_, by decide⟩, ?_, ?_⟩
    · simp [rowGrid]
    · simp [rowGrid]
    · exact row_full (j := 3) (by decide) rfl
    · simp [rowGrid]
  have f1 : b1 = false := by
    cases b1 with
    | false => rfl
    | true =>
      exfalso
      obtain ⟨dx, dy, -, ho, hd⟩ := i1.mp rfl
      obtain ⟨-, j0, j1, v, hv, hne⟩ := row_occupied ho
      have e2 : (2 : UInt32).toNat = 2 := rfl
      simp only [e2, e4] at j0 j1 hv
      simp [rowGrid] at hd
      have : dx = -2 := by
        by_contra hdx
        obtain rfl | rfl | rfl : dx = -1 ∨ dx = 0 ∨ dx = 1 := by push_cast at j0 j1; omega
        all_goals simp at hv; exact hne hv.symm
      subst this
      nlinarith [mul_self_nonneg dy]
  rw [h1, h2, f1, f2] at this
  cases this

/-- C132, false because ties are broken by order: the displacement to the nearest obstacle is mirrored. -/
def C132_direction_statement : Prop := ∀ (m : Mirror) (g g' : GridMap ℝ) (c : Collision ℝ) (p p' : V3 ℝ) (v : V2 ℝ),
  m.Maps g g' → Sensible c g → m.Poses p p' → m.Clear g p → c.minDirection g p = .ok (.obstacle, v) →
  c.minDirection g' p' = .ok (.obstacle, ⟨m.sx * v.c0, m.sy * v.c1⟩)

/-- C132: half-way between two obstacles the robot is sent to the same side in the mirror. -/
theorem C132_direction_refuted : ¬ C132_direction_statement := by
  intro h
  have e5 : (5 : UInt32).toNat = 5 := rfl
  have e1 : (1 : UInt32).toNat = 1 := rfl
  have hm := row_maps 5 [100, 0, 0, 0, 100] [100, 0, 0, 0, 100] rfl (by decide)
  rw [e5] at hm
  have s1 : Sensible ⟨0, 2, 1, 4 / 5⟩ (rowGrid 5 [100, 0, 0, 0, 100]) :=
    row_sensible (by decide) (by decide) rfl (by norm_num) (by norm_num)
  have w : (rowGrid 5 [100, 0, 0, 0, 100]).world2Grid (5 / 2) (1 / 2) = .ok (0, 2) := by
    refine C08_half_open_exact _ (by norm_num [rowGrid]) _ _ _ _ ⟨by show (0 : UInt32).toNat < (1 : UInt32).toNat; decide, by show (2 : UInt32).toNat < (5 : UInt32).toNat; decide⟩ ?_
    have e2 : (2 : UInt32).toNat = 2 := rfl
    have e0 : (0 : UInt32).toNat = 0 := rfl
    simp only [InHalfOpenCell, rowGrid, e2, e0]
    norm_num
  obtain ⟨c1, r1⟩ := config_of_cell ⟨0, 2, 1, 4 / 5⟩ _ s1 ⟨5 / 2, 1 / 2, 0⟩ 0 2 w (by decide) (by decide)
  obtain ⟨b, d, v, -, -, hv, hV⟩ := C28_agree _ _ s1.wf _ _ c1 r1
  have hcl : (sideways (5 : ℕ)).Clear (rowGrid 5 [100, 0, 0, 0, 100]) ⟨5 / 2, 1 / 2, 0⟩ := by
    refine ⟨by simp only [InRect, rowGrid, e5, e1]; norm_num, fun _ n h0 h1 => ?_, fun h => (by cases h)⟩
    simp only [rowGrid]
    intro hn
    have : (5 : ℝ) = ((2 * n : ℕ) : ℝ) := by push_cast; linarith
    have : 5 = 2 * n := by exact_mod_cast this
    omega
  have e2 : (2 : UInt32).toNat = 2 := rfl
  have off : ∀ dx dy : Int, Occupied (4 / 5 : ℝ) (rowGrid 5 [100, 0, 0, 0, 100]) (((0 : UInt32).toNat : Int) + dy)
      (((2 : UInt32).toNat : Int) + dx) → dx = 2 ∨ dx = -2 := by
    intro dx dy ho
    obtain ⟨-, j0, j1, u, hu, hne⟩ := row_occupied ho
    simp only [e2, e5] at j0 j1 hu
    by_contra hdx
    obtain rfl | rfl | rfl : dx = -1 ∨ dx = 0 ∨ dx = 1 := by push_cast at j0 j1; omega
    all_goals simp at hu; exact hne hu.symm
  cases hV with
  | crash dx dy a1 a2 a3 =>
    simp [rowGrid] at a3
    rcases off dx dy a2 with rfl | rfl <;> nlinarith [mul_self_nonneg dy]
  | none a1 =>
    refine a1 2 0 ⟨2, by norm_num, ?_, ?_, by decide⟩ (row_full (j := 4) (by decide) rfl)
    · simp [rowGrid]
    · simp [rowGrid]
  | obstacle dx dy a1 a2 a3 a4 =>
    have k := h _ _ _ _ _ _ _ hm s1 row_poses hcl hv
    have e : (⟨0, 2, 1, 4 / 5⟩ : Collision ℝ).minDirection (rowGrid 5 [100, 0, 0, 0, 100]) ⟨((5 : ℕ) : ℝ) - 5 / 2, 1 / 2, π⟩ =
        (⟨0, 2, 1, 4 / 5⟩ : Collision ℝ).minDirection (rowGrid 5 [100, 0, 0, 0, 100]) ⟨5 / 2, 1 / 2, 0⟩ := by
      rw [show ((5 : ℕ) : ℝ) - 5 / 2 = 5 / 2 by norm_num]
      rfl
    rw [e, hv] at k
    simp only [Res.ok.injEq, Prod.mk.injEq, V2.mk.injEq, sideways, Mirror.sx, rowGrid, real_mul, real_ofInt] at k
    rcases off dx dy a2 with rfl | rfl <;> norm_num at k

end Ergodic
