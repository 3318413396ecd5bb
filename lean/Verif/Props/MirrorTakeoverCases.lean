import Verif.Props.MirrorTakeover
import Verif.Props.MirrorCases

/-!
# Property C132, continued: cases and limits of window searches in the mirror

Exact arithmetic.
-/

namespace Ergodic
open Real

namespace Mirror
variable {m : Mirror}

theorem passes_steered {s : Expl ℝ} (hs : Sensible s.collision s.grid) (h : m.Passes s) : m.Steered s where
  sensible := hs
  seen := fun n hn k hk _ => h.2 k n hn hk
  window := fun h' => by rw [h.1] at h'; cases h'
  follow := fun h' => by rw [h.1] at h'; cases h'
  track := fun h' => by rw [h.1] at h'; cases h'

theorem replan_keeps {s t : Expl ℝ} {draws : List Nat} {o : List (Out ℝ)} (h : s.replan draws = .ok (t, o)) :
    t.collision = s.collision ∧ t.grid = s.grid := by
  unfold Expl.replan at h
  split at h
  · cases h; exact ⟨rfl, rfl⟩
  · obtain ⟨⟨ec, u⟩, -, h⟩ := Res.bind_eq_ok.mp h
    obtain ⟨p, -, h⟩ := Res.bind_eq_ok.mp h
    cases h; exact ⟨rfl, rfl⟩

/-- The histories of `C132_run`, of which `MirrorCases` shows one, are among those of `C132_history`. -/
theorem undisturbed_governed : ∀ {es : List (Event ℝ)} {s : Expl ℝ}, m.Undisturbed s es → m.Governed s es
  | [], _, _ => trivial
  | ev :: es, s, ⟨h1, h2⟩ => by
    refine ⟨fun tf draws he hr hk => ?_, fun t o ht => undisturbed_governed (h2 t o ht)⟩
    obtain ⟨q1, q2, q3⟩ := h1 tf draws he hr hk
    refine ⟨q1, fun t o ht => passes_steered ?_ (q3 t o ht)⟩
    obtain ⟨k1, k2⟩ := replan_keeps ht
    have e1 : (s.localize tf).advanceDwa.collision = s.collision ∧ (s.localize tf).advanceDwa.grid = s.grid := by
      have : (s.localize tf).collision = s.collision ∧ (s.localize tf).grid = s.grid := by
        cases tf <;> exact ⟨rfl, rfl⟩
      rw [← this.1, ← this.2]
      unfold Expl.advanceDwa
      split <;> exact ⟨rfl, rfl⟩
    rw [k1, k2, e1.1, e1.2]
    exact q2

end Mirror

/-- Safe in the first cell of the gallery, too close to the obstacle in the second. -/
noncomputable def wardDetector : Collision ℝ := ⟨100, 200, 50, 4 / 5⟩

/-- Forward or backward, left or right, no rotation. -/
noncomputable def wardWindow : DynamicWindow ℝ :=
  { collision := wardDetector, dt := 1, horizon := 2, acc_dt := 1, acc_lim_x := 1, acc_lim_y := 1, acc_lim_th := 0,
    max_vel_x := 1, min_vel_x := -1, max_vel_y := 1, min_vel_y := -1, max_rot_vel := 0, min_rot_vel := 0,
    vx_samples := 2, vy_samples := 2, vth_samples := 1, steps := 2 }

theorem ward_sensible : Sensible wardDetector (mapOf galleryMsg) where
  wf := ⟨by decide, by decide⟩
  res := by norm_num [mapOf, galleryMsg]
  x0 := by show (3 : UInt32) ≠ 0; decide
  y0 := by show (1 : UInt32) ≠ 0; decide
  xsize := by show (3 : UInt32).toNat ≤ _; decide
  ysize := by show (1 : UInt32).toNat ≤ _; decide
  bnd := by norm_num [wardDetector]
  obs := by norm_num [wardDetector]
  order := by norm_num [wardDetector]
  search := by norm_num [wardDetector, mapOf, galleryMsg]
  col := by norm_num [wardDetector, mapOf, galleryMsg]

theorem ward_samples {v : V3 ℝ} (h : IsSample wardWindow ⟨0, 0, 0⟩ v) :
    (v.c0 = -1 ∨ v.c0 = 1) ∧ (v.c1 = -1 ∨ v.c1 = 1) ∧ v.c2 = 0 := by
  obtain ⟨i, hi, j, hj, k, hk, e0, e1, e2⟩ := (C55_grid _ _ _).mp h
  have n2 : (2 : UInt32).toNat = 2 := rfl
  have hi : i < 2 := hi
  have hj : j < 2 := hj
  simp only [wardWindow, n2] at e0 e1 e2
  norm_num at e0 e1 e2
  refine ⟨?_, ?_, e2⟩
  · interval_cases i
    · left; rw [e0]; norm_num
    · right; rw [e0]; norm_num
  · interval_cases j
    · left; rw [e1]; norm_num
    · right; rw [e1]; norm_num

theorem straight_step {x v : V3 ℝ} (h : x.c2 = 0) (hv : v.c2 = 0) :
    (stepPose v 1 x).c0 = x.c0 + v.c0 ∧ (stepPose v 1 x).c1 = x.c1 + v.c1 ∧ (stepPose v 1 x).c2 = 0 := by
  have ae : almostEqual v.c2 (lit 0 0 : ℝ) = true := by
    rw [hv, real_almostEqual_eps]; norm_num [real_lit]
  have hz : normalizeAnglePI (0 : ℝ) = 0 := C13_fixed_point 0 (by linarith [Real.pi_pos]) Real.pi_pos
  unfold stepPose integrateTwist
  dsimp only
  rw [if_pos ae]
  simp only [h, transform2dAngle, M3.mulVec, V3.dot, V3.add, real_add, real_mul, real_neg, real_cos, real_sin,
    real_lit]
  norm_num
  exact hz

/-- Everything the window simulates from the first cell stays in the gallery. -/
theorem ward_seen {v : V3 ℝ} (h : IsSample wardWindow ⟨0, 0, 0⟩ v) :
    upside.Seen wardDetector (mapOf galleryMsg) v 1 2 ⟨95, 30, 0⟩ := by
  obtain ⟨h0, h1, h2⟩ := ward_samples h
  obtain ⟨a0, a1, a2⟩ := straight_step (x := ⟨95, 30, 0⟩) rfl h2
  obtain ⟨b0, b1, b2⟩ := straight_step (v := v) a2 h2
  dsimp only at a0 a1
  intro k hk _
  have : k = 0 ∨ k = 1 := by omega
  rcases this with rfl | rfl
  · show upside.Clear _ (stepPose v 1 ⟨95, 30, 0⟩)
    rcases h0 with h0 | h0 <;> rcases h1 with h1 | h1 <;> rw [h0] at a0 <;> rw [h1] at a1 <;>
      exact gallery_clear (by linarith) (by linarith) (by linarith) (by linarith)
  · show upside.Clear _ (stepPose v 1 (stepPose v 1 ⟨95, 30, 0⟩))
    rcases h0 with h0 | h0 <;> rcases h1 with h1 | h1 <;> rw [h0] at a0 b0 <;> rw [h1] at a1 b1 <;>
      exact gallery_clear (by linarith) (by linarith) (by linarith) (by linarith)

/-- The four samples differ in cost. -/
theorem ward_sole : Sole wardWindow ⟨0, 0, 0⟩ fun v =>
    wardWindow.objectiveTwist (mapOf galleryMsg) ⟨95, 30, 0⟩ ⟨10, 1, 0⟩ v := by
  intro u v c hu hv cu cv hlt _
  rcases (objectiveTwist_ok _ _ _ _ _ _).mp cu with ⟨-, cu⟩ | ⟨-, cu⟩
  · rcases (objectiveTwist_ok _ _ _ _ _ _).mp cv with ⟨-, cv⟩ | ⟨-, cv⟩
    · obtain ⟨u0, u1, u2⟩ := ward_samples hu
      obtain ⟨v0, v1, v2⟩ := ward_samples hv
      rw [cu] at cv
      obtain ⟨a, b, c⟩ := u
      obtain ⟨a', b', c'⟩ := v
      dsimp only at u0 u1 u2 v0 v1 v2
      subst u2 v2
      rcases u0 with rfl | rfl <;> rcases u1 with rfl | rfl <;> rcases v0 with rfl | rfl <;> rcases v1 with rfl | rfl <;>
        first | rfl | (exfalso; simp only [V3.sub, V3.dot, real_sub, real_add, real_mul] at cv; norm_num at cv)
    · rw [cv] at hlt; exact absurd hlt (lt_irrefl _)
  · rw [cu] at hlt; exact absurd hlt (lt_irrefl _)

/-- In the second cell the robot collides. -/
theorem ward_hit {p : V3 ℝ} (h0 : 100 < p.c0) (h1 : p.c0 < 200) (h2 : 0 ≤ p.c1) (h3 : p.c1 ≤ 100) :
    wardDetector.collisionCheck (mapOf galleryMsg) p = .ok true := by
  have hcl := gallery_clear (p := p) (by linarith) (by linarith) h2 h3
  obtain ⟨i, j, hi, hj, hc, hr⟩ := config_real _ _ ward_sensible p hcl.1
  obtain ⟨b, hb, hiff⟩ := collisionCheck_iff _ _ ward_sensible.wf p _ hc hr
  rw [hb]
  have e3 : (3 : UInt32).toNat = 3 := rfl
  have e1 : (1 : UInt32).toNat = 1 := rfl
  have hi0 : i.toNat = 0 := by have : i.toNat < 1 := hi.1; omega
  have hj1 : j.toNat = 1 := by
    have h3 : j.toNat < 3 := hi.2
    obtain ⟨x0, x1, -, -⟩ := hj
    simp only [mapOf, galleryMsg] at x0 x1
    have : j.toNat ≠ 0 := fun h => by rw [h] at x1; norm_num at x1; linarith
    have : j.toNat ≠ 2 := fun h => by rw [h] at x0; norm_num at x0; linarith
    omega
  have r1 : ⌊wardDetector.boundary_radius / (mapOf galleryMsg).resolution⌋ = 1 := by
    rw [Int.floor_eq_iff]; norm_num [wardDetector, mapOf, galleryMsg]
  have r2 : ⌊(wardDetector.boundary_radius + wardDetector.obstacle_threshold) / (mapOf galleryMsg).resolution⌋ = 1 := by
    rw [Int.floor_eq_iff]; norm_num [wardDetector, mapOf, galleryMsg]
  have r3 : ⌊wardDetector.search_radius / (mapOf galleryMsg).resolution⌋ = 2 := by
    rw [Int.floor_eq_iff]; norm_num [wardDetector, mapOf, galleryMsg]
  have hb' : b = true := hiff.mpr ⟨1, 0, ⟨1, by norm_num, by rw [r1], by rw [r3]; norm_num, by decide⟩, by
    dsimp only
    rw [hi0, hj1]
    refine ⟨by norm_num, by show (_ : Int) < (1 : UInt32).toNat; rw [e1]; norm_num, by norm_num,
      by show (_ : Int) < (3 : UInt32).toNat; rw [e3]; norm_num, 100, rfl, ?_⟩
    have : (100 : Int8).toInt = 100 := rfl
    rw [real_lt_false, this]
    norm_num [wardDetector, real_div, real_ofInt, real_lit], by
    dsimp only
    rw [r2]; norm_num⟩
  rw [hb']

/-- The twist the node follows would take it from the first cell into the second. -/
theorem ward_rejected : validateControl wardDetector (mapOf galleryMsg) ⟨95, 30, 0⟩ ⟨10, 1, 0⟩ 1 1 = .ok false := by
  have hn1 : numSteps (1 : ℝ) 1 = .ok 1 := by
    unfold numSteps
    rw [show fabs (1 /. (1 : ℝ)) = 1 by simp [fabs, real_div]]
    exact castU32_real_of (n := 1) (by norm_num) (by norm_num) (by norm_num)
  obtain ⟨a0, a1, -⟩ := straight_step (x := ⟨95, 30, 0⟩) (v := ⟨10, 1, 0⟩) rfl rfl
  dsimp only at a0 a1
  have hit := ward_hit (p := stepPose ⟨10, 1, 0⟩ 1 ⟨95, 30, 0⟩) (by rw [a0]; norm_num) (by rw [a0]; norm_num)
    (by rw [a1]; norm_num) (by rw [a1]; norm_num)
  unfold validateControl
  rw [hn1, Res.ok_bind]
  show (wardDetector.collisionCheck (mapOf galleryMsg) (stepPose ⟨10, 1, 0⟩ 1 ⟨95, 30, 0⟩)).bind _ = _
  rw [hit]
  rfl

/-- Case for `C132_samples`, `C132_search`, `C132_window` and `C132_takeover`: two nodes, one the image of the
other, follow a twist that is rejected; everything holds that the theorems ask for. -/
example (t : Target ℝ) : ∃ s s' : Expl ℝ, upside.Nodes s s' ∧ s'.vb = upside.twist s.vb ∧ s.ec.model = omniModel ∧
    s.map_received = true ∧ s.pose_known = true ∧ s.follow_dwa = true ∧ upside.Steered s ∧
    validateControl s.collision s.grid s.pose s.u s.val_dt s.val_horizon = .ok false ∧ s'.u ≠ s.u ∧ s'.pose ≠ s.pose := by
  have hn : numSteps (3 : ℝ) 1 = .ok 3 := by
    unfold numSteps
    rw [show fabs (3 /. (1 : ℝ)) = 3 by simp [fabs, real_div]]
    exact castU32_real_of (n := 3) (by norm_num) (by norm_num) (by norm_num)
  have hn1 : numSteps (1 : ℝ) 1 = .ok 1 := by
    unfold numSteps
    rw [show fabs (1 /. (1 : ℝ)) = 1 by simp [fabs, real_div]]
    exact castU32_real_of (n := 1) (by norm_num) (by norm_num) (by norm_num)
  have hnew : ∃ e, ErgodicControl.new omniModel wardDetector (1 : ℝ) 3 1 1 2 5 5 ⟨⟨1, 0, 0⟩, ⟨0, 1, 0⟩, ⟨0, 0, 1⟩⟩
      ⟨-1, -1, 0⟩ ⟨1, 1, 0⟩ = .ok e ∧ e.model = omniModel := by
    simp only [ErgodicControl.new, hn, Res.ok_bind]
    rw [if_neg (by decide)]
    exact ⟨_, rfl, rfl⟩
  obtain ⟨e, he, hm⟩ := hnew
  have hs := C132_start upside he wardDetector wardWindow t "map" "map" 1 1
  refine ⟨{ (Expl.start e wardDetector wardWindow t "map" 1 1).1 with
      map_received := true, grid := mapOf galleryMsg, pose := ⟨95, 30, 0⟩, pose_known := true, follow_dwa := true
      u := ⟨10, 1, 0⟩, vb := ⟨0, 0, 0⟩ },
    { (Expl.start e wardDetector wardWindow (upside.target t) "map" 1 1).1 with
      map_received := true, grid := mapOf galleryMsg, pose := ⟨95, 70, 0⟩, pose_known := true, follow_dwa := true
      u := ⟨10, -1, 0⟩, vb := ⟨0, 0, 0⟩ },
    { hs with
      map_received := rfl
      grid := fun _ => gallery_maps
      u := by ext <;> simp [upside, Mirror.twist, Mirror.turn, Mirror.sx, Mirror.sy]
      pose := fun _ => by
        simp only [Mirror.Poses, upside, Mirror.sx, Mirror.sy]
        norm_num
      pose_known := rfl
      follow_dwa := rfl }, ?_, hm, rfl, rfl, rfl, ?_, ward_rejected, ?_, ?_⟩
  · ext <;> simp [upside, Mirror.twist]
  · refine ⟨ward_sensible, fun n hn' => ?_, fun _ => ⟨ward_sensible, .inr ?_, fun v hv => ward_seen hv⟩, fun _ _ => ward_sole,
      fun _ h => (by cases h)⟩
    · have : numSteps (1 : ℝ) 1 = .ok n := hn'
      rw [hn1] at this
      cases this
      intro k hk _
      obtain rfl : k = 0 := by have : k < 1 := hk; omega
      obtain ⟨a0, a1, -⟩ := straight_step (x := ⟨95, 30, 0⟩) (v := ⟨10, 1, 0⟩) rfl rfl
      dsimp only at a0 a1
      show upside.Clear (mapOf galleryMsg) (stepPose ⟨10, 1, 0⟩ 1 ⟨95, 30, 0⟩)
      refine gallery_clear ?_ ?_ ?_ ?_ <;> first | (rw [a0]; norm_num) | (rw [a1]; norm_num)
    · refine ⟨by norm_num [Expl.start, wardWindow], by norm_num [Expl.start, wardWindow], .inl ?_, .inr ?_⟩
      · show 2 ≤ (2 : UInt32).toNat; decide
      · norm_num [Expl.start, wardWindow]
  · intro h
    have : (-1 : ℝ) = 1 := congrArg V3.c1 h
    norm_num at this
  · intro h
    have : (70 : ℝ) = 30 := congrArg V3.c1 h
    norm_num at this

/-! ## What is false -/

/-- C132, false with one sample: symmetric limits make the samples symmetric. -/
def C132_samples_statement : Prop := ∀ (m : Mirror) (d : DynamicWindow ℝ) (vb u : V3 ℝ),
  d.min_vel_y = -d.max_vel_y → d.min_rot_vel = -d.max_rot_vel → d.min_vel_y ≤ d.max_vel_y →
  d.min_rot_vel ≤ d.max_rot_vel → 1 ≤ d.vx_samples.toNat → 1 ≤ d.vy_samples.toNat → 1 ≤ d.vth_samples.toNat →
  IsSample d vb u → IsSample d (m.twist vb) (m.twist u)

/-- A single rotational sample is the lower end of the range: the robot at rest only ever considers turning
right, and so does its mirror image. -/
theorem C132_samples_refuted : ¬ C132_samples_statement := by
  intro h
  let d : DynamicWindow ℝ := { wardWindow with acc_lim_th := 1, max_rot_vel := 1, min_rot_vel := -1 }
  have n2 : (2 : UInt32).toNat = 2 := rfl
  have n1 : (1 : UInt32).toNat = 1 := rfl
  have hs : IsSample d ⟨0, 0, 0⟩ ⟨-1, -1, -1⟩ := by
    rw [C55_grid]
    refine ⟨0, by decide, 0, by decide, 0, by decide, ?_, ?_, ?_⟩ <;> norm_num [d, wardWindow]
  have := h upside d ⟨0, 0, 0⟩ ⟨-1, -1, -1⟩ (by norm_num [d, wardWindow]) (by norm_num [d, wardWindow])
    (by norm_num [d, wardWindow]) (by norm_num [d, wardWindow]) (by decide) (by decide) (by decide) hs
  rw [C55_grid] at this
  obtain ⟨i, -, j, -, k, hk, -, -, e⟩ := this
  have hk : k < 1 := hk
  obtain rfl : k = 0 := by omega
  norm_num [d, wardWindow, upside, Mirror.twist, Mirror.turn, Mirror.sx, Mirror.sy] at e

/-- C132, false where samples are equally cheap: the search of the window commutes with reflections. -/
def C132_window_statement : Prop := ∀ (m : Mirror) (g g' : GridMap ℝ) (d : DynamicWindow ℝ) (x x' vb vref u : V3 ℝ) (b : Bool),
  m.Maps g g' → Sensible d.collision g → m.Poses x x' → m.FairWindow d vb →
  (∀ v, IsSample d vb v → m.Seen d.collision g v d.dt d.steps.toNat x) → d.controlTwist g x vb vref = .ok (b, u) →
  d.controlTwist g' x' (m.twist vb) (m.twist vref) = .ok (b, m.twist u)

/-- In a situation that is its own mirror image the search cannot answer with a twist that is not, but left
or right are all it samples: the first of equally cheap samples wins in both worlds. -/
theorem C132_window_refuted : ¬ C132_window_statement := by
  intro h
  let d : DynamicWindow ℝ := { wardWindow with collision := galleryDetector }
  have hsam : ∀ {v : V3 ℝ}, IsSample d ⟨0, 0, 0⟩ v → (v.c0 = -1 ∨ v.c0 = 1) ∧ (v.c1 = -1 ∨ v.c1 = 1) ∧ v.c2 = 0 :=
    fun hv => ward_samples hv
  have hclear : ∀ v, IsSample d ⟨0, 0, 0⟩ v → ∀ k < d.steps.toNat,
      upside.Clear (mapOf galleryMsg) (poseAfter v d.dt ⟨95, 50, 0⟩ (k + 1)) := by
    intro v hv k hk
    obtain ⟨h0, h1, h2⟩ := hsam hv
    obtain ⟨a0, a1, a2⟩ := straight_step (x := ⟨95, 50, 0⟩) rfl h2
    obtain ⟨b0, b1, b2⟩ := straight_step (v := v) a2 h2
    dsimp only at a0 a1
    have : k < 2 := hk
    have : k = 0 ∨ k = 1 := by omega
    rcases this with rfl | rfl
    · show upside.Clear _ (stepPose v 1 ⟨95, 50, 0⟩)
      rcases h0 with h0 | h0 <;> rcases h1 with h1 | h1 <;> rw [h0] at a0 <;> rw [h1] at a1 <;>
        exact gallery_clear (by linarith) (by linarith) (by linarith) (by linarith)
    · show upside.Clear _ (stepPose v 1 (stepPose v 1 ⟨95, 50, 0⟩))
      rcases h0 with h0 | h0 <;> rcases h1 with h1 | h1 <;> rw [h0] at a0 b0 <;> rw [h1] at a1 b1 <;>
        exact gallery_clear (by linarith) (by linarith) (by linarith) (by linarith)
  have hfree : ∀ v, IsSample d ⟨0, 0, 0⟩ v → FreeRollout d (mapOf galleryMsg) ⟨95, 50, 0⟩ v :=
    fun v hv k hk => gallery_free (hclear v hv k hk)
  have hcost : ∀ v, IsSample d ⟨0, 0, 0⟩ v →
      d.objectiveTwist (mapOf galleryMsg) ⟨95, 50, 0⟩ ⟨10, 0, 0⟩ v = .ok ((10 - v.c0) ^ 2 + 1) := by
    intro v hv
    refine (objectiveTwist_ok _ _ _ _ _ _).mpr (.inl ⟨hfree v hv, ?_⟩)
    obtain ⟨-, h1, h2⟩ := hsam hv
    simp only [V3.sub, V3.dot, real_sub, real_add, real_mul, h2]
    rcases h1 with h1 | h1 <;> rw [h1] <;> ring
  obtain ⟨⟨b, u⟩, hr⟩ : ∃ r, d.controlTwist (mapOf galleryMsg) ⟨95, 50, 0⟩ ⟨0, 0, 0⟩ ⟨10, 0, 0⟩ = .ok r := by
    unfold DynamicWindow.controlTwist
    rw [searchWindow_eq]
    obtain ⟨s, hs⟩ := foldlM_consider_total
      (cost := fun v => d.objectiveTwist (mapOf galleryMsg) ⟨95, 50, 0⟩ ⟨10, 0, 0⟩ v) (visited d ⟨0, 0, 0⟩)
      (fun v hv => ⟨_, hcost v ((mem_visited d _ v).mp hv)⟩) (Flt.maxFin, V3.zero)
    rw [hs, Res.ok_bind]
    split <;> exact ⟨_, rfl⟩
  have hfix := h upside (mapOf galleryMsg) (mapOf galleryMsg) d ⟨95, 50, 0⟩ ⟨95, 50, 0⟩ ⟨0, 0, 0⟩ ⟨10, 0, 0⟩ u b gallery_maps
    gallery_sensible (by simp only [Mirror.Poses, upside, Mirror.sx, Mirror.sy]; norm_num)
    (.inr ⟨by norm_num [d, wardWindow], by norm_num [d, wardWindow], .inl (by decide), .inr (by norm_num [d, wardWindow])⟩)
    (fun v hv k hk _ => hclear v hv k hk) hr
  have t0 : upside.twist ⟨0, 0, 0⟩ = ⟨0, 0, 0⟩ := by ext <;> simp [upside, Mirror.twist]
  have t1 : upside.twist ⟨10, 0, 0⟩ = ⟨10, 0, 0⟩ := by ext <;> simp [upside, Mirror.twist]
  rw [t0, t1, hr] at hfix
  have hu : u = upside.twist u := by
    have := Res.ok.inj hfix
    exact congrArg Prod.snd this
  have hu1 : u.c1 = 0 := by
    have : u.c1 = (upside.twist u).c1 := congrArg V3.c1 hu
    simp [upside, Mirror.twist, Mirror.turn, Mirror.sx, Mirror.sy] at this
    linarith
  obtain ⟨c, k1, -, k3⟩ := searchWindow_spec d ⟨0, 0, 0⟩ _ b u hr
  rcases k3 with ⟨hc, -⟩ | ⟨-, hs, -⟩
  · have hs : IsSample d ⟨0, 0, 0⟩ ⟨-1, -1, 0⟩ := by
      rw [C55_grid]
      refine ⟨0, by decide, 0, by decide, 0, by decide, ?_, ?_, ?_⟩ <;> norm_num [d, wardWindow]
    obtain ⟨c', hc', hl⟩ := k1 _ hs
    rw [hcost _ hs] at hc'
    cases hc'
    rw [real_lt_false, hc] at hl
    have h6 := maxFin_large
    have h7 : (2 : ℝ) ^ 10 ≤ 2 ^ 1000 := pow_le_pow_right₀ (by norm_num) (by norm_num)
    rw [← real_maxFin] at h6
    generalize (Flt.maxFin : ℝ) = M at hl h6
    generalize (2 : ℝ) ^ 1000 = B at h6 h7
    norm_num at hl h7
    linarith
  · obtain ⟨-, h1, -⟩ := hsam hs
    rw [hu1] at h1
    norm_num at h1

/-- C132, false when the extent is not a multiple of the resolution of the target grid: planning in the
mirror starts from the mirrored coefficients of the target. -/
def C132_target_statement : Prop := ∀ (m : Mirror) (e e' : ErgodicControl ℝ) (g g' : GridMap ℝ), m.Controllers e e' →
  m.Fair e → m.Extent g g' → g.xmax - g.xmin ≠ 0 → g.ymax - g.ymin ≠ 0 → 0 < e.resolution →
  (almostEqual (g.xmax - g.xmin) e.basis.lx = true → almostEqual (g.ymax - g.ymin) e.basis.ly = true →
    g.xmax - g.xmin = e.basis.lx ∧ g.ymax - g.ymin = e.basis.ly) →
  Alike m.Controllers (e.configTarget g) (e'.configTarget g')

/-- The target grid starts at the lower edge and need not end at the upper one: a target in the middle of the
map is seen off to one side, and in the mirror to the same side. -/
theorem C132_target_refuted : ¬ C132_target_statement := by
  intro h
  have hn : numSteps (3 : ℝ) 1 = .ok 3 := by
    unfold numSteps
    rw [show fabs (3 /. (1 : ℝ)) = 3 by simp [fabs, real_div]]
    exact castU32_real_of (n := 3) (by norm_num) (by norm_num) (by norm_num)
  have hnew : ∃ e, ErgodicControl.new omniModel wardDetector (1 : ℝ) 3 3 1 2 5 5 ⟨⟨1, 0, 0⟩, ⟨0, 1, 0⟩, ⟨0, 0, 1⟩⟩
      ⟨-1, -1, -1⟩ ⟨1, 1, 1⟩ = .ok e ∧ (sideways 1).Fair e ∧ e.resolution = 3 ∧ e.basis = Basis.new 0 0 2 := by
    simp only [ErgodicControl.new, hn, Res.ok_bind]
    rw [if_neg (by decide)]
    refine ⟨_, rfl, .inr ?_, rfl, by simp [Basis.new, real_lit]⟩
    norm_num
  obtain ⟨e, he, hf, hres, hbas⟩ := hnew
  let t : Target ℝ := ⟨[⟨⟨1 / 2, 1 / 2⟩, ⟨⟨1, 0⟩, ⟨0, 1⟩⟩, ⟨⟨1, 0⟩, ⟨0, 1⟩⟩⟩]⟩
  have ht : (sideways 1).target t = t := by
    simp only [t, Mirror.target, List.map_cons, List.map_nil, Mirror.gaussian, Mirror.point, sideways, Mirror.turn,
      Mirror.sx, Mirror.sy]
    norm_num
  have hc := C132_fresh (sideways 1) he t
  rw [ht] at hc
  let g : GridMap ℝ := rowGrid 1 [0]
  have gx : g.xmax - g.xmin = 1 := by
    have : (1 : UInt32).toNat = 1 := rfl
    norm_num [g, rowGrid, this]
  have gy : g.ymax - g.ymin = 1 := by
    norm_num [g, rowGrid]
  have gm : g.xmin = 0 ∧ g.ymin = 0 := by
    constructor <;> norm_num [g, rowGrid]
  have hE : (sideways 1).Extent g g := by
    constructor <;> norm_num [sideways] <;> linarith [gm.1, gm.2]
  have hne : ¬ almostEqual (1 : ℝ) 0 = true := by rw [real_almostEqual_eps]; norm_num
  have hlx : (e.setTarget t).basis.lx = 0 := by show e.basis.lx = 0; rw [hbas]; rfl
  have key := h (sideways 1) _ _ g g hc hf hE (by rw [gx]; norm_num) (by rw [gy]; norm_num)
    (by show 0 < e.resolution; rw [hres]; norm_num) (fun a => by rw [gx, hlx] at a; exact absurd a hne)
  have hax : axisLength (lit 0 0) (1 : ℝ) 3 = .ok 0 := by
    unfold axisLength
    have : Flt.round (((1 : ℝ) -. lit 0 0) /. 3) = 0 := by
      simp only [real_sub, real_div, real_round, real_lit]
      unfold realRound
      norm_num
    rw [this]
    exact castU32_real_of (n := 0) (by norm_num) (by norm_num) (by norm_num)
  have hgrid : ErgodicControl.phiGrid (1 : ℝ) 1 3 = .ok [⟨0, 0⟩] := by
    unfold ErgodicControl.phiGrid
    rw [hax, Res.ok_bind]
    have z : (lit 0 0 : ℝ) = 0 := by simp [real_lit]
    have e1 : ((0 : UInt32) + 1).toNat = 1 := rfl
    have e2 : (((0 : UInt32) + 1) * (0 + 1)).toNat = 1 := rfl
    simp only [Res.ok_bind, e1, e2]
    rw [if_neg (by norm_num), z]
    rfl
  have hcfg : ∃ c, (e.setTarget t).configTarget g = .ok c ∧ c.basis.k = Basis.numbers 2 ∧ c.phik[1]? = some 1 := by
    unfold ErgodicControl.configTarget
    simp only [real_sub, gx, gy, hlx]
    rw [if_neg (by rw [Bool.and_eq_true]; exact fun h => hne h.1)]
    have hr : (e.setTarget t).resolution = 3 := hres
    rw [hr, hgrid, Res.ok_bind]
    have hval : (0 : ℝ) < t.evaluate ⟨0, 0⟩ ⟨g.xmin, g.ymin⟩ := by
      simp only [t, Target.evaluate, List.foldl_cons, List.foldl_nil, real_add, real_lit, Gaussian.evalTrans, Gaussian.expForm, real_exp]
      norm_num
      positivity
    have hfill : (e.setTarget t).target.fill ⟨g.xmin, g.ymin⟩ [⟨0, 0⟩] = [1] := by
      show t.fill _ _ = _
      unfold Target.fill
      simp only [List.map_cons, List.map_nil, fsum_real, List.sum_cons, List.sum_nil, add_zero, real_div]
      rw [div_self hval.ne']
    rw [hfill]
    unfold Basis.spatialCoeff
    rw [if_neg (by norm_num), Res.ok_bind]
    refine ⟨_, rfl, by show e.basis.k = _; rw [hbas]; rfl, ?_⟩
    show (List.map _ e.basis.k)[1]? = some 1
    rw [hbas]
    simp [Basis.new, Basis.numbers, List.range_succ, Basis.fk, fsum_real, real_mul, real_cos]
  obtain ⟨c, h1, h2, h3⟩ := hcfg
  rw [h1] at key
  have hp := congrArg (fun l => l[1]?) (show c.phik = _ from key.phik)
  rw [h3, h2, List.getElem?_zipWith, h3] at hp
  simp [Basis.numbers, List.range_succ, Mirror.sign, sideways] at hp
  norm_num at hp

end Ergodic
