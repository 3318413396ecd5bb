import Verif.Spec.Caution
import Verif.Props.DynamicWindow
import Verif.Props.Validate

/-!
# Property C136: more cautious settings

Exact arithmetic, except for `C136_horizon`.
-/

namespace Ergodic

/-- C136: what collides, collides with more cautious settings. -/
theorem C136_check {c c' : Collision ℝ} (h : Warier c c') {g : GridMap ℝ} (hs : Sensible c g) (hs' : Sensible c' g)
    {x : V3 ℝ} (hx : InRect g x.c0 x.c1) (hc : c.collisionCheck g x = .ok true) : c'.collisionCheck g x = .ok true := by
  obtain ⟨i, j, hw, hij, -⟩ := C08_rect_covered g hs.res hs.x0 hs.y0 _ _ hx
  obtain ⟨hcfg, hr⟩ := config_of_cell c g hs x i j hw (by have := hij.1; have := hs.ysize; omega)
    (by have := hij.2; have := hs.xsize; omega)
  obtain ⟨hcfg', hr'⟩ := config_of_cell c' g hs' x i j hw (by have := hij.1; have := hs.ysize; omega)
    (by have := hij.2; have := hs.xsize; omega)
  rw [C26_exact_partial c g hs.wf x _ hcfg hr] at hc
  rw [C26_exact_partial c' g hs.wf x _ hcfg' hr']
  obtain ⟨k, l, r, ho, h1, h2, h3, h4, h5⟩ := hc
  have res := hs.res
  refine ⟨k, l, r, ?_, h1, le_trans (Int.floor_mono (div_le_div_of_nonneg_right h.inner res.le)) h2,
    le_trans h3 (Int.floor_mono (div_le_div_of_nonneg_right h.search res.le)), h4, le_trans h5 ?_⟩
  · obtain ⟨a1, a2, a3, a4, v, hv, hlt⟩ := ho
    refine ⟨a1, a2, a3, a4, v, hv, ?_⟩
    rw [real_lt_false] at hlt ⊢
    exact le_trans h.level hlt
  · have e := Int.floor_mono (div_le_div_of_nonneg_right h.outer res.le)
    have e0 : 0 ≤ ⌊(c.boundary_radius + c.obstacle_threshold) / g.resolution⌋ :=
      Int.floor_nonneg.mpr (div_nonneg (add_nonneg hs.bnd hs.obs) res.le)
    exact mul_le_mul e e e0 (le_trans e0 e)

/-- C136: what is clear with more cautious settings, is clear. -/
theorem C136_clear {c c' : Collision ℝ} (h : Warier c c') {g : GridMap ℝ} (hs : Sensible c g) (hs' : Sensible c' g)
    {x : V3 ℝ} (hx : InRect g x.c0 x.c1) (hc : c'.collisionCheck g x = .ok false) : c.collisionCheck g x = .ok false := by
  obtain ⟨b, hb⟩ := (C30_no_failure c g hs x hx).1
  cases b with
  | false => exact hb
  | true => rw [C136_check h hs hs' hx hb] at hc; cases hc

/-- C136, in every arithmetic: a control accepted over a number of steps is accepted over fewer. -/
theorem C136_horizon {F : Type} [Flt F] (c : Collision F) (g : GridMap F) (x u : V3 F) (dt a b : F) (m n : UInt32)
    (hm : numSteps a dt = .ok m) (hn : numSteps b dt = .ok n) (hmn : m.toNat ≤ n.toNat)
    (h : validateControl c g x u dt b = .ok true) : validateControl c g x u dt a = .ok true := by
  rw [C20_accepts_iff c g x u dt b n hn] at h
  rw [C20_accepts_iff c g x u dt a m hm]
  exact fun k hk => h k (lt_of_lt_of_le hk hmn)

/-- C136: a control accepted with more cautious settings is accepted. -/
theorem C136_validate {c c' : Collision ℝ} (h : Warier c c') {g : GridMap ℝ} (hs : Sensible c g)
    (hs' : Sensible c' g) (x u : V3 ℝ) (dt a : ℝ) (n : UInt32) (hn : numSteps a dt = .ok n)
    (hin : ∀ k < n.toNat, InRect g (poseAfter u dt x (k + 1)).c0 (poseAfter u dt x (k + 1)).c1)
    (hv : validateControl c' g x u dt a = .ok true) : validateControl c g x u dt a = .ok true := by
  rw [C20_accepts_iff _ g x u dt a n hn] at hv ⊢
  exact fun k hk => C136_clear h hs hs' (hin k hk) (hv k hk)

/-- C136: when the search succeeds with more cautious settings over a longer horizon, it succeeds without them,
and the twist it returns is at least as close to the reference. -/
theorem C136_window {d d' : DynamicWindow ℝ} (h : WarierWindow d d') {g : GridMap ℝ} (hs : Sensible d.collision g)
    (hs' : Sensible d'.collision g) (x vb vref u' : V3 ℝ)
    (hin : ∀ v, IsSample d vb v → ∀ k < d.steps.toNat,
      InRect g (poseAfter v d.dt x (k + 1)).c0 (poseAfter v d.dt x (k + 1)).c1)
    (hb : ∀ v, IsSample d vb v → twistErrSq vref v ≤ 2 ^ 1000)
    (hc : d'.controlTwist g x vb vref = .ok (true, u')) :
    ∃ u, d.controlTwist g x vb vref = .ok (true, u) ∧ twistErrSq vref u ≤ twistErrSq vref u' := by
  obtain ⟨hf, hu', -⟩ := C56_nearest d' g x vb vref u' hc
  have hsm : IsSample d vb u' := by rw [h.rest] at hu'; exact hu'
  have hdt : d'.dt = d.dt := by rw [h.rest]
  have hfree : FreeRollout d g x u' := fun k hk => by
    have := hf k (lt_of_lt_of_le hk h.steps)
    rw [hdt] at this
    exact C136_clear h.collision hs hs' (hin u' hsm k hk) this
  obtain ⟨b, u, hd⟩ := C57_total d g hs x vb vref hin
  have hbt : b = true := by
    by_contra hne
    exact not_free_of_hit ((C57_false_iff_partial d g x vb vref hb b u hd).1.mp (by simpa using hne) u' hsm) hfree
  subst hbt
  exact ⟨u, hd, (C56_nearest d g x vb vref u hd).2.2 u' hsm hfree⟩

/-! ## A larger robot -/

/-- The statement that a larger robot, all else equal, collides wherever the smaller one does. -/
def C136_wider_statement : Prop :=
  ∀ (c : Collision ℝ) (g : GridMap ℝ) (b : ℝ) (x : V3 ℝ), Sensible c g →
    Sensible { c with boundary_radius := b } g → c.boundary_radius ≤ b → InRect g x.c0 x.c1 →
    c.collisionCheck g x = .ok true → ({ c with boundary_radius := b } : Collision ℝ).collisionCheck g x = .ok true

/-- `gapDetector` for a robot of three cells -/
noncomputable def bigDetector : Collision ℝ := { gapDetector with boundary_radius := 3 }

theorem gap_sensible_wall : Sensible gapDetector wallGrid := by
  refine ⟨⟨by decide, by decide⟩, ?_, by decide, by decide, by decide, by decide, ?_, ?_, ?_, ?_, ?_⟩ <;>
    norm_num [gapDetector, wallGrid, cornerGrid]

theorem big_sensible : Sensible bigDetector wallGrid := by
  refine ⟨⟨by decide, by decide⟩, ?_, by decide, by decide, by decide, by decide, ?_, ?_, ?_, ?_, ?_⟩ <;>
    norm_num [bigDetector, gapDetector, wallGrid, cornerGrid]

theorem big_config : bigDetector.config wallGrid ⟨1.5, 1.5, 0⟩ =
    .ok { r_bnd := 3, r_col := 5, r_max := 3, cx := 1, cy := 1 } := by
  have hw := C08_half_open_exact wallGrid (by norm_num [wallGrid, cornerGrid]) 1.5 1.5 1 1 (by decide)
    (by simp only [InHalfOpenCell, wallGrid, cornerGrid, UInt32.toNat_ofNat]; norm_num)
  have e1 := castI32_floor (x := (3:ℝ)/1) (by norm_num) (by norm_num)
  have e2 := castI32_floor (x := ((3:ℝ)+2)/1) (by norm_num) (by norm_num)
  simp only [Collision.config, hw, Res.ok_bind]
  simp only [bigDetector, gapDetector, wallGrid, cornerGrid, real_div, real_add, e1, e2, Res.ok_bind]
  norm_num
  decide

/-- The larger robot overlaps the wall and sees nothing. -/
theorem big_clear : bigDetector.collisionCheck wallGrid ⟨1.5, 1.5, 0⟩ = .ok false := by
  refine C26_interior_unseen _ _ ⟨by decide, by decide⟩ _ _ big_config (by constructor <;> decide) (by decide) ?_
  rintro i j ⟨h1, h2, h3, h4, -⟩
  have h2 : i < 3 := h2
  have h4 : j < 3 := h4
  have a : i = 0 ∨ i = 1 ∨ i = 2 := by omega
  have b : j = 0 ∨ j = 1 ∨ j = 2 := by omega
  rcases a with rfl | rfl | rfl <;> rcases b with rfl | rfl | rfl <;> decide

/-- C136 is false for the size of the robot alone: with a larger boundary radius the search begins farther out, and
the wall next to the robot is no longer seen. -/
theorem C136_wider_refuted : ¬ C136_wider_statement := by
  intro h
  have := h gapDetector wallGrid 3 ⟨1.5, 1.5, 0⟩ gap_sensible_wall big_sensible (by norm_num [gapDetector])
    (by simp only [InRect, wallGrid, cornerGrid, UInt32.toNat_ofNat]; norm_num) wall_collides
  rw [show ({ gapDetector with boundary_radius := 3 } : Collision ℝ) = bigDetector from rfl, big_clear] at this
  cases this

/-! ## The hypotheses are met -/

/-- A more cautious `gapDetector` -/
noncomputable def waryDetector : Collision ℝ := ⟨0, 4, 3, 1/2⟩

theorem wary_sensible : Sensible waryDetector wallGrid := by
  refine ⟨⟨by decide, by decide⟩, ?_, by decide, by decide, by decide, by decide, ?_, ?_, ?_, ?_, ?_⟩ <;>
    norm_num [waryDetector, wallGrid, cornerGrid]

theorem wary_warier : Warier gapDetector waryDetector := by
  constructor <;> norm_num [gapDetector, waryDetector]

/-- C136_check applies to the collision with the wall. -/
example : waryDetector.collisionCheck wallGrid ⟨1.5, 1.5, 0⟩ = .ok true :=
  C136_check wary_warier gap_sensible_wall wary_sensible
    (by simp only [InRect, wallGrid, cornerGrid, UInt32.toNat_ofNat]; norm_num) wall_collides

/-- A robot with more cautious settings than `dwaRobot` and a horizon of eight steps instead of five -/
noncomputable def waryRobot : DynamicWindow ℝ :=
  { dwaRobot 1 8 0.1 with collision := ⟨0.7, 2, 0.5, 0.5⟩, horizon := 0.8 }

theorem waryRobot_sensible : Sensible waryRobot.collision unknownMap := by
  refine ⟨dwa_sensible.wf, ?_, by decide, by decide, by decide, by decide, ?_, ?_, ?_, ?_, ?_⟩ <;>
    norm_num [waryRobot, unknownMap]

theorem waryRobot_warier : WarierWindow (dwaRobot 1 5 0.1) waryRobot := by
  refine ⟨?_, by decide, rfl⟩
  constructor <;> norm_num [waryRobot, dwaRobot, dwaCollision]

theorem wary_in_rect (k : Nat) (hk : k < waryRobot.steps.toNat) :
    InRect unknownMap (poseAfter ⟨0.3, 0, 0⟩ 0.1 ⟨0, 0, 0⟩ (k + 1)).c0
      (poseAfter ⟨0.3, 0, 0⟩ 0.1 ⟨0, 0, 0⟩ (k + 1)).c1 := by
  have hk8 : k < 8 := hk
  have hk' : (k : ℝ) < 8 := by exact_mod_cast hk8
  have hk0 : (0 : ℝ) ≤ k := Nat.cast_nonneg k
  rw [straight_poses]
  simp only [InRect, unknownMap, UInt32.toNat_ofNat]
  push_cast
  norm_num
  constructor <;> linarith

theorem wary_samples (v : V3 ℝ) : IsSample (dwaRobot 1 5 0.1) ⟨0.5, 0.2, 0.2⟩ v ↔ v = ⟨0.3, 0, 0⟩ := by
  rw [← mem_visited, dwa_visited, List.mem_singleton]

theorem wary_modest (v : V3 ℝ) (hv : IsSample (dwaRobot 1 5 0.1) ⟨0.5, 0.2, 0.2⟩ v) :
    twistErrSq ⟨0.5, 0, 0⟩ v ≤ 2 ^ 1000 := by
  rw [(wary_samples v).mp hv]
  have : (1 : ℝ) ≤ 2 ^ 1000 := one_le_pow₀ (by norm_num)
  refine le_trans ?_ this
  norm_num [twistErrSq]

theorem wary_free : FreeRollout waryRobot unknownMap ⟨0, 0, 0⟩ ⟨0.3, 0, 0⟩ := fun k hk =>
  (C31_unknown_map_clear _ unknownMap waryRobot_sensible _ (wary_in_rect k hk) (by norm_num [waryRobot]) (by
    intro v hv
    rw [List.eq_of_mem_replicate hv]; decide)).1

/-- The more cautious search succeeds. -/
theorem wary_succeeds : waryRobot.controlTwist unknownMap ⟨0, 0, 0⟩ ⟨0.5, 0.2, 0.2⟩ ⟨0.5, 0, 0⟩ =
    .ok (true, ⟨0.3, 0, 0⟩) := by
  have hmem : ∀ v, IsSample waryRobot ⟨0.5, 0.2, 0.2⟩ v ↔ v = ⟨0.3, 0, 0⟩ := wary_samples
  obtain ⟨b, u, h⟩ := C57_total waryRobot unknownMap waryRobot_sensible ⟨0, 0, 0⟩ ⟨0.5, 0.2, 0.2⟩ ⟨0.5, 0, 0⟩ (by
    intro v hv k hk
    rw [(hmem v).mp hv]
    exact wary_in_rect k hk)
  have hb : b = true := by
    by_contra hc
    have hm : ∀ v, IsSample waryRobot ⟨0.5, 0.2, 0.2⟩ v → twistErrSq ⟨0.5, 0, 0⟩ v ≤ 2 ^ 1000 := fun v hv =>
      wary_modest v ((wary_samples v).mpr ((hmem v).mp hv))
    have := (C57_false_iff_partial waryRobot unknownMap ⟨0, 0, 0⟩ ⟨0.5, 0.2, 0.2⟩ ⟨0.5, 0, 0⟩ hm b u h).1.mp
      (by simpa using hc) _ ((hmem _).mpr rfl)
    exact not_free_of_hit this wary_free
  subst hb
  rw [h, (hmem u).mp (C56_nearest _ _ _ _ _ _ h).2.1]

/-- The hypotheses of `C136_window` are met. -/
example : ∃ u, (dwaRobot 1 5 0.1).controlTwist unknownMap ⟨0, 0, 0⟩ ⟨0.5, 0.2, 0.2⟩ ⟨0.5, 0, 0⟩ = .ok (true, u) ∧
    twistErrSq ⟨0.5, 0, 0⟩ u ≤ twistErrSq ⟨0.5, 0, 0⟩ ⟨0.3, 0, 0⟩ :=
  C136_window waryRobot_warier dwa_sensible waryRobot_sensible ⟨0, 0, 0⟩ ⟨0.5, 0.2, 0.2⟩ ⟨0.5, 0, 0⟩ ⟨0.3, 0, 0⟩ (by
    intro v hv k hk
    rw [(wary_samples v).mp hv]
    exact dwa_in_rect k hk) wary_modest wary_succeeds

/-- The hypotheses of `C136_clear`, `C136_validate` and `C136_horizon` are met: the same motion over eight steps with
the more cautious settings, and over five. -/
example : validateControl waryRobot.collision unknownMap ⟨0, 0, 0⟩ ⟨0.3, 0, 0⟩ 0.1 0.8 = .ok true ∧
    validateControl dwaCollision unknownMap ⟨0, 0, 0⟩ ⟨0.3, 0, 0⟩ 0.1 0.8 = .ok true ∧
    validateControl dwaCollision unknownMap ⟨0, 0, 0⟩ ⟨0.3, 0, 0⟩ 0.1 0.5 = .ok true := by
  have h8 : numSteps (0.8 : ℝ) 0.1 = .ok 8 := by rw [C20_step_count _ _ (by norm_num)]; norm_num; rfl
  have h5 : numSteps (0.5 : ℝ) 0.1 = .ok 5 := by rw [C20_step_count _ _ (by norm_num)]; norm_num; rfl
  have a : validateControl waryRobot.collision unknownMap ⟨0, 0, 0⟩ ⟨0.3, 0, 0⟩ 0.1 0.8 = .ok true :=
    (C20_accepts_iff _ _ _ _ _ _ 8 h8).mpr wary_free
  have b := C136_validate waryRobot_warier.collision dwa_sensible waryRobot_sensible _ _ _ _ 8 h8 wary_in_rect a
  exact ⟨a, b, C136_horizon _ _ _ _ _ _ _ 5 8 h5 h8 (by decide) b⟩

end Ergodic
