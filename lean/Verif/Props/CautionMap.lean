import Verif.Props.Quiet
import Verif.Props.Running

/-!
# Property C136: caution and obstacles in the searches of the dynamic window

Exact arithmetic.
-/

namespace Ergodic

/-- C136: what is clear with more cautious settings on a map with more obstacles, is clear. -/
theorem C136_fuller_clear {c c' : Collision ℝ} (h : Warier c c') {g g' : GridMap ℝ}
    (hg : g' = { g with data := g'.data }) (hd : Raised g.data g'.data) (hs : Sensible c g) (hs' : Sensible c' g')
    {x : V3 ℝ} (hx : InRect g x.c0 x.c1) (hc : c'.collisionCheck g' x = .ok false) :
    c.collisionCheck g x = .ok false := by
  obtain ⟨-, sb, -⟩ := eased_sensible h hs.obs hs.order hg hd hs'
  have hx' : InRect g' x.c0 x.c1 := by rw [hg]; exact hx
  have v := C136_clear h sb hs' hx' hc
  obtain ⟨b, hb⟩ := (C30_no_failure c g hs x hx).1
  cases b with
  | false => exact hb
  | true =>
    have := C29_raise c c.occupied_threshold g g'.data hs x hx le_rfl hd hb
    rw [← hg] at this
    have this : c.collisionCheck g' x = .ok true := this
    rw [v] at this
    cases this

/-- C136: when the search succeeds with more cautious settings, over a longer horizon and with obstacles added, it
succeeds without them, and the twist it returns is at least as close to the reference. -/
theorem C136_fuller_window {d d' : DynamicWindow ℝ} (h : WarierWindow d d') {g g' : GridMap ℝ}
    (hg : g' = { g with data := g'.data }) (hd : Raised g.data g'.data) (hs : Sensible d.collision g)
    (hs' : Sensible d'.collision g') (x vb vref u' : V3 ℝ)
    (hin : ∀ v, IsSample d vb v → ∀ k < d.steps.toNat,
      InRect g (poseAfter v d.dt x (k + 1)).c0 (poseAfter v d.dt x (k + 1)).c1)
    (hb : ∀ v, IsSample d vb v → twistErrSq vref v ≤ 2 ^ 1000)
    (hc : d'.controlTwist g' x vb vref = .ok (true, u')) :
    ∃ u, d.controlTwist g x vb vref = .ok (true, u) ∧ twistErrSq vref u ≤ twistErrSq vref u' := by
  obtain ⟨hf, hu', -⟩ := C56_nearest d' g' x vb vref u' hc
  have hsm : IsSample d vb u' := by rw [h.rest] at hu'; exact hu'
  have hdt : d'.dt = d.dt := by rw [h.rest]
  have hfree : FreeRollout d g x u' := fun k hk => by
    have := hf k (lt_of_lt_of_le hk h.steps)
    rw [hdt] at this
    exact C136_fuller_clear h.collision hg hd hs hs' (hin u' hsm k hk) this
  obtain ⟨b, u, hd⟩ := C57_total d g hs x vb vref hin
  have hbt : b = true := by
    by_contra hne
    exact not_free_of_hit ((C57_false_iff_partial d g x vb vref hb b u hd).1.mp (by simpa using hne) u' hsm) hfree
  subst hbt
  exact ⟨u, hd, (C56_nearest d g x vb vref u hd).2.2 u' hsm hfree⟩

/-- C136: when the search along a reference succeeds with more cautious settings, over a longer horizon and with
obstacles added, it succeeds without them, and its twist is among those that the other search accepts. -/
theorem C136_fuller_follow {d d' : DynamicWindow ℝ} (h : WarierWindow d d') {g g' : GridMap ℝ}
    (hg : g' = { g with data := g'.data }) (hd : Raised g.data g'.data) (hs : Sensible d.collision g)
    (hs' : Sensible d'.collision g') (hdt : 0 ≤ d.dt)
    (x vb u' : V3 ℝ) (ref : List (V3 ℝ)) (hn : 1 ≤ ref.length) (hN : ref.length ≤ 2 ^ 32) {dt_ref : ℝ} (ht : 0 < dt_ref)
    (hcol : ∀ k < d.steps.toNat, refIndex ref.length (k * d.dt) (ref.length * dt_ref) < ref.length)
    (hin : ∀ v, IsSample d vb v → ∀ k < d.steps.toNat,
      InRect g (poseAfter v d.dt x (k + 1)).c0 (poseAfter v d.dt x (k + 1)).c1)
    (hb : ∀ v, IsSample d vb v → trackCost d.steps.toNat d.dt (ref.length * dt_ref) ref x v ≤ 2 ^ 1000)
    (hc : d'.controlTraj g' x vb ref dt_ref = .ok (true, u')) :
    IsSample d vb u' ∧ FreeRollout d g x u' ∧ ∃ u, d.controlTraj g x vb ref dt_ref = .ok (true, u) := by
  have e1 : d'.dt = d.dt := by rw [h.rest]
  obtain ⟨hf, hu', -⟩ := C56_tracks_best d' (by rw [e1]; exact hdt) g' x vb u' ref hn hN dt_ref ht hc
  have hsm : IsSample d vb u' := by rw [h.rest] at hu'; exact hu'
  have hfree : FreeRollout d g x u' := fun k hk => by
    have := hf k (lt_of_lt_of_le hk h.steps)
    rw [e1] at this
    exact C136_fuller_clear h.collision hg hd hs hs' (hin u' hsm k hk) this
  have hl : (0 : ℝ) < ref.length := by exact_mod_cast hn
  have htot : ∃ b u, d.controlTraj g x vb ref dt_ref = .ok (b, u) := by
    refine search_total d vb _ fun v hv => ?_
    simp only [real_mul, real_ofInt, Int.cast_natCast]
    exact C58_total d hdt g x v ref hn hN (by positivity) hcol (free_or_hit d g x v fun k hk =>
      (C30_no_failure d.collision g hs _ (hin v ((mem_visited d vb v).mp hv) k hk)).1)
  obtain ⟨b, u, hd⟩ := htot
  have hbt : b = true := by
    by_contra hne
    exact not_free_of_hit ((C57_traj_partial d hdt g x vb ref hn hN dt_ref ht hb b u hd).1.mp (by simpa using hne) u' hsm)
      hfree
  subst hbt
  exact ⟨hsm, hfree, u, hd⟩

/-- C136: moreover, over the shorter horizon the twist returned follows the reference at least as closely. -/
theorem C136_fuller_track {d d' : DynamicWindow ℝ} (h : WarierWindow d d') {g g' : GridMap ℝ}
    (hg : g' = { g with data := g'.data }) (hd : Raised g.data g'.data) (hs : Sensible d.collision g)
    (hs' : Sensible d'.collision g') (hdt : 0 ≤ d.dt)
    (x vb u' : V3 ℝ) (ref : List (V3 ℝ)) (hn : 1 ≤ ref.length) (hN : ref.length ≤ 2 ^ 32) {dt_ref : ℝ} (ht : 0 < dt_ref)
    (hcol : ∀ k < d.steps.toNat, refIndex ref.length (k * d.dt) (ref.length * dt_ref) < ref.length)
    (hin : ∀ v, IsSample d vb v → ∀ k < d.steps.toNat,
      InRect g (poseAfter v d.dt x (k + 1)).c0 (poseAfter v d.dt x (k + 1)).c1)
    (hb : ∀ v, IsSample d vb v → trackCost d.steps.toNat d.dt (ref.length * dt_ref) ref x v ≤ 2 ^ 1000)
    (hc : d'.controlTraj g' x vb ref dt_ref = .ok (true, u')) :
    ∃ u, d.controlTraj g x vb ref dt_ref = .ok (true, u) ∧
      trackCost d.steps.toNat d.dt (ref.length * dt_ref) ref x u ≤
        trackCost d.steps.toNat d.dt (ref.length * dt_ref) ref x u' := by
  obtain ⟨hsm, hfree, u, hu⟩ := C136_fuller_follow h hg hd hs hs' hdt x vb u' ref hn hN ht hcol hin hb hc
  exact ⟨u, hu, (C56_tracks_best d hdt g x vb u ref hn hN dt_ref ht hu).2.2 u' hsm hfree⟩

/-! ## The hypotheses are met -/

/-- `unknownMap` after all of its cells were seen, each occupied with a probability of 0.4 -/
noncomputable def murkyMap : GridMap ℝ := { unknownMap with data := List.replicate 1600 40 }

theorem murky_raised : Raised unknownMap.data murkyMap.data := by
  have : ∀ n : Nat, Raised (List.replicate n (-1)) (List.replicate n 40) := by
    intro n
    induction n with
    | zero => exact .nil
    | succ n ih => exact .cons (by decide) ih
  exact this 1600

theorem murky_sensible : Sensible waryRobot.collision murkyMap :=
  have w := waryRobot_sensible
  ⟨⟨w.wf.fits, by show (List.replicate 1600 (40 : Int8)).length = 40 * 40; rw [List.length_replicate]⟩,
    w.res, w.x0, w.y0, w.xsize, w.ysize, w.bnd, w.obs, w.order, w.search, w.col⟩

theorem murky_clear (x : V3 ℝ) (hx : InRect unknownMap x.c0 x.c1) :
    waryRobot.collision.collisionCheck murkyMap x = .ok false := by
  obtain ⟨i, j, -, -, hcfg, hr⟩ := config_real waryRobot.collision murkyMap murky_sensible x hx
  refine (C31_nothing_reported _ _ murky_sensible.wf x _ hcfg hr ?_).1
  rintro i j ⟨-, -, -, -, v, hv, hlt⟩
  have : v = 40 := List.eq_of_mem_replicate (List.mem_of_getElem? hv)
  subst this
  rw [real_lt_false] at hlt
  have e : (40 : Int8).toInt = 40 := by decide
  rw [e] at hlt
  norm_num [waryRobot] at hlt

/-- The hypotheses of `C136_fuller_clear` are met. -/
example : dwaCollision.collisionCheck unknownMap ⟨3, 4, 0⟩ = .ok false := by
  have hx : InRect unknownMap 3 4 := by
    simp only [InRect, unknownMap, UInt32.toNat_ofNat]; norm_num
  exact C136_fuller_clear waryRobot_warier.collision rfl murky_raised dwa_sensible murky_sensible hx (murky_clear _ hx)

theorem murky_free : FreeRollout waryRobot murkyMap ⟨0, 0, 0⟩ ⟨0.3, 0, 0⟩ := fun k hk =>
  murky_clear _ (wary_in_rect k hk)

/-- The more cautious search succeeds on the map that was seen. -/
theorem murky_succeeds : waryRobot.controlTwist murkyMap ⟨0, 0, 0⟩ ⟨0.5, 0.2, 0.2⟩ ⟨0.5, 0, 0⟩ =
    .ok (true, ⟨0.3, 0, 0⟩) := by
  have hmem : ∀ v, IsSample waryRobot ⟨0.5, 0.2, 0.2⟩ v ↔ v = ⟨0.3, 0, 0⟩ := wary_samples
  obtain ⟨b, u, h⟩ := C57_total waryRobot murkyMap murky_sensible ⟨0, 0, 0⟩ ⟨0.5, 0.2, 0.2⟩ ⟨0.5, 0, 0⟩ (by
    intro v hv k hk
    rw [(hmem v).mp hv]
    exact wary_in_rect k hk)
  have hb : b = true := by
    by_contra hc
    have hm : ∀ v, IsSample waryRobot ⟨0.5, 0.2, 0.2⟩ v → twistErrSq ⟨0.5, 0, 0⟩ v ≤ 2 ^ 1000 := fun v hv =>
      wary_modest v ((wary_samples v).mpr ((hmem v).mp hv))
    have := (C57_false_iff_partial waryRobot murkyMap ⟨0, 0, 0⟩ ⟨0.5, 0.2, 0.2⟩ ⟨0.5, 0, 0⟩ hm b u h).1.mp
      (by simpa using hc) _ ((hmem _).mpr rfl)
    exact not_free_of_hit this murky_free
  subst hb
  rw [h, (hmem u).mp (C56_nearest _ _ _ _ _ _ h).2.1]

/-- The hypotheses of `C136_fuller_window` are met. -/
example : ∃ u, (dwaRobot 1 5 0.1).controlTwist unknownMap ⟨0, 0, 0⟩ ⟨0.5, 0.2, 0.2⟩ ⟨0.5, 0, 0⟩ = .ok (true, u) ∧
    twistErrSq ⟨0.5, 0, 0⟩ u ≤ twistErrSq ⟨0.5, 0, 0⟩ ⟨0.3, 0, 0⟩ :=
  C136_fuller_window waryRobot_warier (g' := murkyMap) rfl murky_raised dwa_sensible murky_sensible ⟨0, 0, 0⟩
    ⟨0.5, 0.2, 0.2⟩ ⟨0.5, 0, 0⟩ ⟨0.3, 0, 0⟩ (by
      intro v hv k hk
      rw [(wary_samples v).mp hv]
      exact dwa_in_rect k hk) wary_modest murky_succeeds

/-- `dwaRobot` with more cautious settings and the same horizon -/
noncomputable def shyRobot : DynamicWindow ℝ := { dwaRobot 1 5 0.1 with collision := waryRobot.collision }

theorem shy_index (k : Nat) (t : ℝ) : refIndex [(⟨1, 0, 0⟩ : V3 ℝ)].length (k * t)
    ([(⟨1, 0, 0⟩ : V3 ℝ)].length * 1) < [(⟨1, 0, 0⟩ : V3 ℝ)].length := by
  simp only [refIndex, List.length_singleton]
  norm_num

theorem shy_cost (v : V3 ℝ) (hv : IsSample (dwaRobot 1 5 0.1) ⟨0.5, 0.2, 0.2⟩ v) :
    trackCost 5 0.1 ([(⟨1, 0, 0⟩ : V3 ℝ)].length * 1) [⟨1, 0, 0⟩] ⟨0, 0, 0⟩ v ≤ 2 ^ 1000 := by
  rw [(wary_samples v).mp hv]
  have h1 : (25 : ℝ) ≤ 2 ^ 1000 := le_trans (by norm_num : (25 : ℝ) ≤ 2 ^ 5) (pow_le_pow_right₀ (by norm_num) (by norm_num))
  refine le_trans ?_ h1
  have h2 : ∀ k ∈ Finset.range 5, poseGap ([(⟨1, 0, 0⟩ : V3 ℝ)].getD (refIndex [(⟨1, 0, 0⟩ : V3 ℝ)].length (k * 0.1)
      ([(⟨1, 0, 0⟩ : V3 ℝ)].length * 1)) V3.zero) (poseAfter ⟨0.3, 0, 0⟩ 0.1 ⟨0, 0, 0⟩ (k + 1)) ≤ 5 := by
    intro k hk
    have hk5 : k < 5 := Finset.mem_range.mp hk
    have hk' : (k : ℝ) < 5 := by exact_mod_cast hk5
    have hk0 : (0 : ℝ) ≤ k := Nat.cast_nonneg k
    have hi : refIndex [(⟨1, 0, 0⟩ : V3 ℝ)].length (k * 0.1) ([(⟨1, 0, 0⟩ : V3 ℝ)].length * 1) = 0 := by
      have := shy_index k 0.1
      simpa only [List.length_singleton, Nat.lt_one_iff] using this
    rw [hi, straight_poses]
    have ha := Real.Angle.abs_toReal_le_pi
    have hp := Real.pi_le_four
    simp only [poseGap, List.getD_cons_zero]
    refine le_trans (add_le_add (Real.sqrt_le_one.mpr ?_) ((ha _).trans hp)) (by norm_num)
    push_cast
    norm_num
    exact abs_le.mpr ⟨by linarith, by linarith⟩
  have := Finset.sum_le_card_nsmul _ _ _ h2
  refine le_trans this ?_
  norm_num

/-- The hypotheses of `C136_fuller_track` are met. -/
example : ∃ u u', shyRobot.controlTraj murkyMap ⟨0, 0, 0⟩ ⟨0.5, 0.2, 0.2⟩ [⟨1, 0, 0⟩] 1 = .ok (true, u') ∧
    (dwaRobot 1 5 0.1).controlTraj unknownMap ⟨0, 0, 0⟩ ⟨0.5, 0.2, 0.2⟩ [⟨1, 0, 0⟩] 1 = .ok (true, u) := by
  have hsm : ∀ v, IsSample shyRobot ⟨0.5, 0.2, 0.2⟩ v ↔ v = ⟨0.3, 0, 0⟩ := wary_samples
  have hfree : FreeRollout shyRobot murkyMap ⟨0, 0, 0⟩ ⟨0.3, 0, 0⟩ := fun k hk => murky_clear _ (dwa_in_rect k hk)
  have htot : ∃ b u, shyRobot.controlTraj murkyMap ⟨0, 0, 0⟩ ⟨0.5, 0.2, 0.2⟩ [⟨1, 0, 0⟩] 1 = .ok (b, u) := by
    refine search_total shyRobot _ _ fun v hv => ?_
    simp only [real_mul, real_ofInt, Int.cast_natCast]
    refine C58_total shyRobot (by norm_num [shyRobot, dwaRobot]) murkyMap _ v [⟨1, 0, 0⟩] (by simp) (by simp) (by simp)
      (fun k _ => shy_index k _) (.inl ?_)
    rw [(hsm v).mp ((mem_visited _ _ v).mp hv)]
    exact hfree
  obtain ⟨b, u', h⟩ := htot
  have hb : b = true := by
    by_contra hc
    have := (C57_traj_partial shyRobot (by norm_num [shyRobot, dwaRobot]) murkyMap ⟨0, 0, 0⟩ ⟨0.5, 0.2, 0.2⟩ [⟨1, 0, 0⟩]
      (by simp) (by simp) 1 one_pos shy_cost b u' h).1.mp (by simpa using hc) _ ((hsm _).mpr rfl)
    exact not_free_of_hit this hfree
  subst hb
  obtain ⟨u, hu, -⟩ := C136_fuller_track (d := dwaRobot 1 5 0.1) (d' := shyRobot)
    ⟨waryRobot_warier.collision, le_rfl, rfl⟩
    (g := unknownMap) (g' := murkyMap) rfl murky_raised dwa_sensible murky_sensible (by norm_num [dwaRobot]) ⟨0, 0, 0⟩
    ⟨0.5, 0.2, 0.2⟩ u' [⟨1, 0, 0⟩] (by simp) (by simp) one_pos (fun k _ => shy_index k _) (by
      intro v hv k hk
      rw [(wary_samples v).mp hv]
      exact dwa_in_rect k hk) shy_cost h
  exact ⟨u, u', h, hu⟩

end Ergodic
