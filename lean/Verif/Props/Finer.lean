import Verif.Spec.Finer
import Verif.Props.CautionMap

/-!
# Property C138: finer sampling of the velocity window

Exact arithmetic.
-/

namespace Ergodic

/-- A sample of one axis is a sample of the finer axis. -/
theorem finer_axis {n n' : Nat} (h : FinerAxis n n') {i : Nat} (hi : i < n) :
    ∃ i' < n', (i : ℝ) / ((n : ℝ) - 1) = (i' : ℝ) / ((n' : ℝ) - 1) := by
  rcases h with ⟨h1, h2⟩ | ⟨h1, m, h2, rfl⟩
  · have : i = 0 := by omega
    subst this
    exact ⟨0, h2, by simp⟩
  · have hn : ((n - 1 : ℕ) : ℝ) = (n : ℝ) - 1 := by rw [Nat.cast_sub (by omega)]; simp
    have hm : (m : ℝ) ≠ 0 := by positivity
    refine ⟨m * i, ?_, ?_⟩
    · have : m * i ≤ m * (n - 1) := Nat.mul_le_mul_left _ (by omega)
      omega
    · push_cast
      rw [hn, add_sub_cancel_right, mul_div_mul_left _ _ hm]

/-- C138: every twist of the coarse grid is one of the fine grid. -/
theorem C138_samples {d d' : DynamicWindow ℝ} (h : FinerWindow d d') (vb u : V3 ℝ) (hu : IsSample d vb u) :
    IsSample d' vb u := by
  rw [C55_grid] at hu ⊢
  obtain ⟨i, hi, j, hj, k, hk, e0, e1, e2⟩ := hu
  obtain ⟨i', hi', ei⟩ := finer_axis h.x hi
  obtain ⟨j', hj', ej⟩ := finer_axis h.y hj
  obtain ⟨k', hk', ek⟩ := finer_axis h.th hk
  refine ⟨i', hi', j', hj', k', hk', ?_⟩
  rw [← ei, ← ej, ← ek, h.rest]
  exact ⟨e0, e1, e2⟩

theorem finer_free {d d' : DynamicWindow ℝ} (h : FinerWindow d d') {g : GridMap ℝ} {x u : V3 ℝ}
    (hf : FreeRollout d g x u) : FreeRollout d' g x u := by rw [h.rest]; exact hf

/-- C138: when the search succeeds, it succeeds with a finer sampling, and the twist it returns is at least as close to
the reference. -/
theorem C138_window {d d' : DynamicWindow ℝ} (h : FinerWindow d d') {g : GridMap ℝ} (hs : Sensible d.collision g)
    (x vb vref u : V3 ℝ)
    (hin : ∀ v, IsSample d' vb v → ∀ k < d.steps.toNat,
      InRect g (poseAfter v d.dt x (k + 1)).c0 (poseAfter v d.dt x (k + 1)).c1)
    (hb : ∀ v, IsSample d' vb v → twistErrSq vref v ≤ 2 ^ 1000)
    (hc : d.controlTwist g x vb vref = .ok (true, u)) :
    ∃ u', d'.controlTwist g x vb vref = .ok (true, u') ∧ twistErrSq vref u' ≤ twistErrSq vref u := by
  have e1 : d'.dt = d.dt := by rw [h.rest]
  have e2 : d'.steps = d.steps := by rw [h.rest]
  have e3 : d'.collision = d.collision := by rw [h.rest]
  obtain ⟨hf, hu, -⟩ := C56_nearest d g x vb vref u hc
  have hu' := C138_samples h vb u hu
  have hf' := finer_free h hf
  obtain ⟨b, u', hd⟩ := C57_total d' g (by rw [e3]; exact hs) x vb vref (by rw [e1, e2]; exact hin)
  have hbt : b = true := by
    by_contra hne
    exact not_free_of_hit ((C57_false_iff_partial d' g x vb vref hb b u' hd).1.mp (by simpa using hne) u hu') hf'
  subst hbt
  exact ⟨u', hd, (C56_nearest d' g x vb vref u' hd).2.2 u hu' hf'⟩

/-- C138: likewise the search along a reference. -/
theorem C138_track {d d' : DynamicWindow ℝ} (h : FinerWindow d d') {g : GridMap ℝ} (hs : Sensible d.collision g)
    (hdt : 0 ≤ d.dt) (x vb u : V3 ℝ) (ref : List (V3 ℝ)) (hn : 1 ≤ ref.length) (hN : ref.length ≤ 2 ^ 32) {dt_ref : ℝ}
    (ht : 0 < dt_ref)
    (hcol : ∀ k < d.steps.toNat, refIndex ref.length (k * d.dt) (ref.length * dt_ref) < ref.length)
    (hin : ∀ v, IsSample d' vb v → ∀ k < d.steps.toNat,
      InRect g (poseAfter v d.dt x (k + 1)).c0 (poseAfter v d.dt x (k + 1)).c1)
    (hb : ∀ v, IsSample d' vb v → trackCost d.steps.toNat d.dt (ref.length * dt_ref) ref x v ≤ 2 ^ 1000)
    (hc : d.controlTraj g x vb ref dt_ref = .ok (true, u)) :
    ∃ u', d'.controlTraj g x vb ref dt_ref = .ok (true, u') ∧
      trackCost d.steps.toNat d.dt (ref.length * dt_ref) ref x u' ≤
        trackCost d.steps.toNat d.dt (ref.length * dt_ref) ref x u := by
  have e1 : d'.dt = d.dt := by rw [h.rest]
  have e2 : d'.steps = d.steps := by rw [h.rest]
  have e3 : d'.collision = d.collision := by rw [h.rest]
  obtain ⟨hf, hu, -⟩ := C56_tracks_best d hdt g x vb u ref hn hN dt_ref ht hc
  have hu' := C138_samples h vb u hu
  have hf' := finer_free h hf
  have hdt' : 0 ≤ d'.dt := by rw [e1]; exact hdt
  have hl : (0 : ℝ) < ref.length := by exact_mod_cast hn
  have htot : ∃ b u', d'.controlTraj g x vb ref dt_ref = .ok (b, u') := by
    refine search_total d' vb _ fun v hv => ?_
    simp only [real_mul, real_ofInt, Int.cast_natCast]
    refine C58_total d' hdt' g x v ref hn hN (by positivity) (by rw [e1, e2]; exact hcol)
      (free_or_hit d' g x v fun k hk => (C30_no_failure d'.collision g (by rw [e3]; exact hs) _ ?_).1)
    rw [e1]
    rw [e2] at hk
    exact hin v ((mem_visited d' vb v).mp hv) k hk
  obtain ⟨b, u', hd⟩ := htot
  have hbt : b = true := by
    by_contra hne
    exact not_free_of_hit ((C57_traj_partial d' hdt' g x vb ref hn hN dt_ref ht (by rw [e1, e2]; exact hb) b u' hd).1.mp
      (by simpa using hne) u hu') hf'
  subst hbt
  have := (C56_tracks_best d' hdt' g x vb u' ref hn hN dt_ref ht hd).2.2 u hu' hf'
  rw [e1, e2] at this
  exact ⟨u', hd, this⟩

/-! ## More samples are not enough -/

/-- C138, false: with more samples per axis the twist returned is at least as close to the reference. -/
def C138_statement : Prop := ∀ (d d' : DynamicWindow ℝ) (g : GridMap ℝ) (x vb vref u u' : V3 ℝ),
  Sensible d.collision g → d.vx_samples.toNat ≤ d'.vx_samples.toNat → d.vy_samples.toNat ≤ d'.vy_samples.toNat →
  d.vth_samples.toNat ≤ d'.vth_samples.toNat →
  d' = { d with vx_samples := d'.vx_samples, vy_samples := d'.vy_samples, vth_samples := d'.vth_samples } →
  d.controlTwist g x vb vref = .ok (true, u) → d'.controlTwist g x vb vref = .ok (true, u') →
  twistErrSq vref u' ≤ twistErrSq vref u

/-- A robot that can only change its forward velocity -/
noncomputable def keenRobot (n : UInt32) : DynamicWindow ℝ := { dwaRobot n 5 0.1 with acc_lim_y := 0, acc_lim_th := 0 }

theorem keen_samples (n : UInt32) (v : V3 ℝ) (h : IsSample (keenRobot n) ⟨0.5, 0, 0⟩ v) :
    ∃ i < n.toNat, v = ⟨0.3 + 0.4 * ((i : ℝ) / ((n.toNat : ℝ) - 1)), 0, 0⟩ := by
  rw [C55_grid] at h
  obtain ⟨i, hi, j, -, k, -, h0, h1, h2⟩ := h
  obtain ⟨v0, v1, v2⟩ := v
  refine ⟨i, hi, ?_⟩
  simp only [keenRobot, dwaRobot] at h0 h1 h2
  norm_num at h0 h1 h2
  norm_num
  exact ⟨h0, h1, h2⟩

theorem keen_sample (n : UInt32) {i : Nat} (hi : i < n.toNat) :
    IsSample (keenRobot n) ⟨0.5, 0, 0⟩ ⟨0.3 + 0.4 * ((i : ℝ) / ((n.toNat : ℝ) - 1)), 0, 0⟩ := by
  rw [C55_grid]
  refine ⟨i, hi, 0, Nat.zero_lt_of_lt hi, 0, Nat.zero_lt_of_lt hi, ?_⟩
  simp only [keenRobot, dwaRobot]
  norm_num

theorem keen_speed {i n : Nat} (hi : i < n) : 0 ≤ (i : ℝ) / ((n : ℝ) - 1) ∧ (i : ℝ) / ((n : ℝ) - 1) ≤ 1 := by
  have h : (i : ℝ) ≤ (n : ℝ) - 1 := by
    have : i + 1 ≤ n := hi
    have : (i : ℝ) + 1 ≤ n := by exact_mod_cast this
    linarith
  have h0 : (0 : ℝ) ≤ i := Nat.cast_nonneg i
  exact ⟨div_nonneg h0 (h0.trans h), div_le_one_of_le₀ h (h0.trans h)⟩

theorem keen_rect (n : UInt32) (v : V3 ℝ) (h : IsSample (keenRobot n) ⟨0.5, 0, 0⟩ v) (k : Nat)
    (hk : k < (keenRobot n).steps.toNat) : InRect unknownMap (poseAfter v 0.1 ⟨0, 0, 0⟩ (k + 1)).c0
      (poseAfter v 0.1 ⟨0, 0, 0⟩ (k + 1)).c1 := by
  obtain ⟨i, hi, rfl⟩ := keen_samples n v h
  obtain ⟨s0, s1⟩ := keen_speed hi
  have hk5 : k < 5 := hk
  have hk' : (k : ℝ) < 5 := by exact_mod_cast hk5
  have hk0 : (0 : ℝ) ≤ k := Nat.cast_nonneg k
  rw [straight_poses]
  simp only [InRect, unknownMap, UInt32.toNat_ofNat]
  push_cast
  norm_num
  generalize (i : ℝ) / ((n.toNat : ℝ) - 1) = s at *
  constructor <;> nlinarith

theorem keen_modest (n : UInt32) (v : V3 ℝ) (h : IsSample (keenRobot n) ⟨0.5, 0, 0⟩ v) :
    twistErrSq ⟨0.5, 0, 0⟩ v ≤ 2 ^ 1000 := by
  obtain ⟨i, hi, rfl⟩ := keen_samples n v h
  obtain ⟨s0, s1⟩ := keen_speed hi
  have : (1 : ℝ) ≤ 2 ^ 1000 := one_le_pow₀ (by norm_num)
  refine le_trans ?_ this
  simp only [twistErrSq]
  norm_num
  generalize (i : ℝ) / ((n.toNat : ℝ) - 1) = s at *
  exact abs_le.mpr ⟨by linarith, by linarith⟩

theorem keen_succeeds (n : UInt32) (hn : 0 < n.toNat) :
    ∃ u, (keenRobot n).controlTwist unknownMap ⟨0, 0, 0⟩ ⟨0.5, 0, 0⟩ ⟨0.5, 0, 0⟩ = .ok (true, u) := by
  obtain ⟨b, u, h⟩ := C57_total (keenRobot n) unknownMap dwa_sensible ⟨0, 0, 0⟩ ⟨0.5, 0, 0⟩ ⟨0.5, 0, 0⟩ (keen_rect n)
  have hb : b = true := by
    by_contra hc
    have := (C57_false_iff_partial (keenRobot n) unknownMap ⟨0, 0, 0⟩ ⟨0.5, 0, 0⟩ ⟨0.5, 0, 0⟩ (keen_modest n) b u h).1.mp
      (by simpa using hc) _ (keen_sample n hn)
    refine not_free_of_hit this fun k hk => ?_
    exact (C31_unknown_map_clear dwaCollision unknownMap dwa_sensible _ (keen_rect n _ (keen_sample n hn) k hk)
      (by norm_num [dwaCollision]) (by
        intro v hv
        rw [List.eq_of_mem_replicate hv]; decide)).1
  subst hb
  exact ⟨u, h⟩

/-- C138: with three samples the reference is the middle one, with four it lies between two. -/
theorem C138_refuted : ¬ C138_statement := by
  intro h
  have e3 : (3 : UInt32).toNat = 3 := rfl
  have e4 : (4 : UInt32).toNat = 4 := rfl
  obtain ⟨u, hu⟩ := keen_succeeds 3 (by decide)
  obtain ⟨u', hu'⟩ := keen_succeeds 4 (by decide)
  have hle := h (keenRobot 3) (keenRobot 4) unknownMap ⟨0, 0, 0⟩ ⟨0.5, 0, 0⟩ ⟨0.5, 0, 0⟩ u u' dwa_sensible (by decide)
    (by decide) (by decide) rfl hu hu'
  have hs : IsSample (keenRobot 3) ⟨0.5, 0, 0⟩ ⟨0.5, 0, 0⟩ := by
    have := keen_sample 3 (i := 1) (by decide)
    rw [e3] at this
    norm_num at this
    norm_num
    exact this
  have hf : FreeRollout (keenRobot 3) unknownMap ⟨0, 0, 0⟩ ⟨0.5, 0, 0⟩ := fun k hk =>
    (C31_unknown_map_clear dwaCollision unknownMap dwa_sensible _ (keen_rect 3 _ hs k hk) (by norm_num [dwaCollision]) (by
      intro v hv
      rw [List.eq_of_mem_replicate hv]; decide)).1
  have h0 := (C56_nearest (keenRobot 3) unknownMap ⟨0, 0, 0⟩ ⟨0.5, 0, 0⟩ ⟨0.5, 0, 0⟩ u hu).2.2 _ hs hf
  have hz : twistErrSq ⟨0.5, 0, 0⟩ ⟨0.5, 0, 0⟩ = 0 := by simp [twistErrSq]
  obtain ⟨i, hi, rfl⟩ := keen_samples 4 u'
    (C56_nearest (keenRobot 4) unknownMap ⟨0, 0, 0⟩ ⟨0.5, 0, 0⟩ ⟨0.5, 0, 0⟩ u' hu').2.1
  rw [hz] at h0
  have h1 := hle.trans h0
  rw [e4] at h1 hi
  simp only [twistErrSq] at h1
  interval_cases i <;> norm_num at h1

/-- Case for `C138_samples` and `C138_window`: three samples per axis are refined to five. -/
example : ∃ u u', (keenRobot 3).controlTwist unknownMap ⟨0, 0, 0⟩ ⟨0.5, 0, 0⟩ ⟨0.5, 0, 0⟩ = .ok (true, u) ∧
    (keenRobot 5).controlTwist unknownMap ⟨0, 0, 0⟩ ⟨0.5, 0, 0⟩ ⟨0.5, 0, 0⟩ = .ok (true, u') ∧
    twistErrSq ⟨0.5, 0, 0⟩ u' ≤ twistErrSq ⟨0.5, 0, 0⟩ u := by
  have f : FinerAxis (3 : UInt32).toNat (5 : UInt32).toNat := .inr ⟨by decide, 2, by decide, by decide⟩
  obtain ⟨u, hu⟩ := keen_succeeds 3 (by decide)
  obtain ⟨u', h1, h2⟩ := C138_window (d := keenRobot 3) (d' := keenRobot 5) ⟨f, f, f, rfl⟩ dwa_sensible ⟨0, 0, 0⟩
    ⟨0.5, 0, 0⟩ ⟨0.5, 0, 0⟩ u (keen_rect 5) (keen_modest 5) hu
  exact ⟨u, u', hu, h1, h2⟩

theorem keen_cost (n : UInt32) (v : V3 ℝ) (hv : IsSample (keenRobot n) ⟨0.5, 0, 0⟩ v) :
    trackCost 5 0.1 ([(⟨1, 0, 0⟩ : V3 ℝ)].length * 1) [⟨1, 0, 0⟩] ⟨0, 0, 0⟩ v ≤ 2 ^ 1000 := by
  obtain ⟨i, hi, rfl⟩ := keen_samples n v hv
  obtain ⟨s0, s1⟩ := keen_speed hi
  generalize (i : ℝ) / ((n.toNat : ℝ) - 1) = s at *
  have h1 : (25 : ℝ) ≤ 2 ^ 1000 := le_trans (by norm_num : (25 : ℝ) ≤ 2 ^ 5) (pow_le_pow_right₀ (by norm_num) (by norm_num))
  refine le_trans ?_ h1
  have h2 : ∀ k ∈ Finset.range 5, poseGap ([(⟨1, 0, 0⟩ : V3 ℝ)].getD (refIndex [(⟨1, 0, 0⟩ : V3 ℝ)].length (k * 0.1)
      ([(⟨1, 0, 0⟩ : V3 ℝ)].length * 1)) V3.zero) (poseAfter ⟨0.3 + 0.4 * s, 0, 0⟩ 0.1 ⟨0, 0, 0⟩ (k + 1)) ≤ 5 := by
    intro k hk
    have hk5 : k < 5 := Finset.mem_range.mp hk
    have hk' : (k : ℝ) + 1 ≤ 5 := by exact_mod_cast hk5
    have hk0 : (0 : ℝ) ≤ k := Nat.cast_nonneg k
    have hi : refIndex [(⟨1, 0, 0⟩ : V3 ℝ)].length (k * 0.1) ([(⟨1, 0, 0⟩ : V3 ℝ)].length * 1) = 0 := by
      have := shy_index k 0.1
      simpa only [List.length_singleton, Nat.lt_one_iff] using this
    rw [hi, straight_poses]
    simp only [poseGap, List.getD_cons_zero]
    refine le_trans (add_le_add (Real.sqrt_le_one.mpr ?_) ((Real.Angle.abs_toReal_le_pi _).trans Real.pi_le_four))
      (by norm_num)
    have a : 0 ≤ ((k + 1 : ℕ) : ℝ) * ((0.3 + 0.4 * s) * 0.1) := by positivity
    have b : ((k + 1 : ℕ) : ℝ) * ((0.3 + 0.4 * s) * 0.1) ≤ 1 := by
      push_cast
      nlinarith
    generalize ((k + 1 : ℕ) : ℝ) * ((0.3 + 0.4 * s) * 0.1) = y at *
    nlinarith
  refine le_trans (Finset.sum_le_card_nsmul _ _ _ h2) ?_
  norm_num

/-- The hypotheses of `C138_track` are met. -/
example : ∃ u u', (keenRobot 3).controlTraj unknownMap ⟨0, 0, 0⟩ ⟨0.5, 0, 0⟩ [⟨1, 0, 0⟩] 1 = .ok (true, u) ∧
    (keenRobot 5).controlTraj unknownMap ⟨0, 0, 0⟩ ⟨0.5, 0, 0⟩ [⟨1, 0, 0⟩] 1 = .ok (true, u') := by
  have f : FinerAxis (3 : UInt32).toNat (5 : UInt32).toNat := .inr ⟨by decide, 2, by decide, by decide⟩
  have hdt : 0 ≤ (keenRobot 3).dt := by norm_num [keenRobot, dwaRobot]
  have hfree : ∀ v, IsSample (keenRobot 3) ⟨0.5, 0, 0⟩ v → FreeRollout (keenRobot 3) unknownMap ⟨0, 0, 0⟩ v :=
    fun v hv k hk => (C31_unknown_map_clear dwaCollision unknownMap dwa_sensible _ (keen_rect 3 v hv k hk)
      (by norm_num [dwaCollision]) (by
        intro v hv
        rw [List.eq_of_mem_replicate hv]; decide)).1
  have htot : ∃ b u, (keenRobot 3).controlTraj unknownMap ⟨0, 0, 0⟩ ⟨0.5, 0, 0⟩ [⟨1, 0, 0⟩] 1 = .ok (b, u) := by
    refine search_total (keenRobot 3) _ _ fun v hv => ?_
    simp only [real_mul, real_ofInt, Int.cast_natCast]
    exact C58_total (keenRobot 3) hdt unknownMap _ v [⟨1, 0, 0⟩] (by simp) (by simp) (by simp)
      (fun k _ => shy_index k _) (.inl (hfree v ((mem_visited _ _ v).mp hv)))
  obtain ⟨b, u, h⟩ := htot
  have hb : b = true := by
    by_contra hc
    have hs := keen_sample 3 (i := 0) (by decide)
    have := (C57_traj_partial (keenRobot 3) hdt unknownMap ⟨0, 0, 0⟩ ⟨0.5, 0, 0⟩ [⟨1, 0, 0⟩]
      (by simp) (by simp) 1 one_pos (keen_cost 3) b u h).1.mp (by simpa using hc) _ hs
    exact not_free_of_hit this (hfree _ hs)
  subst hb
  obtain ⟨u', h1, -⟩ := C138_track (d := keenRobot 3) (d' := keenRobot 5) ⟨f, f, f, rfl⟩ dwa_sensible hdt ⟨0, 0, 0⟩
    ⟨0.5, 0, 0⟩ u [⟨1, 0, 0⟩] (by simp) (by simp) one_pos (fun k _ => shy_index k _) (keen_rect 5) (keen_cost 5) h
  exact ⟨u, u', h, h1⟩

end Ergodic
