import Verif.Spec.Rest
import Verif.Props.Stuck

/-!
# Property C122: a robot at rest in a free place finds a twist

The twist that can always be had is the zero twist: it keeps the robot where it is.  It is found if it is
among the sampled twists.
-/

namespace Ergodic
variable {F : Type} [Flt F] {M : Machine}

/-! ## the size of the costs with rounding -/

theorem pow_machine (k : Nat) : M.rnd ((2 : ℝ) ^ k) = 2 ^ k := by
  induction k with
  | zero => simp
  | succ k ih => rw [pow_succ, mul_comm]; exact M.double _ ih

theorem rnd_le_pow {x : ℝ} {k : Nat} (h : |x| ≤ 2 ^ k) : |M.rnd x| ≤ 2 ^ k := by
  have ⟨h0, h1⟩ := abs_le.mp h
  have a := M.mono h0
  have b := M.mono h1
  rw [M.neg, pow_machine] at a
  rw [pow_machine] at b
  exact abs_le.mpr ⟨a, b⟩

theorem pow_step {k l : Nat} (h : k ≤ l) : (2 : ℝ) ^ k ≤ 2 ^ l := pow_le_pow_right₀ (by norm_num) h

theorem add_pow {a b : ℝ} {k : Nat} (ha : |a| ≤ 2 ^ k) (hb : |b| ≤ 2 ^ k) : |a + b| ≤ 2 ^ (k + 1) := by
  refine (abs_add_le a b).trans ?_
  rw [pow_succ]; linarith

theorem sub_pow {a b : ℝ} {k : Nat} (ha : |a| ≤ 2 ^ k) (hb : |b| ≤ 2 ^ k) : |a - b| ≤ 2 ^ (k + 1) := by
  rw [sub_eq_add_neg]
  exact add_pow ha (by rwa [abs_neg])

theorem mul_pow' {a b : ℝ} {k l : Nat} (ha : |a| ≤ 2 ^ k) (hb : |b| ≤ 2 ^ l) : |a * b| ≤ 2 ^ (k + l) := by
  rw [abs_mul, pow_add]
  exact mul_le_mul ha hb (abs_nonneg _) (by positivity)

theorem wrapR_pow {s : ℝ} {k : Nat} (hk : 3 ≤ k) (h : |s| ≤ 2 ^ k) : |wrapR M s| ≤ 2 ^ (k + 7) := by
  have ⟨p0, p1⟩ := piR_bounds M
  have hp : |piR M| ≤ 2 ^ 2 := by rw [abs_of_pos (by linarith)]; linarith
  have hs : |s / (2 * piR M)| ≤ 2 ^ k := by
    rw [abs_div, abs_of_pos (by linarith : 0 < 2 * piR M), div_le_iff₀ (by linarith)]
    refine h.trans ?_
    have : (0:ℝ) < 2 ^ k := by positivity
    nlinarith
  have hq : |((⌊M.rnd (s / (2 * piR M))⌋ : ℤ) : ℝ)| ≤ 2 ^ (k + 1) := by
    have hr := abs_le.mp (rnd_le_pow (M := M) hs)
    have h1 := Int.floor_le (M.rnd (s / (2 * piR M)))
    have h2 := Int.lt_floor_add_one (M.rnd (s / (2 * piR M)))
    have h3 : (1:ℝ) ≤ 2 ^ k := one_le_pow₀ (by norm_num)
    rw [pow_succ, abs_le]
    constructor <;> linarith [hr.1, hr.2]
  unfold wrapR
  dsimp only
  generalize ((⌊M.rnd (s / (2 * piR M))⌋ : ℤ) : ℝ) = q at hq
  have h1 : |M.rnd (q * 2)| ≤ 2 ^ (k + 2) := rnd_le_pow (by
    rw [abs_mul, pow_succ 2 (k + 1), abs_of_pos (by norm_num : (0:ℝ) < 2)]; linarith)
  have h2 : |M.rnd (M.rnd (q * 2) * piR M)| ≤ 2 ^ (k + 4) := rnd_le_pow (mul_pow' (k := k + 2) (l := 2) h1 hp)
  have h3 : |M.rnd (s - M.rnd (M.rnd (q * 2) * piR M))| ≤ 2 ^ (k + 5) :=
    rnd_le_pow (sub_pow (h.trans (pow_step (by omega))) h2)
  split
  · refine (rnd_le_pow (k := k + 6) (add_pow h3 ?_)).trans (pow_step (by omega))
    rw [abs_of_pos (by linarith)]
    have := pow_step (show 3 ≤ k + 5 by omega)
    linarith
  · exact h3.trans (pow_step (by omega))

theorem normalize_pow {x : ℝ} {k : Nat} (hk : 3 ≤ k) (h : |x| ≤ 2 ^ k) :
    ∃ y, normalizeAnglePI (.fin x : RDbl M) = .fin y ∧ |y| ≤ 2 ^ (k + 9) := by
  have ⟨p0, p1⟩ := piR_bounds M
  have hp : |piR M| ≤ 2 ^ 2 := by rw [abs_of_pos (by linarith)]; linarith
  have h1 : |M.rnd (x + piR M)| ≤ 2 ^ (k + 1) := rnd_le_pow (add_pow h (hp.trans (pow_step (by omega))))
  exact ⟨_, normalize_rd x, rnd_le_pow (sub_pow (wrapR_pow (by omega) h1) (hp.trans (pow_step (by omega))))⟩

theorem fabs_pow {x : ℝ} {k : Nat} (h : |x| ≤ 2 ^ k) : ∃ y, fabs (.fin x : RDbl M) = .fin y ∧ |y| ≤ 2 ^ k := by
  unfold fabs
  split
  · exact ⟨-x, by rw [RDbl.neg_fin], by rwa [abs_neg]⟩
  · exact ⟨x, rfl, h⟩

theorem sqrt_pow' {x : ℝ} {k : Nat} (h0 : 0 ≤ x) (h : x ≤ 2 ^ k) :
    ∃ y, Flt.sqrt (.fin x : RDbl M) = .fin y ∧ |y| ≤ 2 ^ k := by
  refine ⟨M.rnd (Real.sqrt x), ?_, rnd_le_pow ?_⟩
  · show RDbl.rd M (if x < 0 then Dbl.nan else Dbl.fin (Real.sqrt x)) = _
    rw [if_neg (not_lt.mpr h0)]; rfl
  · rw [abs_of_nonneg (Real.sqrt_nonneg x)]
    refine Real.sqrt_le_iff.mpr ⟨by positivity, h.trans ?_⟩
    rw [← pow_mul]
    exact pow_step (by omega)

/-- the cost of one matched pair of poses -/
theorem pair_pow {p q : V3 (RDbl M)} (hp : Moderate p) (hq : Moderate q) :
    ∃ a b, Flt.sqrt ((p.xy.sub q.xy).dot (p.xy.sub q.xy)) = .fin a ∧ |a| ≤ 2 ^ 210 ∧
      fabs (normalizeAnglePI (normalizeAnglePI p.c2 -. q.c2)) = .fin b ∧ |b| ≤ 2 ^ 210 := by
  obtain ⟨x, y, t, rfl, hx, hy, ht⟩ := hp
  obtain ⟨x', y', t', rfl, hx', hy', ht'⟩ := hq
  have d0 : |M.rnd (x - x')| ≤ 2 ^ 101 := rnd_le_pow (sub_pow hx hx')
  have d1 : |M.rnd (y - y')| ≤ 2 ^ 101 := rnd_le_pow (sub_pow hy hy')
  have e0 : |M.rnd (M.rnd (x - x') * M.rnd (x - x'))| ≤ 2 ^ 202 := rnd_le_pow (mul_pow' d0 d0)
  have e1 : |M.rnd (M.rnd (y - y') * M.rnd (y - y'))| ≤ 2 ^ 202 := rnd_le_pow (mul_pow' d1 d1)
  have e := rnd_le_pow (M := M) (add_pow e0 e1)
  have n0 := M.rnd_nonneg (add_nonneg (M.rnd_nonneg (mul_self_nonneg (M.rnd (x - x'))))
    (M.rnd_nonneg (mul_self_nonneg (M.rnd (y - y')))))
  obtain ⟨a, ha, ha1⟩ := sqrt_pow' n0 ((le_abs_self _).trans e)
  obtain ⟨b1, hb1, hb2⟩ := normalize_pow (M := M) (by norm_num) ht
  obtain ⟨b3, hb3, hb4⟩ := normalize_pow (M := M) (k := 110) (by norm_num)
    (rnd_le_pow (M := M) (sub_pow hb2 (ht'.trans (pow_step (by norm_num)))))
  obtain ⟨b, hb, hb5⟩ := fabs_pow (M := M) hb4
  refine ⟨a, b, ?_, ha1.trans (pow_step (by norm_num)), ?_, hb5.trans (pow_step (by norm_num))⟩
  · rw [← ha]
    simp only [V3.xy, V2.sub, V2.dot, RDbl.sub_fin, RDbl.mul_fin, RDbl.add_fin]
  · dsimp only
    rw [hb1, RDbl.sub_fin, hb3, hb]

theorem poseAfter_succ' (u x : V3 F) (dt : F) (k : Nat) :
    poseAfter u dt x (k + 1) = poseAfter u dt (stepPose u dt x) k := by
  unfold poseAfter; rw [Function.iterate_succ_apply]

/-- the cost of a free rollout is far below the largest double -/
theorem traj_pow {d : DynamicWindow (RDbl M)} {g : GridMap (RDbl M)} {u : V3 (RDbl M)}
    {ref : List (V3 (RDbl M))} {tf : RDbl M} (href : ∀ p ∈ ref, Moderate p) :
    ∀ (n : Nat) (x : V3 (RDbl M)) (t : RDbl M) (c0 : ℝ) (c : RDbl M) (a : Nat), 210 ≤ a → |c0| ≤ 2 ^ a →
      (∀ k < n, Moderate (poseAfter u d.dt x (k + 1))) →
      (∀ k < n, d.collision.collisionCheck g (poseAfter u d.dt x (k + 1)) = .ok false) →
      d.trajLoop g u ref tf n x t (.fin c0) = .ok c → ∃ r, c = .fin r ∧ |r| ≤ 2 ^ (a + 2 * n) := by
  intro n
  induction n with
  | zero =>
    intro x t c0 c a _ hc _ _ h
    simp only [DynamicWindow.trajLoop, Res.ok.injEq] at h
    exact ⟨c0, h.symm, hc⟩
  | succ n ih =>
    intro x t c0 c a ha hc hm hf h
    have f0 := hf 0 (by omega)
    have m0 := hm 0 (by omega)
    have e0 : poseAfter u d.dt x (0 + 1) = stepPose u d.dt x := rfl
    rw [e0] at f0 m0
    unfold DynamicWindow.trajLoop at h
    have f0 : d.collision.collisionCheck g
        { integrateTwist x u d.dt with c2 := normalizeAnglePI (integrateTwist x u d.dt).c2 } = .ok false := f0
    dsimp only at h
    rw [f0, Res.ok_bind, if_neg (by simp)] at h
    obtain ⟨j, -, h⟩ := Res.bind_eq_ok.mp h
    obtain ⟨xr, hxr, h⟩ := Res.bind_eq_ok.mp h
    have hxr : xr ∈ ref := List.mem_of_getElem? (col_eq_ok.mp hxr)
    obtain ⟨p, q, hp, hp1, hq, hq1⟩ := pair_pow (href xr hxr) m0
    have hp : Flt.sqrt ((xr.xy.sub (V3.xy { integrateTwist x u d.dt with
        c2 := normalizeAnglePI (integrateTwist x u d.dt).c2 })).dot (xr.xy.sub (V3.xy { integrateTwist x u d.dt with
        c2 := normalizeAnglePI (integrateTwist x u d.dt).c2 }))) = .fin p := hp
    have hq : fabs (normalizeAnglePI (normalizeAnglePI xr.c2 -. normalizeAnglePI (integrateTwist x u d.dt).c2)) =
        .fin q := hq
    rw [hp, hq, RDbl.add_fin, RDbl.add_fin] at h
    obtain ⟨r, hr, hr1⟩ := ih _ _ _ c (a + 2) (by omega)
      (rnd_le_pow (add_pow (rnd_le_pow (add_pow hc (hp1.trans (pow_step ha)))) (hq1.trans (pow_step (by omega)))))
      (fun k hk => by
        have := hm (k + 1) (by omega)
        rw [poseAfter_succ'] at this
        exact this)
      (fun k hk => by
        have := hf (k + 1) (by omega)
        rw [poseAfter_succ'] at this
        exact this) h
    exact ⟨r, hr, hr1.trans (pow_step (by omega))⟩

theorem not_close_rd {m : RDbl M} {c : ℝ} (hc : c ≤ 2 ^ 1000) (h : Flt.lt (.fin c) m = false) :
    almostEqual m Flt.maxFin = false := by
  have hl := maxFin_large
  have e12 := (M.err' minNormal_le_one (x := ((1 : ℤ) : ℝ) / 10 ^ 12) (by norm_num [abs_of_pos])).2
  unfold almostEqual
  rw [RDbl.maxFin_fin, RDbl.lit_fin]
  rcases m with _ | b | m
  · rfl
  · cases b <;> rfl
  · have h : m ≤ c := (RDbl.lt_fin_false (M := M) c m).mp h
    show Flt.lt (fabs ((.fin m : RDbl M) -. .fin (2 ^ 1024 - 2 ^ 971))) _ = false
    rw [RDbl.sub_fin]
    have hr : M.rnd (m - (2 ^ 1024 - 2 ^ 971)) ≤ ((-1 : ℤ) : ℝ) := M.rnd_le_int (by norm_num) (by
      push_cast
      generalize (2 : ℝ) ^ 1024 - 2 ^ 971 = z at hl
      generalize (2 : ℝ) ^ 1000 = y at hl hc
      linarith)
    generalize M.rnd (m - (2 ^ 1024 - 2 ^ 971)) = r at hr
    unfold fabs
    rw [RDbl.lit_fin, Int.cast_zero, zero_div, M.rnd_zero]
    norm_num at hr e12
    rw [if_pos (by rw [RDbl.lt_fin]; linarith), RDbl.neg_fin, RDbl.lt_fin_false]
    norm_num
    linarith

/-- If some sampled twist of a search has a cost of ordinary size the search succeeds. -/
theorem found_rd {d : DynamicWindow (RDbl M)} {vb u v : V3 (RDbl M)} {cost : V3 (RDbl M) → Res (RDbl M)} {b : Bool}
    (h : d.searchWindow vb cost = .ok (b, u)) (hv : IsSample d vb v)
    (hc : ∀ c, cost v = .ok c → ∃ r, c = .fin r ∧ |r| ≤ 2 ^ 1000) : b = true := by
  obtain ⟨m, h1, hb, -⟩ := searchWindow_spec d vb cost b u h
  obtain ⟨c, hcv, hlt⟩ := h1 v hv
  obtain ⟨r, rfl, hr⟩ := hc c hcv
  cases b with
  | true => rfl
  | false =>
    have := not_close_rd ((le_abs_self r).trans hr) hlt
    rw [hb.mp rfl] at this
    cases this

/-- C122, tracking a reference: with rounding, if the rollout of some sampled twist is free and reference and
rollout stay within `2^100` metres, the search of at most 300 steps finds a sampled twist whose rollout is
free. -/
theorem C122_found_traj {d : DynamicWindow (RDbl M)} {g : GridMap (RDbl M)} {x0 vb u v : V3 (RDbl M)}
    {ref : List (V3 (RDbl M))} {dt_ref : RDbl M} {b : Bool} (hs : d.steps.toNat ≤ 300)
    (href : ∀ p ∈ ref, Moderate p) (hv : IsSample d vb v) (hf : FreeRollout d g x0 v)
    (hm : ∀ k < d.steps.toNat, Moderate (poseAfter v d.dt x0 (k + 1)))
    (h : d.controlTraj g x0 vb ref dt_ref = .ok (b, u)) :
    b = true ∧ IsSample d vb u ∧ FreeRollout d g x0 u := by
  have hb : b = true := found_rd h hv (by
    intro c hc
    have hz : (lit 0 0 : RDbl M) = .fin 0 := by simp
    unfold DynamicWindow.objectiveTraj at hc
    rw [hz] at hc
    obtain ⟨r, hr, hr1⟩ := traj_pow (a := 210) href _ _ _ 0 c le_rfl (by simp) hm hf hc
    exact ⟨r, hr, hr1.trans (pow_step (by omega))⟩)
  subst hb
  refine ⟨rfl, ?_⟩
  rcases search_free (vref := V3.zero) (.inr h) with hz | ⟨hz, -⟩
  · exact hz
  · cases hz

/-- C122, tracking a twist. -/
theorem C122_found_twist {d : DynamicWindow (RDbl M)} {g : GridMap (RDbl M)} {x0 vb vref u v : V3 (RDbl M)}
    {b : Bool} (href : Moderate vref) (hv : IsSample d vb v) (hf : FreeRollout d g x0 v) (hm : Moderate v)
    (h : d.controlTwist g x0 vb vref = .ok (b, u)) :
    b = true ∧ IsSample d vb u ∧ FreeRollout d g x0 u := by
  have hb : b = true := found_rd h hv (by
    intro c hc
    rcases (objectiveTwist_ok d g x0 vref v c).mp hc with ⟨-, rfl⟩ | ⟨hhit, -⟩
    · obtain ⟨x, y, t, rfl, hx, hy, ht⟩ := href
      obtain ⟨x', y', t', rfl, hx', hy', ht'⟩ := hm
      have d0 : |M.rnd (x - x')| ≤ 2 ^ 101 := rnd_le_pow (sub_pow hx hx')
      have d1 : |M.rnd (y - y')| ≤ 2 ^ 101 := rnd_le_pow (sub_pow hy hy')
      have d2 : |M.rnd (t - t')| ≤ 2 ^ 101 := rnd_le_pow (sub_pow ht ht')
      refine ⟨_, by simp only [V3.sub, V3.dot, RDbl.sub_fin, RDbl.mul_fin, RDbl.add_fin]; rfl, ?_⟩
      refine (rnd_le_pow (add_pow (k := 203) (rnd_le_pow (add_pow (k := 202) (rnd_le_pow (mul_pow' d0 d0))
        (rnd_le_pow (mul_pow' d1 d1)))) ((rnd_le_pow (mul_pow' d2 d2)).trans (pow_step (by norm_num))))).trans
        (pow_step (by norm_num))
    · exact absurd hf (not_free_of_hit hhit))
  subst hb
  refine ⟨rfl, ?_⟩
  rcases search_free (ref := []) (dt_ref := lit 0 0) (.inl h) with hz | ⟨hz, -⟩
  · exact hz
  · cases hz

/-! ## standing still -/

theorem zero_close : almostEqual (.fin 0 : RDbl M) (lit 0 0) = true := by
  have e := (M.err' minNormal_le_one (x := ((1 : ℤ) : ℝ) / 10 ^ 12) (by norm_num [abs_of_pos])).1
  unfold almostEqual
  rw [RDbl.lit_fin 0 0, RDbl.lit_fin 1 12, RDbl.sub_fin]
  simp only [Int.cast_zero, zero_div, M.rnd_zero, sub_zero]
  rw [fabs_rd le_rfl, RDbl.lt_fin]
  norm_num at e ⊢
  linarith

/-- A robot that stands still on representable coordinates stays there. -/
theorem standing_at {x y : ℝ} (hx : M.rnd x = x) (hy : M.rnd y = y) (dt : ℝ) {th : ℝ} (hth : |th| ≤ 4) (k : ℕ) :
    ∃ th', poseAfter (⟨.fin 0, .fin 0, .fin 0⟩ : V3 (RDbl M)) (.fin dt) ⟨.fin x, .fin y, .fin th⟩ k =
      ⟨.fin x, .fin y, .fin th'⟩ ∧ |th'| ≤ 4 := by
  have ⟨p0, p1⟩ := piR_bounds M
  induction k generalizing th with
  | zero => exact ⟨th, rfl, hth⟩
  | succ k ih =>
    have hs : ∃ th', stepPose (⟨.fin 0, .fin 0, .fin 0⟩ : V3 (RDbl M)) (.fin dt) ⟨.fin x, .fin y, .fin th⟩ =
        ⟨.fin x, .fin y, .fin th'⟩ ∧ |th'| ≤ 4 := by
      have hr : |M.rnd (th + 0)| ≤ 2 ^ 2 := rnd_le_pow (by rw [add_zero]; norm_num; exact hth)
      have ⟨r0, r1⟩ := abs_le.mp hr
      obtain ⟨w, hw, w0, w1⟩ := C82_range_PI_partial (M := M) (M.rnd (th + 0)) (by linarith) (by linarith)
      refine ⟨w, ?_, abs_le.mpr ⟨by linarith, by linarith⟩⟩
      unfold stepPose integrateTwist
      dsimp only
      rw [if_pos zero_close]
      simp only [transform2dAngle, M3.mulVec, V3.add, V3.dot, RDbl.mul_fin, RDbl.add_fin, RDbl.lit_fin,
        RDbl.cos_fin, RDbl.sin_fin, RDbl.neg_fin, zero_mul, mul_zero, M.rnd_zero, Int.cast_zero, zero_div,
        add_zero, hx, hy]
      rw [add_zero] at hw
      rw [hw]
    obtain ⟨th', hs, ht⟩ := hs
    rw [poseAfter_succ', hs]
    exact ih ht

/-- The check does not depend on the heading. -/
theorem check_heading (c : Collision F) (g : GridMap F) (x y th th' : F) :
    c.collisionCheck g ⟨x, y, th⟩ = c.collisionCheck g ⟨x, y, th'⟩ := rfl

/-- C122: standing still at a free place is free. -/
theorem C122_stay {d : DynamicWindow (RDbl M)} {g : GridMap (RDbl M)} {x y th dt : ℝ} (hd : d.dt = .fin dt)
    (hx : M.rnd x = x) (hy : M.rnd y = y) (ht : |th| ≤ 4)
    (h : d.collision.collisionCheck g ⟨.fin x, .fin y, .fin th⟩ = .ok false) :
    FreeRollout d g ⟨.fin x, .fin y, .fin th⟩ ⟨.fin 0, .fin 0, .fin 0⟩ := by
  intro k _
  obtain ⟨th', he, -⟩ := standing_at (M := M) hx hy dt ht (k + 1)
  rw [hd, he, check_heading _ _ _ _ _ (.fin th)]
  exact h

/-! ## which windows contain the zero twist -/

theorem axis_zero {r : ℝ} (h0 : 0 ≤ r) {n : UInt32} (hn : n ≠ 0) :
    (∃ k < n.toNat, stride (-r) (DynamicWindow.delta n (-r) r) k = 0) ↔ ZeroSampled r n.toNat := by
  have hn0 : n.toNat ≠ 0 := fun hz => hn (UInt32.toNat_inj.mp (by rw [hz]; rfl))
  unfold ZeroSampled DynamicWindow.delta
  simp only [stride_real]
  by_cases h1 : 1 < n
  · have h1' : 1 < n.toNat := by simpa [UInt32.lt_iff_toNat_lt] using h1
    have hs : (n - 1).toNat = n.toNat - 1 := by
      rw [UInt32.toNat_sub_of_le _ _ (by rw [UInt32.le_iff_toNat_le]; simpa using h1'.le)]; rfl
    rw [if_pos h1]
    simp only [real_sub, real_div, real_ofInt, hs]
    have hc : (((n.toNat - 1 : ℕ) : ℤ) : ℝ) = n.toNat - 1 := by
      push_cast [Nat.cast_sub h1'.le]; ring
    have hpos : (0:ℝ) < n.toNat - 1 := by
      have : (1:ℝ) < n.toNat := by exact_mod_cast h1'
      linarith
    rw [hc]
    constructor
    · rintro ⟨k, hk, he⟩
      rcases h0.eq_or_lt with hz | hp
      · exact .inl hz.symm
      · right
        have : (2 * k : ℝ) = n.toNat - 1 := by
          field_simp at he
          nlinarith
        have h2 : 2 * k + 1 = n.toNat := by
          have : (2 * k + 1 : ℝ) = n.toNat := by linarith
          exact_mod_cast this
        exact ⟨by omega, k, h2.symm⟩
    · rintro (rfl | ⟨h3, k, hk⟩)
      · exact ⟨0, by omega, by simp⟩
      · refine ⟨k, by omega, ?_⟩
        have : (n.toNat : ℝ) = 2 * k + 1 := by exact_mod_cast hk
        rw [this]
        have hk0 : (0:ℝ) < k := by
          have : 0 < k := by omega
          exact_mod_cast this
        field_simp
        ring
  · have h1' : n.toNat = 1 := by
      have : ¬ 1 < n.toNat := by simpa [UInt32.lt_iff_toNat_lt] using h1
      omega
    rw [if_neg h1, h1']
    constructor
    · rintro ⟨k, hk, he⟩
      left
      simpa using he
    · rintro (rfl | ⟨h3, -⟩)
      · exact ⟨0, by omega, by simp⟩
      · omega

/-- C122: in exact arithmetic a robot at rest with symmetric limits has the zero twist among its sampled
twists exactly if on every axis it cannot move at all or takes an odd number, at least three, of samples. -/
theorem C122_rest_sample (d : DynamicWindow ℝ) (hx : d.min_vel_x = -d.max_vel_x) (hy : d.min_vel_y = -d.max_vel_y)
    (ht : d.min_rot_vel = -d.max_rot_vel) (hx0 : 0 ≤ d.max_vel_x) (hy0 : 0 ≤ d.max_vel_y)
    (ht0 : 0 ≤ d.max_rot_vel) (ax : 0 ≤ d.acc_lim_x * d.acc_dt) (ay : 0 ≤ d.acc_lim_y * d.acc_dt)
    (at0 : 0 ≤ d.acc_lim_th * d.acc_dt) (nx : d.vx_samples ≠ 0) (ny : d.vy_samples ≠ 0) (nt : d.vth_samples ≠ 0) :
    IsSample d V3.zero V3.zero ↔
      ZeroSampled (min (d.acc_lim_x * d.acc_dt) d.max_vel_x) d.vx_samples.toNat ∧
      ZeroSampled (min (d.acc_lim_y * d.acc_dt) d.max_vel_y) d.vy_samples.toNat ∧
      ZeroSampled (min (d.acc_lim_th * d.acc_dt) d.max_rot_vel) d.vth_samples.toNat := by
  have lo : ∀ a m : ℝ, fmax (lit 0 0 -. a) (-m) = -min a m := by
    intro a m
    rw [real_fmax, real_sub, real_lit]
    rcases le_total a m with h | h
    · rw [min_eq_left h, max_eq_left (by norm_num; linarith)]; norm_num
    · rw [min_eq_right h, max_eq_right (by norm_num; linarith)]
  have up : ∀ a m : ℝ, fmin (lit 0 0 +. a) m = min a m := by
    intro a m
    rw [real_fmin, real_add, real_lit]; norm_num
  rw [← axis_zero (le_min ax hx0) nx, ← axis_zero (le_min ay hy0) ny, ← axis_zero (le_min at0 ht0) nt]
  unfold IsSample DynamicWindow.window DynamicWindow.velLower DynamicWindow.velUpper
  dsimp only [V3.zero]
  rw [hx, hy, ht]
  simp only [real_mul, lo, up, V3.mk.injEq]
  have z : (lit 0 0 : ℝ) = 0 := by simp
  rw [z]
  constructor
  · rintro ⟨i, hi, j, hj, k, hk, e0, e1, e2⟩
    exact ⟨⟨i, hi, e0.symm⟩, ⟨j, hj, e1.symm⟩, k, hk, e2.symm⟩
  · rintro ⟨⟨i, hi, e0⟩, ⟨j, hj, e1⟩, k, hk, e2⟩
    exact ⟨i, hi, j, hj, k, hk, e0.symm, e1.symm, e2.symm⟩

theorem standing_real (dt : ℝ) (x : V3 ℝ) (k : ℕ) :
    (poseAfter (V3.zero : V3 ℝ) dt x k).c0 = x.c0 ∧ (poseAfter (V3.zero : V3 ℝ) dt x k).c1 = x.c1 := by
  induction k generalizing x with
  | zero => exact ⟨rfl, rfl⟩
  | succ k ih =>
    rw [poseAfter_succ']
    obtain ⟨h0, h1⟩ := ih (stepPose V3.zero dt x)
    have e : (stepPose V3.zero dt x).c0 = x.c0 ∧ (stepPose V3.zero dt x).c1 = x.c1 := by
      have := integrateTwist_line (x := x) (u := V3.zero) (t := dt) (by norm_num [V3.zero])
      unfold stepPose
      dsimp only
      rw [this]
      simp [flow, V3.zero]
    rw [h0, h1]
    exact e

/-- C122 (missing: numbers of samples that leave out zero, see `C122_refuted`): in exact arithmetic a robot at
rest at a free place, with odd numbers of samples on the axes it can move along, never gives up: the iteration
publishes the validated plan or a sampled twist whose rollout is free. -/
theorem C122_node_partial {model : TwistModel ℝ} (hm : model = omniModel ∨ model = cartModel)
    {collision : Collision ℝ} {dt horizon resolution weight : ℝ} {num_basis buffer_size batch_size : Nat}
    {Rinv : M3 ℝ} {umin umax : V3 ℝ} {s t : Expl ℝ} {tf : Option (TransformMsg ℝ)} {draws : List Nat}
    {o : List (Out ℝ)} {vmax : ℝ}
    (hb : EcBuilt model collision dt horizon resolution weight num_basis buffer_size batch_size Rinv umin umax s.ec)
    (hdt : 0 < dt) (hsteps : s.ec.steps ≠ 0)
    (hlim : ∀ v : V3 ℝ, umin.c0 ≤ v.c0 → v.c0 ≤ umax.c0 → umin.c1 ≤ v.c1 → v.c1 ≤ umax.c1 → speed v ≤ vmax)
    (hlong : vmax * dt ≤ 2 ^ 900)
    (h : s.iteration tf draws = .ok (t, o)) (hf : s.follow_dwa = false) (hddt : 0 < s.dwa.dt)
    (hact : s.map_received = true ∧ (s.localize tf).pose_known = true)
    (hrest : s.vb = V3.zero) (hsym : s.dwa.min_vel_x = -s.dwa.max_vel_x ∧ s.dwa.min_vel_y = -s.dwa.max_vel_y ∧
      s.dwa.min_rot_vel = -s.dwa.max_rot_vel)
    (hpos : 0 ≤ s.dwa.max_vel_x ∧ 0 ≤ s.dwa.max_vel_y ∧ 0 ≤ s.dwa.max_rot_vel)
    (hacc : 0 ≤ s.dwa.acc_lim_x * s.dwa.acc_dt ∧ 0 ≤ s.dwa.acc_lim_y * s.dwa.acc_dt ∧
      0 ≤ s.dwa.acc_lim_th * s.dwa.acc_dt)
    (hne : s.dwa.vx_samples ≠ 0 ∧ s.dwa.vy_samples ≠ 0 ∧ s.dwa.vth_samples ≠ 0)
    (hodd : ZeroSampled (min (s.dwa.acc_lim_x * s.dwa.acc_dt) s.dwa.max_vel_x) s.dwa.vx_samples.toNat ∧
      ZeroSampled (min (s.dwa.acc_lim_y * s.dwa.acc_dt) s.dwa.max_vel_y) s.dwa.vy_samples.toNat ∧
      ZeroSampled (min (s.dwa.acc_lim_th * s.dwa.acc_dt) s.dwa.max_rot_vel) s.dwa.vth_samples.toNat)
    (hfree : s.dwa.collision.collisionCheck s.grid (s.localize tf).pose = .ok false) :
    twists o = [t.u] ∧
    ((t.follow_dwa = false ∧
        validateControl s.collision s.grid (s.localize tf).pose t.u s.val_dt s.val_horizon = .ok true) ∨
      (t.follow_dwa = true ∧ IsSample s.dwa s.vb t.u ∧ FreeRollout s.dwa s.grid (s.localize tf).pose t.u)) := by
  refine C119_way_out_partial hm hb hdt hsteps hlim hlong h hf hddt hact ⟨V3.zero, ?_, ?_, ?_⟩
  · rw [hrest]
    exact (C122_rest_sample s.dwa hsym.1 hsym.2.1 hsym.2.2 hpos.1 hpos.2.1 hpos.2.2 hacc.1 hacc.2.1 hacc.2.2
      hne.1 hne.2.1 hne.2.2).mpr hodd
  · intro k _
    obtain ⟨e0, e1⟩ := standing_real s.dwa.dt (s.localize tf).pose (k + 1)
    have : s.dwa.collision.collisionCheck s.grid (poseAfter V3.zero s.dwa.dt (s.localize tf).pose (k + 1)) =
        s.dwa.collision.collisionCheck s.grid (s.localize tf).pose := by
      rw [show poseAfter V3.zero s.dwa.dt (s.localize tf).pose (k + 1) = ⟨(s.localize tf).pose.c0,
        (s.localize tf).pose.c1, (poseAfter V3.zero s.dwa.dt (s.localize tf).pose (k + 1)).c2⟩ by rw [← e0, ← e1]]
      rfl
    rw [this]
    exact hfree
  · have : speed (V3.zero : V3 ℝ) = 0 := by unfold speed V3.zero; norm_num
    rw [this, zero_mul]
    positivity

/-! ## the shipped configurations -/

theorem dwa_steps {n : UInt32} (h : numSteps (.fin 2 : RDbl M) (.fin (M.rnd (1 / 10))) = .ok n) :
    0 < n.toNat ∧ n.toNat ≤ 300 := by
  have ht := tenth_at (M := M)
  norm_num at ht
  have tp : 0 < M.rnd (1 / 10) := by norm_num; linarith
  obtain ⟨k, h3, h5, -⟩ := numSteps_fin (M := M) (h := 2) (d := M.rnd (1 / 10)) (by norm_num) tp
    (by norm_num; linarith)
  obtain rfl : k = n := Res.ok.inj (h3.symm.trans h)
  rw [h5]
  have q0 : (1 : ℝ) ≤ 2 / M.rnd (1 / 10) := by
    rw [le_div_iff₀ tp]
    norm_num; linarith
  have q1 : 2 / M.rnd (1 / 10) ≤ 300 := by
    rw [div_le_iff₀ tp]
    norm_num; linarith
  have r0 := M.int_le_rnd (n := 1) (by norm_num) (x := 2 / M.rnd (1 / 10)) (by exact_mod_cast q0)
  have r1 := M.rnd_le_int (n := 300) (by norm_num) (x := 2 / M.rnd (1 / 10)) (by exact_mod_cast q1)
  exact ⟨Nat.floor_pos.mpr (by exact_mod_cast r0), Nat.floor_le_of_le (by exact_mod_cast r1)⟩

/-- the search of the shipped cart -/
theorem cart_dwa {n : Node (RDbl M)} {o : List (Out (RDbl M))} (hn : cartYaml.cart = .ok (n, o)) :
    n.expl.dwa.collision = shippedDetector M ∧ n.expl.dwa.dt = .fin (M.rnd (1 / 10)) ∧
    (0 < n.expl.dwa.steps.toNat ∧ n.expl.dwa.steps.toNat ≤ 300) ∧
    n.expl.dwa.vx_samples = 3 ∧ n.expl.dwa.vy_samples = 1 ∧ n.expl.dwa.vth_samples = 5 ∧
    n.expl.dwa.acc_dt = .fin (M.rnd (1 / 5)) ∧
    (n.expl.dwa.acc_lim_x = .fin (M.rnd (5 / 2)) ∧ n.expl.dwa.max_vel_x = .fin 1 ∧ n.expl.dwa.min_vel_x = .fin (-1)) ∧
    (n.expl.dwa.acc_lim_y = .fin 0 ∧ n.expl.dwa.max_vel_y = .fin 0 ∧ n.expl.dwa.min_vel_y = .fin 0) ∧
    n.expl.dwa.acc_lim_th = .fin 1 ∧ n.expl.dwa.max_rot_vel = .fin 2 ∧ n.expl.dwa.min_rot_vel = .fin (-2) := by
  obtain ⟨-, p, hp, h⟩ := ((C88_launch _ _).1).mp hn
  rw [cartYaml_params, Res.ok.injEq] at hp
  subst hp
  obtain ⟨w0, w1, gs, collision, ec, dwa, ⟨-, -, -, hcol⟩, hec, hdwa, hst, -⟩ := cart_parts h
  obtain rfl : collision = shippedDetector M := (Res.ok.inj (shipped_collision.symm.trans hcol)).symm
  have hst : n.expl = _ := congrArg Prod.fst hst
  have hst : n.expl.dwa = dwa := by rw [hst]; rfl
  simp only [DynamicWindow.new, Res.bind_eq_ok, Res.ok.injEq] at hdwa
  obtain ⟨steps, hsteps, hd⟩ := hdwa
  have hz : (lit 0 0 : RDbl M) = .fin 0 := by simp
  rw [hst, ← hd]
  exact ⟨rfl, rfl, dwa_steps hsteps, rfl, rfl, rfl, rfl, ⟨rfl, rfl, rfl⟩, ⟨hz, hz, hz⟩, rfl, rfl, rfl⟩

/-- the search of the shipped omnidirectional robot -/
theorem omni_dwa {n : Node (RDbl M)} {o : List (Out (RDbl M))} (hn : omniYaml.omni = .ok (n, o)) :
    n.expl.dwa.collision = shippedDetector M ∧ n.expl.dwa.dt = .fin (M.rnd (1 / 10)) ∧
    (0 < n.expl.dwa.steps.toNat ∧ n.expl.dwa.steps.toNat ≤ 300) ∧
    n.expl.dwa.vx_samples = 3 ∧ n.expl.dwa.vy_samples = 8 ∧ n.expl.dwa.vth_samples = 5 ∧
    n.expl.dwa.acc_dt = .fin (M.rnd (1 / 5)) ∧
    (n.expl.dwa.acc_lim_x = .fin (M.rnd (5 / 2)) ∧ n.expl.dwa.max_vel_x = .fin 1 ∧ n.expl.dwa.min_vel_x = .fin (-1)) ∧
    (n.expl.dwa.acc_lim_y = .fin (M.rnd (5 / 2)) ∧ n.expl.dwa.max_vel_y = .fin 1 ∧ n.expl.dwa.min_vel_y = .fin (-1)) ∧
    n.expl.dwa.acc_lim_th = .fin 1 ∧ n.expl.dwa.max_rot_vel = .fin 2 ∧ n.expl.dwa.min_rot_vel = .fin (-2) := by
  obtain ⟨-, p, hp, h⟩ := ((C88_launch _ _).2).mp hn
  rw [omniYaml_params, Res.ok.injEq] at hp
  subst hp
  obtain ⟨w0, w1, w2, gs, collision, ec, dwa, ⟨-, -, -, -, hcol⟩, hec, hdwa, hst, -⟩ := omni_parts h
  obtain rfl : collision = shippedDetector M := (Res.ok.inj (shipped_collision.symm.trans hcol)).symm
  have hst : n.expl = _ := congrArg Prod.fst hst
  have hst : n.expl.dwa = dwa := by rw [hst]; rfl
  simp only [DynamicWindow.new, Res.bind_eq_ok, Res.ok.injEq] at hdwa
  obtain ⟨steps, hsteps, hd⟩ := hdwa
  rw [hst, ← hd]
  exact ⟨rfl, rfl, dwa_steps hsteps, rfl, rfl, rfl, rfl, ⟨rfl, rfl, rfl⟩, ⟨rfl, rfl, rfl⟩, rfl, rfl, rfl⟩

/-- the interval of one axis at rest: as much as the acceleration allows -/
theorem rest_axis {acc lim p : ℝ} (hp : M.rnd (acc * M.rnd (1 / 5)) = p) (h1 : p ≤ lim) :
    fmax ((.fin 0 : RDbl M) -. .fin acc *. .fin (M.rnd (1 / 5))) (.fin (-lim)) = .fin (-p) ∧
    fmin ((.fin 0 : RDbl M) +. .fin acc *. .fin (M.rnd (1 / 5))) (.fin lim) = .fin p := by
  have hi : M.rnd p = p := by rw [← hp, M.idem]
  constructor
  · rw [RDbl.mul_fin, hp, RDbl.sub_fin, zero_sub, M.neg, hi, fmax_rd, max_eq_left (by linarith)]
  · rw [RDbl.mul_fin, hp, RDbl.add_fin, zero_add, hi, fmin_rd, min_eq_left h1]

/-- what half a metre per second is in the window -/
theorem half_at : 1 / 2 - 1 / 2 ^ 46 ≤ M.rnd (M.rnd (5 / 2) * M.rnd (1 / 5)) ∧
    M.rnd (M.rnd (5 / 2) * M.rnd (1 / 5)) ≤ 1 / 2 + 1 / 2 ^ 46 := by
  have ⟨p0, p1⟩ := rnd_at (M := M) (x := 5 / 2) (B := 4) (by norm_num) (by norm_num [abs_of_pos])
  have ⟨q0, q1⟩ := rnd_at (M := M) (x := 1 / 5) (B := 1) le_rfl (by norm_num [abs_of_pos])
  norm_num at p0 p1 q0 q1
  have m0 : 1 / 2 - 1 / 2 ^ 48 ≤ M.rnd (5 / 2) * M.rnd (1 / 5) := by norm_num; nlinarith
  have m1 : M.rnd (5 / 2) * M.rnd (1 / 5) ≤ 1 / 2 + 1 / 2 ^ 48 := by norm_num; nlinarith
  norm_num at m0 m1
  have ⟨r0, r1⟩ := rnd_at (M := M) (x := M.rnd (5 / 2) * M.rnd (1 / 5)) (B := 1) le_rfl
    (abs_le.mpr ⟨by norm_num; linarith, by norm_num; linarith⟩)
  norm_num at r0 r1 ⊢
  constructor <;> linarith

/-- the stopping sample among three -/
theorem three_zero {p : ℝ} (hp : M.rnd p = p) :
    stride (.fin (-p) : RDbl M) (DynamicWindow.delta 3 (.fin (-p)) (.fin p)) 1 = .fin 0 := by
  have h2 : (Flt.ofInt (((3 : UInt32) - 1).toNat : Int) : RDbl M) = .fin 2 := by
    show (.fin (M.rnd (((2 : ℕ) : ℤ) : ℝ)) : RDbl M) = _
    norm_num
  unfold DynamicWindow.delta
  rw [if_pos (by decide), h2, RDbl.sub_fin, show p - -p = 2 * p by ring, M.double _ hp,
    RDbl.div_fin _ (by norm_num), show 2 * p / 2 = p by ring, hp]
  show (.fin (-p) : RDbl M) +. .fin p = _
  rw [RDbl.add_fin, neg_add_cancel, M.rnd_zero]

/-- the stopping sample among five -/
theorem five_zero {p : ℝ} (hp : M.rnd p = p) (hh : M.rnd (p / 2) = p / 2) :
    stride (.fin (-p) : RDbl M) (DynamicWindow.delta 5 (.fin (-p)) (.fin p)) 2 = .fin 0 := by
  have h4 : (Flt.ofInt (((5 : UInt32) - 1).toNat : Int) : RDbl M) = .fin 4 := by
    show (.fin (M.rnd (((4 : ℕ) : ℤ) : ℝ)) : RDbl M) = _
    rw [M.int _ (by norm_num)]; norm_num
  unfold DynamicWindow.delta
  rw [if_pos (by decide), h4, RDbl.sub_fin, show p - -p = 2 * p by ring, M.double _ hp,
    RDbl.div_fin _ (by norm_num), show 2 * p / 4 = p / 2 by ring, hh]
  show ((.fin (-p) : RDbl M) +. .fin (p / 2)) +. .fin (p / 2) = _
  rw [RDbl.add_fin, show -p + p / 2 = -(p / 2) by ring, M.neg, hh, RDbl.add_fin, neg_add_cancel, M.rnd_zero]

theorem ieee_tenth_half : ieee.rnd (ieee.rnd (1 / 5) / 2) = ieee.rnd (1 / 5) / 2 := by
  rw [ieee_fifth]
  show Ieee.rnd _ = _
  rw [Ieee.rnd_eq 7205759403792794 (-56) (by norm_num) (by norm_num [abs_of_pos])
    (by norm_num [abs_of_pos]) (by rw [abs_lt]; constructor <;> norm_num)]
  norm_num

/-- C122: the zero twist is among the sampled twists of the shipped cart at rest, in double precision. -/
theorem C122_cart_sample {n : Node (RDbl ieee)} {o : List (Out (RDbl ieee))} (hn : cartYaml.cart = .ok (n, o)) :
    IsSample n.expl.dwa V3.zero V3.zero := by
  obtain ⟨-, -, -, nx, ny, nt, hdt, ⟨x0, x1, x2⟩, ⟨y0, y1, y2⟩, t0, t1, t2⟩ := cart_dwa hn
  have hz : (lit 0 0 : RDbl ieee) = .fin 0 := by simp
  have ⟨h0, h1⟩ := half_at (M := ieee)
  have ⟨q0, q1⟩ := rnd_at (M := ieee) (x := 1 / 5) (B := 1) le_rfl (by norm_num [abs_of_pos])
  norm_num at h0 h1 q0 q1
  have hq : ieee.rnd (1 * ieee.rnd (1 / 5)) = ieee.rnd (1 / 5) := by rw [one_mul, ieee.idem]
  obtain ⟨a0, a1⟩ := rest_axis (M := ieee) (acc := ieee.rnd (5 / 2)) (lim := 1) rfl (by norm_num; linarith)
  obtain ⟨c0, c1⟩ := rest_axis (M := ieee) (acc := 1) (lim := 2) hq (by norm_num; linarith)
  obtain ⟨b0, b1⟩ := rest_axis (M := ieee) (acc := 0) (lim := 0) (p := 0) (by simp) le_rfl
  rw [neg_zero] at b0
  have e0 := three_zero (M := ieee) (p := ieee.rnd (ieee.rnd (5 / 2) * ieee.rnd (1 / 5))) (ieee.idem _)
  have e2 := five_zero (M := ieee) (p := ieee.rnd (1 / 5)) (ieee.idem _) ieee_tenth_half
  unfold IsSample DynamicWindow.window DynamicWindow.velLower DynamicWindow.velUpper
  dsimp only [V3.zero]
  rw [nx, ny, nt, hdt, x0, x1, x2, y0, y1, y2, t0, t1, t2, hz, a0, a1, b0, b1, c0, c1]
  refine ⟨1, by decide, 0, by decide, 2, by decide, ?_⟩
  rw [V3.mk.injEq]
  exact ⟨e0.symm, rfl, e2.symm⟩

/-- C122 (missing: the omnidirectional robot, see `C122_refuted`): the shipped cart, at rest at a free place
with representable coordinates, finds a sampled twist with a free rollout. -/
theorem C122_cart_partial {n : Node (RDbl ieee)} {o : List (Out (RDbl ieee))} (hn : cartYaml.cart = .ok (n, o))
    {g : GridMap (RDbl ieee)} {x y th : ℝ} (hx : ieee.rnd x = x) (hy : ieee.rnd y = y) (hx1 : |x| ≤ 2 ^ 100)
    (hy1 : |y| ≤ 2 ^ 100) (ht : |th| ≤ 4)
    (hfree : n.expl.dwa.collision.collisionCheck g ⟨.fin x, .fin y, .fin th⟩ = .ok false) {b : Bool}
    {u : V3 (RDbl ieee)} :
    (∀ ref dt_ref, (∀ p ∈ ref, Moderate p) →
      n.expl.dwa.controlTraj g ⟨.fin x, .fin y, .fin th⟩ V3.zero ref dt_ref = .ok (b, u) →
      b = true ∧ IsSample n.expl.dwa V3.zero u ∧ FreeRollout n.expl.dwa g ⟨.fin x, .fin y, .fin th⟩ u) ∧
    (∀ vref, Moderate vref →
      n.expl.dwa.controlTwist g ⟨.fin x, .fin y, .fin th⟩ V3.zero vref = .ok (b, u) →
      b = true ∧ IsSample n.expl.dwa V3.zero u ∧ FreeRollout n.expl.dwa g ⟨.fin x, .fin y, .fin th⟩ u) := by
  obtain ⟨-, hdt, ⟨-, hst⟩, -⟩ := cart_dwa hn
  have hs := C122_cart_sample hn
  have hz : (V3.zero : V3 (RDbl ieee)) = ⟨.fin 0, .fin 0, .fin 0⟩ := by simp [V3.zero]
  have hf := C122_stay (d := n.expl.dwa) hdt hx hy ht hfree
  have hm : ∀ k < n.expl.dwa.steps.toNat,
      Moderate (poseAfter (⟨.fin 0, .fin 0, .fin 0⟩ : V3 (RDbl ieee)) n.expl.dwa.dt ⟨.fin x, .fin y, .fin th⟩ (k + 1)) := by
    intro k _
    obtain ⟨t, he, ht'⟩ := standing_at hx hy (ieee.rnd (1 / 10)) ht (k + 1)
    rw [hdt, he]
    exact ⟨x, y, t, rfl, hx1, hy1, ht'.trans (by norm_num)⟩
  rw [hz] at hs ⊢
  exact ⟨fun ref dt_ref href h => C122_found_traj hst href hs hf hm h,
    fun vref href h => C122_found_twist href hs hf ⟨0, 0, 0, rfl, by simp, by simp, by simp⟩ h⟩

/-! ## the omnidirectional robot in a corridor -/

/-- eight samples from about `-1/2` to about `1/2` -/
theorem eight_stride {p : ℝ} (h0 : 1 / 2 - 1 / 2 ^ 46 ≤ p) (h1 : p ≤ 1 / 2 + 1 / 2 ^ 46) {k : Nat} (hk : k < 8) :
    ∃ s, stride (.fin (-p) : RDbl M) (DynamicWindow.delta 8 (.fin (-p)) (.fin p)) k = .fin s ∧
      |s - (-1 / 2 + k / 7)| ≤ (k + 1) / 2 ^ 40 := by
  norm_num at h0 h1
  have h7 : (Flt.ofInt (((8 : UInt32) - 1).toNat : Int) : RDbl M) = .fin 7 := by
    show (.fin (M.rnd (((7 : ℕ) : ℤ) : ℝ)) : RDbl M) = _
    rw [M.int _ (by norm_num)]; norm_num
  have ⟨w0, w1⟩ := rnd_at (M := M) (x := p - -p) (B := 2) (by norm_num)
    (abs_le.mpr ⟨by norm_num; linarith, by norm_num; linarith⟩)
  norm_num at w0 w1
  have ⟨d0, d1⟩ := rnd_at (M := M) (x := M.rnd (p + p) / 7) (B := 1) le_rfl
    (abs_le.mpr ⟨by linarith, by linarith⟩)
  norm_num at d0 d1
  have hd : DynamicWindow.delta 8 (.fin (-p) : RDbl M) (.fin p) = .fin (M.rnd (M.rnd (p + p) / 7)) := by
    unfold DynamicWindow.delta
    rw [if_pos (by decide), h7, RDbl.sub_fin, RDbl.div_fin _ (by norm_num), sub_neg_eq_add]
  rw [hd]
  generalize M.rnd (M.rnd (p + p) / 7) = D at d0 d1
  induction k with
  | zero =>
    refine ⟨-p, rfl, abs_le.mpr ⟨?_, ?_⟩⟩ <;> norm_num <;> linarith
  | succ k ih =>
    obtain ⟨s, hs, hb⟩ := ih (by omega)
    have hk' : (k : ℝ) ≤ 6 := by exact_mod_cast (by omega : k ≤ 6)
    have hk0 : (0:ℝ) ≤ k := Nat.cast_nonneg k
    have ⟨b0, b1⟩ := abs_le.mp hb
    norm_num at b0 b1
    have ⟨e0, e1⟩ := rnd_at (M := M) (x := s + D) (B := 2) (by norm_num)
      (abs_le.mpr ⟨by linarith, by linarith⟩)
    norm_num at e0 e1
    refine ⟨M.rnd (s + D), ?_, abs_le.mpr ⟨?_, ?_⟩⟩
    · have : stride (.fin (-p) : RDbl M) (.fin D) (k + 1) = stride (.fin (-p)) (.fin D) k +. .fin D := by
        unfold stride; rw [Function.iterate_succ_apply']
      rw [this, hs, RDbl.add_fin]
    · push_cast; norm_num; linarith
    · push_cast; norm_num; linarith

/-- C122: every sampled twist of the shipped omnidirectional robot at rest goes sideways, at 7 cm/s or more. -/
theorem C122_omni_sideways {n : Node (RDbl M)} {o : List (Out (RDbl M))} (hn : omniYaml.omni = .ok (n, o))
    {u : V3 (RDbl M)} (hu : IsSample n.expl.dwa V3.zero u) :
    ∃ a b c : ℝ, u = ⟨.fin a, .fin b, .fin c⟩ ∧ |a| ≤ 0.501 ∧ 0.0714 ≤ |b| ∧ |b| ≤ 0.501 ∧ |c| ≤ 0.201 := by
  obtain ⟨-, -, -, nx, ny, nt, hdt, ⟨x0, x1, x2⟩, ⟨y0, y1, y2⟩, t0, t1, t2⟩ := omni_dwa hn
  have hz : (lit 0 0 : RDbl M) = .fin 0 := by simp
  have ⟨h0, h1⟩ := half_at (M := M)
  have ⟨q0, q1⟩ := rnd_at (M := M) (x := 1 / 5) (B := 1) le_rfl (by norm_num [abs_of_pos])
  norm_num at h0 h1 q0 q1
  have hq : M.rnd (1 * M.rnd (1 / 5)) = M.rnd (1 / 5) := by rw [one_mul, M.idem]
  obtain ⟨a0, a1⟩ := rest_axis (M := M) (acc := M.rnd (5 / 2)) (lim := 1) rfl (by norm_num; linarith)
  obtain ⟨c0, c1⟩ := rest_axis (M := M) (acc := 1) (lim := 2) hq (by norm_num; linarith)
  obtain ⟨i, hi, j, hj, k, hk, rfl⟩ := hu
  unfold DynamicWindow.window DynamicWindow.velLower DynamicWindow.velUpper
  rw [nx] at hi
  rw [ny] at hj
  rw [nt] at hk
  dsimp only [V3.zero]
  rw [nx, ny, nt, hdt, x0, x1, x2, y0, y1, y2, t0, t1, t2, hz, a0, a1, c0, c1]
  have hi' : i < 3 := hi
  have hk' : k < 5 := hk
  have i0 : (i : ℝ) ≤ 3 := by exact_mod_cast hi'.le
  have k0 : (k : ℝ) ≤ 5 := by exact_mod_cast hk'.le
  have hip : M.rnd (-M.rnd (M.rnd (5 / 2) * M.rnd (1 / 5))) = -M.rnd (M.rnd (5 / 2) * M.rnd (1 / 5)) := by
    rw [M.neg, M.idem]
  have hkp : M.rnd (-M.rnd (1 / 5)) = -M.rnd (1 / 5) := by rw [M.neg, M.idem]
  obtain ⟨sa, ea, la, ua⟩ := axis_rd (M := M) (B := 1) minNormal_le_one hip
    (by norm_num; linarith) (abs_le.mpr ⟨by norm_num; linarith, by norm_num; linarith⟩)
    (U := M.rnd (M.rnd (5 / 2) * M.rnd (1 / 5)))
    (abs_le.mpr ⟨by norm_num; linarith, by norm_num; linarith⟩) hi
  obtain ⟨sc, ec, lc, uc⟩ := axis_rd (M := M) (B := 1) minNormal_le_one hkp
    (by norm_num; linarith) (abs_le.mpr ⟨by norm_num; linarith, by norm_num; linarith⟩)
    (U := M.rnd (1 / 5)) (abs_le.mpr ⟨by norm_num; linarith, by norm_num; linarith⟩) hk
  obtain ⟨sb, eb, hb⟩ := eight_stride (M := M) half_at.1 half_at.2 (k := j) hj
  refine ⟨sa, sb, sc, by rw [V3.mk.injEq]; exact ⟨ea, eb, ec⟩, ?_, ?_⟩
  · norm_num at la ua ⊢
    exact abs_le.mpr ⟨by linarith, by linarith⟩
  · have hj' : j < 8 := hj
    have j0 : (j : ℝ) ≤ 7 := by exact_mod_cast (by omega : j ≤ 7)
    have j1 : (0:ℝ) ≤ j := Nat.cast_nonneg j
    have ⟨b0, b1⟩ := abs_le.mp hb
    norm_num at b0 b1 lc uc ⊢
    refine ⟨?_, abs_le.mpr ⟨by linarith, by linarith⟩, abs_le.mpr ⟨by linarith, by linarith⟩⟩
    rcases (by omega : j ≤ 3 ∨ 4 ≤ j) with h | h
    · have : (j : ℝ) ≤ 3 := by exact_mod_cast h
      refine le_trans ?_ (neg_le_abs sb)
      linarith
    · have : (4 : ℝ) ≤ j := by exact_mod_cast h
      refine le_trans ?_ (le_abs_self sb)
      linarith

/-- how far to the side the first step goes -/
theorem flow_side {x y a b c t : ℝ} (ha : |a| ≤ 0.501) (hb : |b| ≤ 0.501) (hc : |c| ≤ 0.201) (ht : |t| ≤ 0.1001) :
    |(flow ⟨x, y, 0⟩ ⟨a, b, c⟩ t).c1 - (y + b * t)| ≤ 0.0011 := by
  unfold flow
  split
  · norm_num
  · rename_i h
    dsimp only at h ⊢
    rw [zero_add, Real.cos_zero, Real.sin_zero, sub_zero]
    have hx : |c * t| ≤ 0.0202 := by
      rw [abs_mul]
      calc |c| * |t| ≤ 0.201 * 0.1001 := mul_le_mul hc ht (abs_nonneg t) (by norm_num)
        _ ≤ _ := by norm_num
    have hcos : |1 - Real.cos (c * t)| ≤ (c * t) ^ 2 / 2 := by
      have := Real.one_sub_sq_div_two_le_cos (x := c * t)
      rw [abs_of_nonneg (by linarith [Real.cos_le_one (c * t)])]
      linarith
    have hsin : |Real.sin (c * t) - c * t| ≤ (c * t) ^ 2 / 2 := by
      have h1 := Real.sin_bound (x := c * t) (hx.trans (by norm_num))
      have e1 : |(c * t) ^ 3 / 6| = |c * t| ^ 2 * |c * t| / 6 := by
        rw [abs_div, abs_pow, abs_of_pos (by norm_num : (0:ℝ) < 6)]; ring
      have e2 : |c * t| ^ 5 / 100 = |c * t| ^ 2 * (|c * t| ^ 3 / 100) := by ring
      have h2 : |Real.sin (c * t) - c * t| ≤ |c * t| ^ 5 / 100 + |(c * t) ^ 3 / 6| := by
        calc |Real.sin (c * t) - c * t| = |(Real.sin (c * t) - (c * t - (c * t) ^ 3 / 6)) + -((c * t) ^ 3 / 6)| := by
              ring_nf
          _ ≤ _ := (abs_add_le _ _).trans (by rw [abs_neg]; linarith)
      rw [e1, e2] at h2
      rw [← sq_abs (c * t)]
      have hn := abs_nonneg (c * t)
      generalize |c * t| = z at *
      have hz3 : z ^ 3 ≤ 1 := pow_le_one₀ hn (hx.trans (by norm_num))
      have hz1 : z ≤ 1 := hx.trans (by norm_num)
      have : z ^ 3 / 100 + z / 6 ≤ 1 / 2 := by linarith
      nlinarith [sq_nonneg z]
    have e : y + (a * (1 - Real.cos (c * t)) + b * Real.sin (c * t)) / c - (y + b * t) =
        (a * (1 - Real.cos (c * t)) + b * (Real.sin (c * t) - c * t)) / c := by
      field_simp; ring
    rw [e, abs_div, div_le_iff₀ (abs_pos.mpr h)]
    have h1 : |a * (1 - Real.cos (c * t)) + b * (Real.sin (c * t) - c * t)| ≤
        0.501 * ((c * t) ^ 2 / 2) + 0.501 * ((c * t) ^ 2 / 2) := by
      refine (abs_add_le _ _).trans (add_le_add ?_ ?_)
      · rw [abs_mul]; exact mul_le_mul ha hcos (abs_nonneg _) (by norm_num)
      · rw [abs_mul]; exact mul_le_mul hb hsin (abs_nonneg _) (by norm_num)
    refine h1.trans ?_
    have h2 : (c * t) ^ 2 = |c| * (|c| * t ^ 2) := by rw [mul_pow, ← sq_abs c]; ring
    have h3 : |c| * t ^ 2 ≤ 0.201 * 0.1001 ^ 2 := by
      refine mul_le_mul hc ?_ (sq_nonneg t) (by norm_num)
      rw [← sq_abs t]
      exact pow_le_pow_left₀ (abs_nonneg t) ht 2
    rw [h2]
    have := abs_nonneg c
    norm_num at h3 ⊢
    nlinarith

/-- Rows of 512 cells; the rows up to the 140th and from the 372nd on are occupied. -/
def alleyData (n : Nat) : List Int8 :=
  (List.range n).map fun k => if 140 < k / 512 ∧ k / 512 < 372 then 0 else 100

theorem alleyData_length (n : Nat) : (alleyData n).length = n := by
  rw [alleyData, List.length_map, List.length_range]

theorem alleyData_at {n a b : Nat} (h : a * 512 + b < n) (hb : b < 512) :
    (alleyData n)[a * 512 + b]? = some (if 140 < a ∧ a < 372 then 0 else 100) := by
  rw [alleyData, List.getElem?_map, List.getElem?_range h, Option.map_some,
    show (a * 512 + b) / 512 = a by omega]

attribute [irreducible] alleyData

/-- A corridor along the x axis, 231 cells of an 128th of a metre wide, in a map of 4 × 4 metres. -/
noncomputable def alley : GridMap (RDbl ieee) :=
  mapOf { width := 512, height := 512, resolution := .fin (1 / 128), originX := .fin 0, originY := .fin 0
          data := alleyData 262144 }

theorem alley_occupied (i j : Int) : Occupied (shippedDetector ieee).occupied_threshold alley i j ↔
    (0 ≤ i ∧ i < 512) ∧ (0 ≤ j ∧ j < 512) ∧ (i ≤ 140 ∨ 372 ≤ i) := by
  have q := rnd_at (M := ieee) (x := 4 / 5) le_rfl (by norm_num [abs_of_pos])
  norm_num at q
  have h100 : (lit 100 0 : RDbl ieee) = .fin 100 := by rw [lit_int 100 (by norm_num) (by norm_num)]; norm_num
  have h0 : (Flt.ofInt (0 : Int8).toInt : RDbl ieee) = .fin 0 := by
    show (.fin (ieee.rnd ((0 : Int) : ℝ)) : RDbl ieee) = _
    rw [Int.cast_zero, ieee.rnd_zero]
  have h1 : (Flt.ofInt (100 : Int8).toInt : RDbl ieee) = .fin 100 := by
    show (.fin (ieee.rnd ((100 : Int) : ℝ)) : RDbl ieee) = _
    rw [ieee.int 100 (by norm_num)]; norm_num
  have look : ∀ a b : Nat, a < 512 → b < 512 →
      cellAt alley a b = some (if 140 < a ∧ a < 372 then 0 else 100) := by
    intro a b ha hb
    exact alleyData_at (n := 262144) (by omega) hb
  constructor
  · rintro ⟨i0, i1, j0, j1, v, hv, hl⟩
    have i1 : i < 512 := i1
    have j1 : j < 512 := j1
    rw [look i.toNat j.toNat (by omega) (by omega), Option.some.injEq] at hv
    refine ⟨⟨i0, i1⟩, ⟨j0, j1⟩, ?_⟩
    by_contra hj
    rw [if_pos (by omega)] at hv
    subst hv
    rw [h100, h0, RDbl.div_fin _ (by norm_num : (100 : ℝ) ≠ 0), zero_div, ieee.rnd_zero] at hl
    have hl : Flt.lt (.fin 0 : RDbl ieee) (.fin (ieee.rnd (4 / 5))) = false := hl
    rw [RDbl.lt_fin_false] at hl
    norm_num at hl
    linarith
  · rintro ⟨⟨i0, i1⟩, ⟨j0, j1⟩, hi⟩
    refine ⟨i0, i1, j0, j1, 100, ?_, ?_⟩
    · rw [look i.toNat j.toNat (by omega) (by omega), if_neg (by omega)]
    · rw [h100, h1, RDbl.div_fin _ (by norm_num : (100 : ℝ) ≠ 0), div_self (by norm_num), ieee.rnd_one]
      show Flt.lt (.fin 1 : RDbl ieee) (.fin (ieee.rnd (4 / 5))) = false
      rw [RDbl.lt_fin_false]
      norm_num
      linarith

theorem alley_radii : 115 / 128 ≤ ieee.rnd (ieee.rnd (7 / 10) + ieee.rnd (1 / 5)) ∧
    ieee.rnd (ieee.rnd (7 / 10) + ieee.rnd (1 / 5)) ≤ 0.9001 ∧ 0 ≤ ieee.rnd (7 / 10) ∧ ieee.rnd (7 / 10) ≤ 90 / 128 ∧
    0 ≤ ieee.rnd (1 / 5) ∧ ieee.rnd (1 / 5) ≤ 1 / 4 := by
  have ⟨p0, p1⟩ := rnd_at (M := ieee) (x := 7 / 10) le_rfl (by norm_num [abs_of_pos])
  have ⟨q0, q1⟩ := rnd_at (M := ieee) (x := 1 / 5) le_rfl (by norm_num [abs_of_pos])
  norm_num at p0 p1 q0 q1
  have ⟨r0, r1⟩ := rnd_at (M := ieee) (x := ieee.rnd (7 / 10) + ieee.rnd (1 / 5)) (B := 1) le_rfl
    (abs_le.mpr ⟨by norm_num; linarith, by norm_num; linarith⟩)
  norm_num at r0 r1 ⊢
  refine ⟨?_, ?_, ?_, ?_, ?_, ?_⟩ <;> linarith

theorem alley_sensible : SensibleRd (shippedDetector ieee) alley 0 0 (1 / 128) (ieee.rnd (7 / 10)) 1
    (ieee.rnd (1 / 5)) := by
  obtain ⟨-, -, h1, h2, h3, h4⟩ := alley_radii
  refine ⟨⟨by decide, ?_⟩, ⟨rfl, rfl, rfl, by norm_num⟩, minNormal_small (by norm_num), by decide,
    by decide, by decide, by decide, rfl, rfl, rfl, h1, h3, by linarith, by norm_num, by norm_num at h2 h4 ⊢; linarith⟩
  exact (alleyData_length 262144).trans (by decide)

theorem alley_in {x y : ℝ} (h : 0 ≤ x ∧ x ≤ 4 ∧ 0 ≤ y ∧ y ≤ 4) : InMap alley 0 0 (1 / 128) x y := by
  have h512 : ((512 : UInt32).toNat : ℝ) = 512 := by rw [show (512 : UInt32).toNat = 512 from rfl]; norm_num
  refine ⟨h.1, ?_, h.2.2.1, ?_⟩
  · show x ≤ 0 + ((512 : UInt32).toNat : ℝ) * (1 / 128)
    rw [h512]; linarith [h.2.1]
  · show y ≤ 0 + ((512 : UInt32).toNat : ℝ) * (1 / 128)
    rw [h512]; linarith [h.2.2.2]

/-- Five and a half millimetres off the middle of the corridor there is a collision. -/
theorem alley_hit {x y : ℝ} (hx0 : 1 ≤ x) (hx1 : x ≤ 3) (hy0 : 0.0055 ≤ |y - 513 / 256|)
    (hy1 : |y - 513 / 256| ≤ 0.06) (th : RDbl ieee) :
    (shippedDetector ieee).collisionCheck alley ⟨.fin x, .fin y, th⟩ = .ok true := by
  have ⟨y0, y1⟩ := abs_le.mp hy1
  norm_num at y0 y1
  obtain ⟨i, j, hcell, ⟨a1, a2, a3, a4⟩, cfg, hcfg, hr, ex, ey, eb, ec, em⟩ := config_rd alley_sensible
    (alley_in (x := x) (y := y) ⟨by linarith, by linarith, by linarith, by linarith⟩) th
  obtain ⟨w0, w1, w2, w3, -, -⟩ := alley_radii
  norm_num at a1 a2 a3 a4
  have j1 : j.toNat < 512 := hcell.2
  have hb : cfg.r_bnd ≤ 90 := by
    rw [eb]
    exact cells_le_rd (by norm_num) (by norm_num) (by norm_num at w3 ⊢; linarith)
  have hm : 128 ≤ cfg.r_max := by
    rw [em]
    exact le_cells_rd (by norm_num) (by norm_num) (by norm_num)
  have hc : 115 ≤ cfg.r_col := by
    rw [ec]
    exact le_cells_rd (by norm_num) (by norm_num) (by norm_num at w0 ⊢; linarith)
  rcases le_abs'.mp hy0 with h | h
  · norm_num at h
    have i0 : 248 ≤ i.toNat := by
      have : (247 : ℝ) < i.toNat := by linarith
      exact_mod_cast this
    have i1 : i.toNat ≤ 255 := by
      have : (i.toNat : ℝ) < 256 := by linarith
      have : i.toNat < 256 := by exact_mod_cast this
      omega
    refine C26_axis_partial _ _ alley_sensible.wf _ cfg hcfg hr (i.toNat - 140) (by omega) (by omega) (by omega)
      (by omega) (.inr (.inr (.inr ?_)))
    rw [alley_occupied, ex, ey]
    omega
  · norm_num at h
    have i0 : 257 ≤ i.toNat := by
      have : (256 : ℝ) < i.toNat := by linarith
      exact_mod_cast this
    have i1 : i.toNat ≤ 264 := by
      have : (i.toNat : ℝ) < 265 := by linarith
      have : i.toNat < 265 := by exact_mod_cast this
      omega
    refine C26_axis_partial _ _ alley_sensible.wf _ cfg hcfg hr (372 - i.toNat) (by omega) (by omega) (by omega)
      (by omega) (.inr (.inr (.inl ?_)))
    rw [alley_occupied, ex, ey]
    omega

/-- In the middle there is none. -/
theorem alley_free (th : RDbl ieee) :
    (shippedDetector ieee).collisionCheck alley ⟨.fin (513 / 256), .fin (513 / 256), th⟩ = .ok false := by
  have hin := alley_in (x := 513 / 256) (y := 513 / 256) (by norm_num)
  obtain ⟨i, j, hcell, ⟨a1, a2, a3, a4⟩, cfg, hcfg, hr, ex, ey, eb, ec, em⟩ := config_rd alley_sensible hin th
  obtain ⟨w0, w1, w2, w3, -, -⟩ := alley_radii
  obtain ⟨v, hv⟩ := (C87_no_failure alley_sensible hin th).1
  cases v with
  | false => exact hv
  | true =>
    exfalso
    obtain ⟨k, l, ho, hd⟩ := C25_sound _ _ alley_sensible.wf _ cfg hcfg hr hv
    rw [alley_occupied] at ho
    norm_num at a1 a2 a3 a4
    have i1 : i.toNat = 256 := by
      have h1 : (i.toNat : ℝ) < 257 := by linarith
      have h2 : (255 : ℝ) < i.toNat := by linarith
      have h1 : i.toNat < 257 := by exact_mod_cast h1
      have h2 : 255 < i.toNat := by exact_mod_cast h2
      omega
    have hc : cfg.r_col ≤ 115 := by
      rw [ec]
      unfold cellsRd
      rw [Int.floor_le_iff]
      have hx : ieee.rnd (ieee.rnd (7 / 10) + ieee.rnd (1 / 5)) / (1 / 128) ≤ 115.22 := by
        rw [div_le_iff₀ (by norm_num)]; norm_num at w1 ⊢; linarith
      have hx0 : 0 ≤ ieee.rnd (ieee.rnd (7 / 10) + ieee.rnd (1 / 5)) / (1 / 128) := by
        apply div_nonneg _ (by norm_num); norm_num at w0 ⊢; linarith
      have := (rnd_at (M := ieee) (x := ieee.rnd (ieee.rnd (7 / 10) + ieee.rnd (1 / 5)) / (1 / 128)) (B := 128)
        (by norm_num) (by rw [abs_of_nonneg hx0]; norm_num at hx ⊢; linarith)).2
      norm_num at this hx ⊢
      linarith
    have hc0 : 0 ≤ cfg.r_col := by
      rw [ec]
      exact le_cells_rd (by norm_num) (by norm_num) (by norm_num at w0 ⊢; linarith)
    have h1 : 116 ≤ |k - cfg.cy| := by
      rw [ey, i1, le_abs']
      push_cast
      omega
    have h2 : 116 * 116 ≤ (k - cfg.cy) * (k - cfg.cy) := by
      rw [← abs_mul_abs_self (k - cfg.cy)]
      exact mul_self_le_mul_self (by norm_num) h1
    nlinarith [mul_self_nonneg (l - cfg.cx)]

/-- When every sampled twist collides in its first step the search fails. -/
theorem first_all_collide [StrictLt F] {d : DynamicWindow F} {g : GridMap F} {x0 vb : V3 F}
    (h0 : 0 < d.steps.toNat)
    (h : ∀ v, IsSample d vb v → d.collision.collisionCheck g (poseAfter v d.dt x0 1) = .ok true)
    (ref : List (V3 F)) (dt_ref : F) : d.controlTraj g x0 vb ref dt_ref = .ok (false, V3.zero) := by
  have hc : ∀ v, IsSample d vb v →
      d.objectiveTraj g x0 v ref (Flt.ofInt ref.length *. dt_ref) = .ok Flt.maxFin := by
    intro v hv
    obtain ⟨n, hn⟩ : ∃ n, d.steps.toNat = n + 1 := ⟨d.steps.toNat - 1, by omega⟩
    have hit : d.collision.collisionCheck g
        { integrateTwist x0 v d.dt with c2 := normalizeAnglePI (integrateTwist x0 v d.dt).c2 } = .ok true := h v hv
    unfold DynamicWindow.objectiveTraj
    rw [hn]
    unfold DynamicWindow.trajLoop
    dsimp only
    rw [hit, Res.ok_bind, if_pos rfl]
  obtain ⟨r, hr⟩ := foldlM_consider_total (visited d vb)
    (fun v hv => ⟨_, hc v ((mem_visited d vb v).mp hv)⟩) (Flt.maxFin, V3.zero)
  have hs : d.controlTraj g x0 vb ref dt_ref =
      if almostEqual r.1 Flt.maxFin then .ok (false, r.2) else .ok (true, r.2) := by
    rw [DynamicWindow.controlTraj, searchWindow_eq, hr, Res.ok_bind]
  obtain ⟨-, h2⟩ := foldlM_consider _ _ _ hr
  rcases h2 with rfl | ⟨h2, l1, l2, h3, h4, -⟩
  · rw [hs, if_pos StrictLt.max_close]
  · have := hc r.2 ((mem_visited d vb _).mp (by rw [h3]; simp))
    rw [this] at h4
    simp only [Res.ok.injEq] at h4
    rw [← h4, StrictLt.irrefl] at h2
    cases h2

/-- C122, the failure: the shipped omnidirectional robot at rest in the middle of a narrow corridor, where it
does not collide, finds no twist, whatever it tracks. -/
theorem C122_omni_fails {n : Node (RDbl ieee)} {o : List (Out (RDbl ieee))} (hn : omniYaml.omni = .ok (n, o)) :
    n.expl.dwa.collision.collisionCheck alley ⟨.fin (513 / 256), .fin (513 / 256), .fin 0⟩ = .ok false ∧
    (∀ ref dt_ref, n.expl.dwa.controlTraj alley ⟨.fin (513 / 256), .fin (513 / 256), .fin 0⟩ V3.zero ref dt_ref =
      .ok (false, V3.zero)) ∧
    ∀ vref, n.expl.dwa.controlTwist alley ⟨.fin (513 / 256), .fin (513 / 256), .fin 0⟩ V3.zero vref =
      .ok (false, V3.zero) := by
  obtain ⟨hcol, hdt, ⟨hst, -⟩, -⟩ := omni_dwa hn
  have hit : ∀ v, IsSample n.expl.dwa V3.zero v → n.expl.dwa.collision.collisionCheck alley
      (poseAfter v n.expl.dwa.dt ⟨.fin (513 / 256), .fin (513 / 256), .fin 0⟩ 1) = .ok true := by
    intro v hv
    obtain ⟨a, b, c, rfl, ha, hb0, hb, hc⟩ := C122_omni_sideways hn hv
    rw [hcol, hdt]
    have ⟨t0, t1⟩ := tenth_at (M := ieee)
    generalize ieee.rnd (1 / 10) = t at t0 t1
    norm_num at t0 t1
    have htp : |t| = t := abs_of_pos (by linarith)
    have ht : |t| ≤ 0.1001 := by rw [htp]; norm_num; linarith
    have lim : ∀ z : ℝ, |z| ≤ 0.501 → |z * t| ≤ 0.06 := by
      intro z hz
      rw [abs_mul]
      calc |z| * |t| ≤ 0.501 * 0.1001 := mul_le_mul hz ht (abs_nonneg t) (by norm_num)
        _ ≤ _ := by norm_num
    have hN : MotionNumbers a b c t 0.06 := by
      refine ⟨by linarith, by linarith, by norm_num, lim a ha, lim b hb, (lim c (hc.trans (by norm_num))).trans ?_⟩
      norm_num
    obtain ⟨x', y', θ', he, hx, hy, -⟩ := C98_step ieee_trig (x := 513 / 256) (y := 513 / 256) (θ := 0) (B := 4) hN
      (by norm_num [abs_of_pos]) (by norm_num [abs_of_pos])
    obtain ⟨w, hw⟩ : ∃ w, normalizeAnglePI (.fin θ' : RDbl ieee) = .fin w := ⟨_, normalize_rd θ'⟩
    have hp : poseAfter (⟨.fin a, .fin b, .fin c⟩ : V3 (RDbl ieee)) (.fin t)
        ⟨.fin (513 / 256), .fin (513 / 256), .fin 0⟩ 1 = ⟨.fin x', .fin y', .fin w⟩ := by
      show stepPose _ _ _ = _
      unfold stepPose
      dsimp only
      rw [he]
      dsimp only
      rw [hw]
    rw [hp]
    have hside := flow_side (x := 513 / 256) (y := 513 / 256) ha hb hc ht
    have hgap := stepGap_le c t
    have hg0 := stepGap_nonneg c t
    have herr : 0.06 * (stepGap c t + 1 / 2 ^ 43) + (4:ℝ) / 2 ^ 52 ≤ 1 / 10 ^ 6 := by
      norm_num at hgap ⊢
      linarith
    have hfar : |(flow ⟨513 / 256, 513 / 256, 0⟩ ⟨a, b, c⟩ t).c0 - 513 / 256| ≤ 1 / 2 := by
      have h1 := C76_flow ⟨513 / 256, 513 / 256, 0⟩ ⟨a, b, c⟩ t
      have h2 : |(flow ⟨513 / 256, 513 / 256, 0⟩ ⟨a, b, c⟩ t).c0 - 513 / 256| ≤
          planar (flow ⟨513 / 256, 513 / 256, 0⟩ ⟨a, b, c⟩ t) ⟨513 / 256, 513 / 256, 0⟩ := by
        unfold planar
        rw [← Real.sqrt_sq_eq_abs]
        exact Real.sqrt_le_sqrt (le_add_of_nonneg_right (sq_nonneg _))
      have h3 : speed ⟨a, b, c⟩ ≤ 1 := by
        unfold speed
        rw [Real.sqrt_le_left (by norm_num)]
        have h4 : a ^ 2 ≤ 0.501 ^ 2 := by rw [← sq_abs a]; exact pow_le_pow_left₀ (abs_nonneg a) ha 2
        have h5 : b ^ 2 ≤ 0.501 ^ 2 := by rw [← sq_abs b]; exact pow_le_pow_left₀ (abs_nonneg b) hb 2
        norm_num at h4 h5 ⊢
        linarith
      have h6 : speed ⟨a, b, c⟩ * |t| ≤ 1 * 0.1001 := mul_le_mul h3 ht (abs_nonneg t) (by norm_num)
      norm_num at h6 ⊢
      linarith
    have hbt0 : 0.0071 ≤ |b * t| := by
      rw [abs_mul, htp]
      have : 0.0714 * (0.0999 : ℝ) ≤ |b| * t := mul_le_mul hb0 (by norm_num; linarith) (by norm_num) (abs_nonneg b)
      norm_num at this ⊢
      linarith
    have hbt1 : |b * t| ≤ 0.0502 := by
      rw [abs_mul]
      calc |b| * |t| ≤ 0.501 * 0.1001 := mul_le_mul hb ht (abs_nonneg t) (by norm_num)
        _ ≤ _ := by norm_num
    have ⟨fx0, fx1⟩ := abs_le.mp hfar
    have ⟨gx0, gx1⟩ := abs_le.mp (hx.trans herr)
    have hall : |(y' - 513 / 256) - b * t| ≤ 0.0012 := by
      have e : (y' - 513 / 256) - b * t = (y' - (flow ⟨513 / 256, 513 / 256, 0⟩ ⟨a, b, c⟩ t).c1) +
          ((flow ⟨513 / 256, 513 / 256, 0⟩ ⟨a, b, c⟩ t).c1 - (513 / 256 + b * t)) := by ring
      rw [e]
      refine (abs_add_le _ _).trans ((add_le_add (hy.trans herr) hside).trans (by norm_num))
    have hl := abs_sub_abs_le_abs_sub (b * t) (y' - 513 / 256)
    rw [abs_sub_comm (b * t)] at hl
    have hu := abs_sub_abs_le_abs_sub (y' - 513 / 256) (b * t)
    refine alley_hit ?_ ?_ ?_ ?_ _
    · norm_num at gx0 gx1 ⊢; linarith
    · norm_num at gx0 gx1 ⊢; linarith
    · norm_num [-abs_mul] at hall hbt0 ⊢; linarith
    · norm_num [-abs_mul] at hall hbt1 ⊢; linarith
  refine ⟨by rw [hcol]; exact alley_free _, first_all_collide hst hit, fun vref => ?_⟩
  exact C57_all_collide _ _ _ _ _ (fun v hv => ⟨0, hst, hit v hv, fun l hl => absurd hl (by omega)⟩)

/-- C122, the full statement: the shipped robots, at rest at a free place with representable coordinates, find
a twist to follow. -/
def C122_statement : Prop :=
  ∀ (n : Node (RDbl ieee)) (o : List (Out (RDbl ieee))),
    (cartYaml.cart = .ok (n, o) ∨ omniYaml.omni = .ok (n, o)) → ∀ (g : GridMap (RDbl ieee)) (x y th : ℝ),
    ieee.rnd x = x → ieee.rnd y = y → |x| ≤ 2 ^ 100 → |y| ≤ 2 ^ 100 → |th| ≤ 4 →
    n.expl.dwa.collision.collisionCheck g ⟨.fin x, .fin y, .fin th⟩ = .ok false →
    ∀ (ref : List (V3 (RDbl ieee))) (dt_ref : RDbl ieee) (b : Bool) (u : V3 (RDbl ieee)),
    (∀ p ∈ ref, Moderate p) →
    n.expl.dwa.controlTraj g ⟨.fin x, .fin y, .fin th⟩ V3.zero ref dt_ref = .ok (b, u) → b = true

theorem alley_place : ieee.rnd (513 / 256) = 513 / 256 := by
  show Ieee.rnd _ = _
  rw [Ieee.rnd_eq 4512395720392704 (-51) (by norm_num) (by norm_num [abs_of_pos])
    (by norm_num [abs_of_pos]) (by rw [abs_lt]; constructor <;> norm_num)]
  norm_num

/-- C122 is false for the omnidirectional robot: standing still is not among its sampled twists. -/
theorem C122_refuted : ¬ C122_statement := by
  intro h
  obtain ⟨n, o, hn, -⟩ := C105_omni ieee_trig ieee_pow ieee_accurate
  obtain ⟨h1, h2, -⟩ := C122_omni_fails hn
  have := h n o (.inr hn) alley (513 / 256) (513 / 256) 0 alley_place alley_place (by norm_num [abs_of_pos])
    (by norm_num [abs_of_pos]) (by norm_num) h1 [] (lit 0 0) false V3.zero (by simp) (h2 _ _)
  cases this

/-- The same place is fine for the cart, which has the same detector: it always finds a twist there. -/
example {n : Node (RDbl ieee)} {o : List (Out (RDbl ieee))} (hn : cartYaml.cart = .ok (n, o)) {b : Bool}
    {u : V3 (RDbl ieee)} (h : n.expl.dwa.controlTwist alley ⟨.fin (513 / 256), .fin (513 / 256), .fin 0⟩ V3.zero
      ⟨.fin 1, .fin 0, .fin 1⟩ = .ok (b, u)) : b = true := by
  have hcol := (cart_dwa hn).1
  refine ((C122_cart_partial hn alley_place alley_place (by norm_num [abs_of_pos]) (by norm_num [abs_of_pos])
    (by norm_num) (by rw [hcol]; exact alley_free _)).2 _ ?_ h).1
  exact ⟨1, 0, 1, rfl, by norm_num, by norm_num, by norm_num⟩

example : ∃ (n : Node (RDbl ieee)) (o : List (Out (RDbl ieee))), cartYaml.cart = .ok (n, o) := by
  obtain ⟨n, o, hn, -⟩ := C105_cart ieee_trig ieee_pow ieee_accurate
  exact ⟨n, o, hn⟩

/-- `C122_rest_sample` decides: the shipped numbers of samples of the cart, and those of the other robot. -/
example : (ZeroSampled 0.5 3 ∧ ZeroSampled 0 1 ∧ ZeroSampled 0.2 5) ∧ ¬ ZeroSampled 0.5 8 := by
  refine ⟨⟨.inr ⟨le_rfl, 1, rfl⟩, .inl rfl, .inr ⟨by norm_num, 2, rfl⟩⟩, ?_⟩
  rintro (h | ⟨-, k, hk⟩)
  · norm_num at h
  · omega

end Ergodic
