import Verif.Spec.MirrorWindow
import Verif.Props.MirrorWorld
import Verif.Props.DynamicWindow

/-!
# Property C132, continued: the dynamic window in the mirror

Exact arithmetic.
-/

namespace Ergodic
open Real

namespace Mirror
variable {m : Mirror}

theorem flip_samples {n : Nat} {lo up x : ℝ} (h : 2 ≤ n ∨ lo = up) :
    (∃ j < n, x = lo + (up - lo) * ((j : ℝ) / ((n : ℝ) - 1))) →
      ∃ j < n, -x = -up + (-lo - -up) * ((j : ℝ) / ((n : ℝ) - 1)) := by
  rintro ⟨j, hj, rfl⟩
  rcases h with h | h
  · refine ⟨n - 1 - j, by omega, ?_⟩
    have hc : ((n - 1 - j : ℕ) : ℝ) = (n : ℝ) - 1 - j := by
      rw [Nat.cast_sub (by omega), Nat.cast_sub (by omega)]
      simp
    have hn : (2 : ℝ) ≤ n := by exact_mod_cast h
    have h0 : (n : ℝ) - 1 ≠ 0 := by linarith
    rw [hc]
    field_simp
    ring
  · exact ⟨j, hj, by rw [h]; ring⟩

/-- Flipping one axis of the window, limits and acceleration as in the model. -/
theorem flip_axis {n : Nat} {v a lo hi x t : ℝ} (ht : t = 1 ∨ (t = -1 ∧ lo = -hi ∧
      (2 ≤ n ∨ max (v - a) lo = min (v + a) hi))) :
    (∃ j < n, x = max (v - a) lo + (min (v + a) hi - max (v - a) lo) * ((j : ℝ) / ((n : ℝ) - 1))) →
      ∃ j < n, t * x = max (t * v - a) lo + (min (t * v + a) hi - max (t * v - a) lo) *
        ((j : ℝ) / ((n : ℝ) - 1)) := by
  intro h
  rcases ht with rfl | ⟨rfl, hl, hn⟩
  · simpa using h
  · have e1 : max (-1 * v - a) lo = -min (v + a) hi := by
      rw [hl, neg_one_mul, show -v - a = -(v + a) by ring, max_neg_neg]
    have e2 : min (-1 * v + a) hi = -max (v - a) lo := by
      rw [hl, neg_one_mul, show -v + a = -(v - a) by ring, ← min_neg_neg, neg_neg]
    rw [e1, e2, neg_one_mul]
    exact flip_samples hn h

theorem fairWindow_turn {d : DynamicWindow ℝ} {vb : V3 ℝ} (h : m.FairWindow d vb) :
    (m.turn = 1 ∨ (m.turn = -1 ∧ d.min_vel_y = -d.max_vel_y ∧ (2 ≤ d.vy_samples.toNat ∨
      max (vb.c1 - d.acc_lim_y * d.acc_dt) d.min_vel_y = min (vb.c1 + d.acc_lim_y * d.acc_dt) d.max_vel_y))) ∧
    (m.turn = 1 ∨ (m.turn = -1 ∧ d.min_rot_vel = -d.max_rot_vel ∧ (2 ≤ d.vth_samples.toNat ∨
      max (vb.c2 - d.acc_lim_th * d.acc_dt) d.min_rot_vel = min (vb.c2 + d.acc_lim_th * d.acc_dt) d.max_rot_vel))) := by
  rcases h with h | ⟨h1, h2, h3, h4⟩
  · exact ⟨.inl (m.turn_one h), .inl (m.turn_one h)⟩
  · rcases m.turn_cases with h | h
    · exact ⟨.inl h, .inl h⟩
    · exact ⟨.inr ⟨h, h1, h3⟩, .inr ⟨h, h2, h4⟩⟩

theorem twist_twist (u : V3 ℝ) : m.twist (m.twist u) = u := by
  have := m.turn_sq
  ext <;> simp [twist, ← mul_assoc, this]

theorem samples_mirror {d : DynamicWindow ℝ} {vb : V3 ℝ} (h : m.FairWindow d vb) {u : V3 ℝ} (hu : IsSample d vb u) :
    IsSample d (m.twist vb) (m.twist u) := by
  obtain ⟨h1, h2⟩ := fairWindow_turn h
  rw [C55_grid] at hu ⊢
  obtain ⟨i, hi, j, hj, k, hk, e0, e1, e2⟩ := hu
  obtain ⟨j', hj', e1'⟩ := flip_axis h1 ⟨j, hj, e1⟩
  obtain ⟨k', hk', e2'⟩ := flip_axis h2 ⟨k, hk, e2⟩
  exact ⟨i, hi, j', hj', k', hk', e0, e1', e2'⟩

theorem fairWindow_mirror {d : DynamicWindow ℝ} {vb : V3 ℝ} (h : m.FairWindow d vb) : m.FairWindow d (m.twist vb) := by
  rcases m.turn_cases with ht | ht
  · have : m.twist vb = vb := by ext <;> simp [twist, ht]
    rw [this]; exact h
  · rcases h with h | ⟨h1, h2, h3, h4⟩
    · exact .inl h
    · refine .inr ⟨h1, h2, h3.imp_right fun h => ?_, h4.imp_right fun h => ?_⟩ <;>
        simp only [twist, ht, neg_one_mul]
      · rw [h1, show -vb.c1 - d.acc_lim_y * d.acc_dt = -(vb.c1 + d.acc_lim_y * d.acc_dt) by ring, max_neg_neg,
          show -vb.c1 + d.acc_lim_y * d.acc_dt = -(vb.c1 - d.acc_lim_y * d.acc_dt) by ring, ← h, h1, ← min_neg_neg, neg_neg]
      · rw [h2, show -vb.c2 - d.acc_lim_th * d.acc_dt = -(vb.c2 + d.acc_lim_th * d.acc_dt) by ring, max_neg_neg,
          show -vb.c2 + d.acc_lim_th * d.acc_dt = -(vb.c2 - d.acc_lim_th * d.acc_dt) by ring, ← h, h2, ← min_neg_neg, neg_neg]

end Mirror

/-- C132: the samples of a window are the mirror images of the samples of the mirrored window. -/
theorem C132_samples (m : Mirror) {d : DynamicWindow ℝ} {vb : V3 ℝ} (h : m.FairWindow d vb) (u : V3 ℝ) :
    IsSample d (m.twist vb) (m.twist u) ↔ IsSample d vb u := by
  refine ⟨fun hu => ?_, Mirror.samples_mirror h⟩
  have := Mirror.samples_mirror (Mirror.fairWindow_mirror h) hu
  rwa [Mirror.twist_twist, Mirror.twist_twist] at this

/-- C132: a search of the mirrored window finds the mirrored twist, if the costs are mirrored and one sample
is the cheapest. -/
theorem C132_search (m : Mirror) {d : DynamicWindow ℝ} {vb : V3 ℝ} (h : m.FairWindow d vb) {cost cost' : V3 ℝ → Res ℝ}
    (hc : ∀ v, IsSample d vb v → cost' (m.twist v) = cost v) (h1 : Sole d vb cost) {b : Bool} {u : V3 ℝ}
    (hu : d.searchWindow vb cost = .ok (b, u)) : d.searchWindow (m.twist vb) cost' = .ok (b, m.twist u) := by
  obtain ⟨c, k1, k2, k3⟩ := searchWindow_spec d vb cost b u hu
  have back : ∀ v, IsSample d (m.twist vb) v → IsSample d vb (m.twist v) ∧ cost' v = cost (m.twist v) := by
    intro v hv
    have hv' : IsSample d vb (m.twist v) := by
      rw [← C132_samples m h, Mirror.twist_twist]; exact hv
    exact ⟨hv', by rw [← hc _ hv', Mirror.twist_twist]⟩
  have htot : ∃ r, d.searchWindow (m.twist vb) cost' = .ok r := by
    rw [searchWindow_eq]
    obtain ⟨s, hs⟩ := foldlM_consider_total (cost := cost') (visited d (m.twist vb)) (fun v hv => by
      obtain ⟨hv', e⟩ := back v ((mem_visited d _ v).mp hv)
      obtain ⟨c, hc, -⟩ := k1 _ hv'
      exact ⟨c, e.trans hc⟩) (Flt.maxFin, V3.zero)
    rw [hs, Res.ok_bind]
    split <;> exact ⟨_, rfl⟩
  obtain ⟨⟨b', u'⟩, hr⟩ := htot
  obtain ⟨c', k1', k2', k3'⟩ := searchWindow_spec d _ cost' b' u' hr
  simp only [real_lt_false] at k1 k1'
  simp only [real_lt] at k3 k3'
  have fin : ∀ b b' : Bool, c' = c → (b = false ↔ almostEqual c (Flt.maxFin : ℝ) = true) →
      (b' = false ↔ almostEqual c' (Flt.maxFin : ℝ) = true) → b' = b := by
    rintro b b' rfl e e'
    cases b <;> cases b' <;> simp_all
  have zero : m.twist V3.zero = V3.zero := by ext <;> simp [Mirror.twist, V3.zero, real_lit]
  rw [hr]
  rcases k3 with ⟨e, rfl⟩ | ⟨hlt, hs, hcu, -⟩ <;> rcases k3' with ⟨e', rfl⟩ | ⟨hlt', hs', hcu', -⟩
  · rw [fin b b' (e'.trans e.symm) k2 k2', zero]
  · obtain ⟨hs1, e1⟩ := back _ hs'
    obtain ⟨c1, hc1, hl⟩ := k1 _ hs1
    rw [e1, hc1] at hcu'
    cases hcu'
    rw [e] at hl
    exact absurd hlt' (not_lt.mpr hl)
  · obtain ⟨c1, hc1, hl⟩ := k1' _ ((C132_samples m h u).mpr hs)
    rw [hc u hs, hcu] at hc1
    cases hc1
    rw [e'] at hl
    exact absurd hlt (not_lt.mpr hl)
  · obtain ⟨hs1, e1⟩ := back _ hs'
    rw [e1] at hcu'
    obtain ⟨c1, hc1, hl⟩ := k1 _ hs1
    rw [hcu'] at hc1
    cases hc1
    obtain ⟨c2, hc2, hl2⟩ := k1' _ ((C132_samples m h u).mpr hs)
    rw [hc u hs, hcu] at hc2
    cases hc2
    have hcc : c' = c := le_antisymm hl2 hl
    rw [hcc] at hcu'
    have huu := h1 u (m.twist u') c hs hs1 hcu hcu' hlt (fun w b hw hb => by
      obtain ⟨c3, hc3, hl3⟩ := k1 w hw
      rw [hb] at hc3; cases hc3; exact hl3)
    rw [fin b b' hcc k2 k2', huu, Mirror.twist_twist]

namespace Mirror
variable {m : Mirror}

theorem seen_succ {c : Collision ℝ} {g : GridMap ℝ} {u : V3 ℝ} {dt : ℝ} {n : Nat} {x : V3 ℝ}
    (h : m.Seen c g u dt (n + 1) x) :
    m.Clear g (stepPose u dt x) ∧
      (c.collisionCheck g (stepPose u dt x) = .ok false → m.Seen c g u dt n (stepPose u dt x)) := by
  refine ⟨h 0 (by omega) (by omega), fun hf k hk hl => h (k + 1) (by omega) fun l hlk => ?_⟩
  cases l with
  | zero => exact hf
  | succ l => exact hl l (by omega)

theorem rollout_mirror {g g' : GridMap ℝ} (h : m.Maps g g') {d : DynamicWindow ℝ} (hs : Sensible d.collision g) (u : V3 ℝ)
    (n : Nat) : ∀ {x x' : V3 ℝ}, m.Poses x x' → m.Seen d.collision g u d.dt n x →
    d.rollout g' (m.twist u) n x' = d.rollout g u n x := by
  induction n with
  | zero => intros; rfl
  | succ n ih =>
    intro x x' hx hc
    obtain ⟨c1, c2⟩ := seen_succ hc
    have hx1 := stepPose_mirror hx u d.dt
    show (d.collision.collisionCheck g' (stepPose (m.twist u) d.dt x')).bind (fun hit =>
        if hit then .ok (some Flt.maxFin) else d.rollout g' (m.twist u) n (stepPose (m.twist u) d.dt x')) =
      (d.collision.collisionCheck g (stepPose u d.dt x)).bind (fun hit =>
        if hit then .ok (some Flt.maxFin) else d.rollout g u n (stepPose u d.dt x))
    rw [(C132_check m h hs hx1 c1).1]
    cases hk : d.collision.collisionCheck g (stepPose u d.dt x) with
    | ok b =>
      cases b with
      | true => rfl
      | false => exact ih hx1 (c2 hk)
    | throw e => rfl
    | ub => rfl
    | timeout => rfl

theorem objectiveTwist_mirror {g g' : GridMap ℝ} (h : m.Maps g g') {d : DynamicWindow ℝ} (hs : Sensible d.collision g)
    {x x' : V3 ℝ} (hx : m.Poses x x') (vref u : V3 ℝ) (hc : m.Seen d.collision g u d.dt d.steps.toNat x) :
    d.objectiveTwist g' x' (m.twist vref) (m.twist u) = d.objectiveTwist g x vref u := by
  unfold DynamicWindow.objectiveTwist
  rw [rollout_mirror h hs u _ hx hc]
  have : ((m.twist vref).sub (m.twist u)).dot ((m.twist vref).sub (m.twist u)) = (vref.sub u).dot (vref.sub u) := by
    simp only [V3.sub, V3.dot, twist, real_sub, real_add, real_mul]
    rcases m.turn_cases with ht | ht <;> rw [ht] <;> ring
  dsimp only
  simp only [this]

theorem poseGap_mirror {a a' b b' : V3 ℝ} (ha : m.Poses a a') (hb : m.Poses b b') : poseGap a' b' = poseGap a b := by
  obtain ⟨a0, a1, a2, a3⟩ := ha
  obtain ⟨b0, b1, b2, b3⟩ := hb
  unfold poseGap
  congr 1
  · rw [a0, a1, b0, b1]
    congr 1
    rcases m.sx_cases with h | h <;> rcases m.sy_cases with h' | h' <;> rw [h, h'] <;> ring
  · have hcos : Real.cos (a'.c2 - b'.c2) = Real.cos (a.c2 - b.c2) := by
      rw [Real.cos_sub, Real.cos_sub, a2, a3, b2, b3]
      rcases m.sx_cases with h | h <;> rcases m.sy_cases with h' | h' <;> rw [h, h'] <;> ring
    rcases Real.Angle.cos_eq_iff_coe_eq_or_eq_neg.mp hcos with h | h
    · rw [h]
    · rw [h, Real.Angle.abs_toReal_neg]

theorem trajLoop_mirror {g g' : GridMap ℝ} (h : m.Maps g g') {d : DynamicWindow ℝ} (hs : Sensible d.collision g) (u : V3 ℝ)
    {ref ref' : List (V3 ℝ)} (hr : List.Forall₂ m.Poses ref ref') (tf : ℝ)
    (n : Nat) : ∀ {x x' : V3 ℝ} (t cost : ℝ), m.Poses x x' → m.Seen d.collision g u d.dt n x →
    d.trajLoop g' (m.twist u) ref' tf n x' t cost = d.trajLoop g u ref tf n x t cost := by
  induction n with
  | zero => intros; rfl
  | succ n ih =>
    intro x x' t cost hx hc
    obtain ⟨c1, c2⟩ := seen_succ hc
    have hx1 := stepPose_mirror hx u d.dt
    rw [trajLoop_succ, trajLoop_succ, (C132_check m h hs hx1 c1).1, ← hr.length_eq]
    cases hk : d.collision.collisionCheck g (stepPose u d.dt x) with
    | ok b =>
      cases b with
      | true => rfl
      | false =>
        simp only [Res.ok_bind, Bool.false_eq_true, if_false]
        cases castU32 (Flt.round (Flt.ofInt (DynamicWindow.lastCol ref.length) *. t /. tf : ℝ)) with
        | ok j =>
          simp only [Res.ok_bind]
          have hj := col_forall₂ hr j.toNat
          revert hj
          cases col ref j.toNat <;> cases col ref' j.toNat <;> intro hj <;>
            first | exact hj.elim | rfl | skip
          · simp only [Res.ok_bind]
            rw [poseGap_mirror hj hx1]
            exact ih _ _ hx1 (c2 hk)
          · rw [show _ = _ from hj]; rfl
        | throw e => rfl
        | ub => rfl
        | timeout => rfl
    | throw e => rfl
    | ub => rfl
    | timeout => rfl

end Mirror

/-- C132: the search for the twist nearest to a given one, in the mirror. -/
theorem C132_window (m : Mirror) {g g' : GridMap ℝ} (h : m.Maps g g') {d : DynamicWindow ℝ} (hs : Sensible d.collision g)
    {x x' : V3 ℝ} (hx : m.Poses x x') {vb : V3 ℝ} (hf : m.FairWindow d vb) (vref : V3 ℝ)
    (hc : ∀ v, IsSample d vb v → m.Seen d.collision g v d.dt d.steps.toNat x)
    (h1 : Sole d vb fun v => d.objectiveTwist g x vref v) {b : Bool} {u : V3 ℝ}
    (hu : d.controlTwist g x vb vref = .ok (b, u)) :
    d.controlTwist g' x' (m.twist vb) (m.twist vref) = .ok (b, m.twist u) :=
  C132_search m hf (fun v hv => Mirror.objectiveTwist_mirror h hs hx vref v (hc v hv)) h1 hu

/-- C132: the search for the twist that best follows a reference, in the mirror. -/
theorem C132_track (m : Mirror) {g g' : GridMap ℝ} (h : m.Maps g g') {d : DynamicWindow ℝ} (hs : Sensible d.collision g)
    {x x' : V3 ℝ} (hx : m.Poses x x') {vb : V3 ℝ} (hf : m.FairWindow d vb) {ref ref' : List (V3 ℝ)}
    (hr : List.Forall₂ m.Poses ref ref') (dt : ℝ)
    (hc : ∀ v, IsSample d vb v → m.Seen d.collision g v d.dt d.steps.toNat x)
    (h1 : Sole d vb fun v => d.objectiveTraj g x v ref (ref.length * dt)) {b : Bool} {u : V3 ℝ}
    (hu : d.controlTraj g x vb ref dt = .ok (b, u)) :
    d.controlTraj g' x' (m.twist vb) ref' dt = .ok (b, m.twist u) := by
  unfold DynamicWindow.controlTraj at hu ⊢
  dsimp only at hu ⊢
  have e : (Flt.ofInt (ref.length : ℕ) *. dt : ℝ) = ref.length * dt := by simp [real_mul, real_ofInt]
  rw [← hr.length_eq]
  refine C132_search m hf (fun v hv => ?_) (by rw [e]; exact h1) hu
  exact Mirror.trajLoop_mirror h hs v hr _ _ _ _ hx (hc v hv)

end Ergodic
