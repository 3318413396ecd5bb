import Verif.Props.RoundedWindow
import Verif.Props.RoundedAngle
import Verif.Props.RoundedCollision

/-!
# Property C86: the column of the reference matched with a simulated pose, with rounding

C58 is about exact arithmetic.  With rounding the time of a simulated pose is a sum of rounded time
steps, and the reference may have lost a column (C81), so that the last poses are matched with columns
past its end.
-/

namespace Ergodic
variable {F : Type} [Flt F] {M : Machine}

/-- The column of a reference of `N` columns and duration `tf` matched with the pose number `k` of a
simulation with time step `dt`. -/
def matchedColumn (N : ℕ) (dt tf : F) (k : ℕ) : Res UInt32 :=
  castU32 (Flt.round (Flt.ofInt (DynamicWindow.lastCol N) *. stride (lit 0 0) dt k /. tf))

/-- The matched column is one of the columns of the reference. -/
def ColumnExists (N : ℕ) (dt tf : F) (k : ℕ) : Prop :=
  ∃ j, matchedColumn N dt tf k = .ok j ∧ j.toNat < N

theorem trajLoop_value (d : DynamicWindow F) (g : GridMap F) (u : V3 F) (ref : List (V3 F)) (tf : F) :
    ∀ (n : ℕ) (x : V3 F) (t cost : F),
      (∀ k < n, ∃ j, castU32 (Flt.round (Flt.ofInt (DynamicWindow.lastCol ref.length) *.
        stride t d.dt k /. tf)) = .ok j ∧ j.toNat < ref.length) →
      (∀ k < n, ∃ b, d.collision.collisionCheck g (poseAfter u d.dt x (k + 1)) = .ok b) →
      ∃ c, d.trajLoop g u ref tf n x t cost = .ok c := by
  intro n
  induction n with
  | zero => intro x t cost _ _; exact ⟨cost, rfl⟩
  | succ n ih =>
    intro x t cost hj hc
    obtain ⟨b, hb⟩ := hc 0 (by omega)
    obtain ⟨j, hj0, hjn⟩ := hj 0 (by omega)
    have hb' : d.collision.collisionCheck g (stepPose u d.dt x) = .ok b := hb
    have hj0' : castU32 (Flt.round (Flt.ofInt (DynamicWindow.lastCol ref.length) *. t /. tf)) =
      .ok j := hj0
    cases b with
    | true =>
      refine ⟨Flt.maxFin, ?_⟩
      rw [DynamicWindow.trajLoop]
      change (d.collision.collisionCheck g (stepPose u d.dt x) >>= _) = _
      rw [hb']
      rfl
    | false =>
      obtain ⟨xr, hxr⟩ : ∃ xr, ref[j.toNat]? = some xr := ⟨_, List.getElem?_eq_getElem hjn⟩
      have hcol : col ref j.toNat = .ok xr := by unfold col; rw [hxr]
      obtain ⟨c, hc'⟩ := ih (stepPose u d.dt x) (t +. d.dt)
        (cost +. Flt.sqrt ((xr.xy.sub (stepPose u d.dt x).xy).dot (xr.xy.sub (stepPose u d.dt x).xy)) +.
          fabs (normalizeAnglePI (normalizeAnglePI xr.c2 -. (stepPose u d.dt x).c2)))
        (fun k hk => hj (k + 1) (by omega)) (fun k hk => hc (k + 1) (by omega))
      refine ⟨c, ?_⟩
      rw [DynamicWindow.trajLoop]
      change (d.collision.collisionCheck g (stepPose u d.dt x) >>= _) = _
      rw [hb', Res.ok_bind]
      dsimp only
      rw [if_neg (by simp), hj0', Res.ok_bind, hcol, Res.ok_bind]
      exact hc'

theorem trajLoop_no_value (d : DynamicWindow F) (g : GridMap F) (u : V3 F) (ref : List (V3 F)) (tf : F)
    (c : F) : ∀ (n : ℕ) (x : V3 F) (t cost : F), d.trajLoop g u ref tf n x t cost = .ok c →
      (∀ k < n, d.collision.collisionCheck g (poseAfter u d.dt x (k + 1)) = .ok false) →
      ∀ k < n, ∃ j, castU32 (Flt.round (Flt.ofInt (DynamicWindow.lastCol ref.length) *.
        stride t d.dt k /. tf)) = .ok j ∧ j.toNat < ref.length := by
  intro n
  induction n with
  | zero => intro x t cost _ _ k hk; omega
  | succ n ih =>
    intro x t cost h hf k hk
    rw [DynamicWindow.trajLoop, Res.bind_eq_ok] at h
    obtain ⟨b, hb, h⟩ := h
    have h0 := hf 0 (by omega)
    have hb' : d.collision.collisionCheck g (poseAfter u d.dt x (0 + 1)) = .ok b := hb
    rw [h0] at hb'
    cases hb'
    simp only [Bool.false_eq_true, if_false, Res.bind_eq_ok] at h
    obtain ⟨j, hj, xr, hxr, h⟩ := h
    cases k with
    | zero =>
      refine ⟨j, hj, ?_⟩
      by_contra hn
      rw [col, List.getElem?_eq_none (by omega)] at hxr
      cases hxr
    | succ k => exact ih _ _ _ h (fun l hl => hf (l + 1) (by omega)) k (by omega)

/-- C86, for every number type: when every matched column exists and every collision check returns, the
objective returns a value. -/
theorem C86_total (d : DynamicWindow F) (g : GridMap F) (x0 u : V3 F) (ref : List (V3 F)) (tf : F)
    (hcol : ∀ k < d.steps.toNat, ColumnExists ref.length d.dt tf k)
    (hc : ∀ k < d.steps.toNat, ∃ b, d.collision.collisionCheck g (poseAfter u d.dt x0 (k + 1)) = .ok b) :
    ∃ c, d.objectiveTraj g x0 u ref tf = .ok c :=
  trajLoop_value d g u ref tf _ x0 _ _ hcol hc

/-- C86, for every number type: on a collision-free rollout the objective returns no value when some
matched column does not exist. -/
theorem C86_no_value (d : DynamicWindow F) (g : GridMap F) (x0 u : V3 F) (ref : List (V3 F)) (tf : F)
    (hf : FreeRollout d g x0 u) (k : ℕ) (hk : k < d.steps.toNat)
    (hcol : ¬ ColumnExists ref.length d.dt tf k) (c : F) : d.objectiveTraj g x0 u ref tf ≠ .ok c :=
  fun h => hcol (trajLoop_no_value d g u ref tf c _ x0 _ _ h hf k hk)

/-! ## the column with rounding -/

/-- The time of a simulated pose. -/
theorem time_rd {D B : ℝ} (hB : minNormal ≤ B) (hD0 : 0 ≤ D) (k : ℕ)
    (hk : k * D + k * (B / 2 ^ 49) ≤ 2 * B) :
    ∃ s, stride (lit 0 0 : RDbl M) (.fin D) k = .fin s ∧ 0 ≤ s ∧ k * D - k * (B / 2 ^ 49) ≤ s ∧
      s ≤ k * D + k * (B / 2 ^ 49) := by
  have hB0 : 0 < B := minNormal_pos.trans_le hB
  induction k with
  | zero => exact ⟨0, by simp [stride], le_rfl, by simp, by simp⟩
  | succ k ih =>
    have hstep : 0 ≤ D + B / 2 ^ 49 := by positivity
    push_cast at hk
    obtain ⟨s, e1, e2, e3, e4⟩ := ih (by nlinarith)
    have hb49 : 0 ≤ B / 2 ^ 49 := by positivity
    have er := M.err' (show minNormal ≤ 5 * B by linarith) (x := s + D) (by
      rw [abs_of_nonneg (by linarith)]; nlinarith)
    refine ⟨M.rnd (s + D), ?_, M.rnd_nonneg (by linarith), ?_, ?_⟩
    · have : stride (lit 0 0 : RDbl M) (.fin D) (k + 1) = stride (lit 0 0) (.fin D) k +. .fin D := by
        unfold stride; rw [Function.iterate_succ_apply']
      rw [this, e1, RDbl.add_fin]
    · push_cast
      have : 5 * B / 2 ^ 52 ≤ B / 2 ^ 49 := by
        rw [div_le_div_iff₀ (by positivity) (by positivity)]; linarith
      linarith [er.1]
    · push_cast
      have : 5 * B / 2 ^ 52 ≤ B / 2 ^ 49 := by
        rw [div_le_div_iff₀ (by positivity) (by positivity)]; linarith
      linarith [er.2]

theorem lastCol_rd {N : ℕ} (h0 : 1 ≤ N) (h1 : N ≤ 2 ^ 32) :
    (Flt.ofInt (DynamicWindow.lastCol N) : RDbl M) = .fin ((N : ℝ) - 1) := by
  unfold DynamicWindow.lastCol
  rw [if_neg (by omega), RDbl.ofInt_fin, M.int _ (by rw [abs_le]; omega)]
  push_cast
  rfl

theorem castU32_round_rd {q : ℝ} {n : ℕ} (hn : n < 2 ^ 32) (hq : 0 ≤ q) (h0 : (n : ℝ) ≤ q + 1 / 2)
    (h1 : q + 1 / 2 < n + 1) : castU32 (Flt.round (.fin q : RDbl M)) = .ok (UInt32.ofNat n) := by
  rw [RDbl.round_fin, realRound, if_pos hq,
    show ⌊q + 1 / 2⌋ = (n : Int) from Int.floor_eq_iff.mpr ⟨by exact_mod_cast h0, by exact_mod_cast h1⟩]
  exact castU32_rd hn (by simp) (by simp)

/-- C86 (missing: windows longer than the reference, see `C86_refuted`): with any rounding to nearest, a
window of `n` steps `D` that is no longer than the `N` columns of the reference `E` apart, up to one part in `2^30`,
only meets columns of the reference. -/
theorem C86_in_range_partial {D E : ℝ} {N n : ℕ} (hD : minNormal ≤ D) (hE : minNormal ≤ E)
    (hN0 : 1 ≤ N) (hN : N ≤ 2 ^ 20) (hn : n ≤ 2 ^ 24) (h : n * D ≤ N * E * (1 + 1 / 2 ^ 30)) :
    ∀ k < n, ColumnExists N (.fin D : RDbl M) (Flt.ofInt N *. .fin E) k := by
  intro k hk
  have hD0 : 0 < D := minNormal_pos.trans_le hD
  have hE0 : 0 < E := minNormal_pos.trans_le hE
  have hN1 : (1 : ℝ) ≤ N := by exact_mod_cast hN0
  have hN2 : (N : ℝ) ≤ 2 ^ 20 := by exact_mod_cast hN
  have hn2 : (n : ℝ) ≤ 2 ^ 24 := by exact_mod_cast hn
  have hk1 : (k : ℝ) + 1 ≤ n := by exact_mod_cast hk
  have hk0 : (0 : ℝ) ≤ k := by positivity
  obtain ⟨B, hB⟩ : ∃ B, B = n * D := ⟨_, rfl⟩
  obtain ⟨X, hX⟩ : ∃ X, X = N * E := ⟨_, rfl⟩
  have hkD : k * D + D ≤ B := by
    rw [hB]; have := mul_le_mul_of_nonneg_right hk1 hD0.le; linarith
  have hB0 : 0 < B := by have : 0 ≤ k * D := by positivity
                         linarith
  have hBn : minNormal ≤ B := by have : 0 ≤ k * D := by positivity
                                 linarith
  have hkB : k * (B / 2 ^ 49) ≤ B / 2 ^ 25 := by
    calc k * (B / 2 ^ 49) ≤ 2 ^ 24 * (B / 2 ^ 49) :=
          mul_le_mul_of_nonneg_right (by linarith) (by positivity)
      _ = B / 2 ^ 25 := by ring
  have hB25 : B / 2 ^ 25 ≤ B := div_le_self hB0.le (by norm_num)
  obtain ⟨s, es, s0, -, s1⟩ := time_rd (M := M) hBn hD0.le k (by linarith)
  have hXE : E ≤ X := by rw [hX]; nlinarith
  have hX0 : 0 < X := hE0.trans_le hXE
  have hBX : B ≤ X + X / 2 ^ 30 := by rw [hB, hX]; linarith
  have sX : s ≤ X + X / 2 ^ 24 := by
    norm_num at hBX hkB ⊢
    linarith
  -- the duration
  have et := M.err' (hE.trans hXE) (x := X) (by rw [abs_of_pos hX0])
  have htf : (Flt.ofInt N *. .fin E : RDbl M) = .fin (M.rnd X) := by
    rw [RDbl.ofInt_fin, Int.cast_natCast, M.rnd_nat (by omega), RDbl.mul_fin, hX]
  -- the product
  have hp0 : 0 ≤ (N - 1 : ℝ) * s := mul_nonneg (by linarith) s0
  have hp : (N - 1 : ℝ) * s ≤ (N - 1) * X + X / 16 := by
    calc (N - 1 : ℝ) * s ≤ (N - 1) * (X + X / 2 ^ 24) := mul_le_mul_of_nonneg_left sX (by linarith)
      _ = (N - 1) * X + (N - 1) * (X / 2 ^ 24) := by ring
      _ ≤ (N - 1) * X + 2 ^ 20 * (X / 2 ^ 24) := by
          have : (N - 1 : ℝ) * (X / 2 ^ 24) ≤ 2 ^ 20 * (X / 2 ^ 24) :=
            mul_le_mul_of_nonneg_right (by linarith) (by positivity)
          linarith
      _ = (N - 1) * X + X / 16 := by ring
  have hNX : (N - 1 : ℝ) * X ≤ 2 ^ 20 * X := mul_le_mul_of_nonneg_right (by linarith) hX0.le
  have ep := (M.err' (show minNormal ≤ 2 ^ 21 * X by linarith) (x := (N - 1 : ℝ) * s) (by
    rw [abs_of_nonneg hp0]; linarith)).2
  have hP0 := M.rnd_nonneg hp0
  have ht0 : 0 < M.rnd X := by
    have : X / 2 ^ 52 ≤ X / 2 := by
      rw [div_le_div_iff₀ (by positivity) (by positivity)]; linarith
    linarith [et.1]
  have hq0 : 0 ≤ M.rnd ((N - 1 : ℝ) * s) / M.rnd X := div_nonneg hP0 ht0.le
  have hq : M.rnd ((N - 1 : ℝ) * s) / M.rnd X ≤ (N - 1 : ℝ) + 1 / 8 := by
    rw [div_le_iff₀ ht0]
    have h1 : ((N - 1 : ℝ) + 1 / 8) * (X - X / 2 ^ 52) ≤ ((N - 1 : ℝ) + 1 / 8) * M.rnd X :=
      mul_le_mul_of_nonneg_left et.1 (by linarith)
    have h2 : ((N - 1 : ℝ) + 1 / 8) * (X / 2 ^ 52) ≤ 2 ^ 21 * (X / 2 ^ 52) :=
      mul_le_mul_of_nonneg_right (by linarith) (by positivity)
    rw [mul_sub] at h1
    norm_num at h1 h2 ep ⊢
    linarith
  have eq := (M.err' (show minNormal ≤ 2 ^ 21 from minNormal_le_one.trans (by norm_num))
    (x := M.rnd ((N - 1 : ℝ) * s) / M.rnd X) (by rw [abs_of_nonneg hq0]; linarith)).2
  have hQ0 := M.rnd_nonneg hq0
  unfold ColumnExists matchedColumn
  rw [htf, es, lastCol_rd hN0 (by omega), RDbl.mul_fin, RDbl.div_fin _ ht0.ne']
  generalize M.rnd (M.rnd ((N - 1 : ℝ) * s) / M.rnd X) = Q at eq hQ0 ⊢
  have hQ : Q + 1 / 2 < N := by norm_num at eq ⊢; linarith
  obtain ⟨m, hm⟩ := Int.eq_ofNat_of_zero_le (Int.floor_nonneg.mpr (show 0 ≤ Q + 1 / 2 by linarith))
  have f0 := Int.floor_le (Q + 1 / 2)
  have f1 := Int.lt_floor_add_one (Q + 1 / 2)
  rw [hm, Int.cast_natCast] at f0 f1
  have hmN : m < N := by exact_mod_cast lt_of_le_of_lt f0 hQ
  refine ⟨_, castU32_round_rd (by omega) hQ0 f0 f1, ?_⟩
  rw [UInt32.toNat_ofNat_of_lt' (by rw [show UInt32.size = 2 ^ 32 from rfl]; omega)]
  exact hmN

/-- The number of steps computed from a horizon does not exceed the horizon. -/
theorem steps_le_rd {H D : ℝ} {n : UInt32} (hH : 0 ≤ H) (hD : 0 < D)
    (h : numSteps (.fin H : RDbl M) (.fin D) = .ok n) : (n.toNat : ℝ) * D ≤ H * (1 + 1 / 2 ^ 51) := by
  have q0 : 0 ≤ H / D := div_nonneg hH hD.le
  have r0 := M.rnd_nonneg q0
  unfold numSteps at h
  rw [RDbl.div_fin _ hD.ne', fabs_rd r0] at h
  obtain ⟨m, hm⟩ := Int.eq_ofNat_of_zero_le (Int.floor_nonneg.mpr r0)
  have f0 := Int.floor_le (M.rnd (H / D))
  have ht : realTrunc (M.rnd (H / D)) = (m : Int) := by unfold realTrunc; rw [if_pos r0, hm]
  have hn : n.toNat = m := by
    unfold castU32 at h
    rw [RDbl.trunc_fin, ht] at h
    dsimp only at h
    split at h
    · next hlt =>
      have := Res.ok.inj h
      rw [← this, UInt32.toNat_ofNat_of_lt' (by rw [show UInt32.size = 2 ^ 32 from rfl]; omega)]
      omega
    · cases h
  rw [hm, Int.cast_natCast, ← hn] at f0
  rcases Nat.eq_zero_or_pos n.toNat with hz | hz
  · rw [hz]; simp; positivity
  · have hz' : (1 : ℝ) ≤ n.toNat := by exact_mod_cast hz
    have hq1 : 1 / 2 ≤ H / D := by
      by_contra hc
      push Not at hc
      have := (M.err' minNormal_le_one (x := H / D) (by rw [abs_of_nonneg q0]; linarith)).2
      norm_num at this
      linarith
    have := (M.err' (minNormal_le_one.trans (show (1 : ℝ) ≤ 2 * (H / D) by linarith)) (x := H / D) (by
      rw [abs_of_nonneg q0]; linarith)).2
    have h3 : (n.toNat : ℝ) ≤ H / D * (1 + 1 / 2 ^ 51) := by
      rw [show 2 * (H / D) / 2 ^ 52 = H / D * (1 / 2 ^ 51) by ring] at this
      linarith
    rw [div_mul_eq_mul_div, le_div_iff₀ hD] at h3
    exact h3

/-- C86 (missing: windows longer than the reference), in terms of the parameters: the reference has `N`
columns a decimal time step apart, the window covers a decimal horizon in decimal steps, and the
horizon is not longer than `N` of the reference's time steps. -/
theorem C86_decimals_partial (h d e : Int) (a b c : Nat) (N : ℕ) (n : UInt32)
    (hh : 0 ≤ h) (hd : 2 * minNormal ≤ (d : ℝ) / 10 ^ b) (he : 2 * minNormal ≤ (e : ℝ) / 10 ^ c)
    (hN0 : 1 ≤ N) (hN : N ≤ 2 ^ 20)
    (hn : numSteps (lit h a : RDbl M) (lit d b) = .ok n) (hn' : n.toNat ≤ 2 ^ 24)
    (hle : (h : ℝ) / 10 ^ a ≤ N * ((e : ℝ) / 10 ^ c)) :
    ∀ k < n.toNat, ColumnExists N (lit d b : RDbl M) (Flt.ofInt N *. lit e c) k := by
  rw [RDbl.lit_fin] at hn ⊢
  rw [RDbl.lit_fin] at hn ⊢
  have hmp := minNormal_pos
  have hN1 : (1 : ℝ) ≤ N := by exact_mod_cast hN0
  obtain ⟨H, hH⟩ : ∃ H, H = (h : ℝ) / 10 ^ a := ⟨_, rfl⟩
  obtain ⟨D, hD⟩ : ∃ D, D = (d : ℝ) / 10 ^ b := ⟨_, rfl⟩
  obtain ⟨E, hE⟩ : ∃ E, E = (e : ℝ) / 10 ^ c := ⟨_, rfl⟩
  rw [← hD] at hd hn ⊢
  rw [← hE] at he hle ⊢
  rw [← hH] at hn hle
  have hH0 : 0 ≤ H := by rw [hH]; have : (0 : ℝ) ≤ h := by exact_mod_cast hh
                         positivity
  have lower : ∀ x : ℝ, 2 * minNormal ≤ x → minNormal ≤ M.rnd x ∧ x - x / 2 ^ 52 ≤ M.rnd x := by
    intro x hx
    have := (M.err' (show minNormal ≤ x by linarith) (x := x) (by rw [abs_of_pos (by linarith)])).1
    refine ⟨?_, this⟩
    norm_num at this
    linarith
  obtain ⟨d1, -⟩ := lower D hd
  obtain ⟨e1, e2⟩ := lower E he
  have hn2 := steps_le_rd (M.rnd_nonneg hH0) (hmp.trans_le d1) hn
  refine C86_in_range_partial d1 e1 hN0 hN hn' (hn2.trans ?_)
  have hNE : E ≤ N * E := by nlinarith
  have h1 : M.rnd H ≤ N * E + N * E / 2 ^ 52 := by
    have := (M.err' (show minNormal ≤ N * E by linarith) (x := N * E) (by
      rw [abs_of_pos (by linarith)])).2
    exact (M.mono hle).trans this
  have h2 : N * (E - E / 2 ^ 52) ≤ N * M.rnd E := mul_le_mul_of_nonneg_left e2 (by linarith)
  have h3 : N * (E - E / 2 ^ 52) = N * E - N * E / 2 ^ 52 := by ring
  rw [h3] at h2
  generalize M.rnd H = x at h1 ⊢
  generalize N * M.rnd E = y at h2 ⊢
  have : 0 < N * E := by linarith
  norm_num at h1 h2 ⊢
  linarith

/-- C86: the shipped configuration only meets columns of the reference. -/
theorem C86_shipped : ∀ k < (20 : UInt32).toNat,
    ColumnExists 50 (lit 1 1 : RDbl ieee) (Flt.ofInt (50 : ℕ) *. lit 1 1) k := by
  have hm := minNormal_le_small
  exact C86_decimals_partial 20 1 1 1 1 1 50 20 (by norm_num) (by norm_num; linarith)
    (by norm_num; linarith) (by norm_num) (by norm_num) C81_shipped_steps.2.1 (by decide) (by norm_num)

/-! ## the counterexample -/

/-- `C86` full statement: with decimal parameters, both horizons a whole number of their time steps, and the
window's horizon no longer than the controller's (which the nodes check), every matched column
exists. -/
def C86_statement : Prop :=
  ∀ (eh ed dh dd : Int) (a b c e K L : Nat) (N n : UInt32), 0 < ed → 0 < dd →
    (eh : ℝ) / 10 ^ a = K * ((ed : ℝ) / 10 ^ b) → (dh : ℝ) / 10 ^ c = L * ((dd : ℝ) / 10 ^ e) →
    (dh : ℝ) / 10 ^ c ≤ (eh : ℝ) / 10 ^ a →
    numSteps (lit eh a : RDbl ieee) (lit ed b) = .ok N →
    numSteps (lit dh c : RDbl ieee) (lit dd e) = .ok n → 2 ≤ N.toNat →
    ∀ k < n.toNat, ColumnExists N.toNat (lit dd e : RDbl ieee) (Flt.ofInt N.toNat *. lit ed b) k

theorem ieee_three_fifths : ieee.rnd (((6 : Int) : ℝ) / 10 ^ 1) = 5404319552844595 / 2 ^ 53 := by
  show Ieee.rnd _ = _
  rw [Ieee.rnd_eq 5404319552844595 (-53) (by norm_num) (by norm_num [abs_of_pos])
    (by norm_num [abs_of_pos]) (by rw [abs_lt]; constructor <;> norm_num)]
  norm_num

theorem ieee_fiftieth : ieee.rnd (((2 : Int) : ℝ) / 10 ^ 2) = 5764607523034235 / 2 ^ 58 := by
  show Ieee.rnd _ = _
  rw [Ieee.rnd_eq 5764607523034235 (-58) (by norm_num) (by norm_num [abs_of_pos])
    (by norm_num [abs_of_pos]) (by rw [abs_lt]; constructor <;> norm_num)]
  norm_num

/-- Six time steps of 0.1 are counted as five. -/
theorem steps_five : numSteps (lit 6 1 : RDbl ieee) (lit 1 1) = .ok 5 := by
  have e3 : ieee.rnd (5404319552844595 / 2 ^ 53 / (3602879701896397 / 2 ^ 55)) =
      6755399441055743 / 2 ^ 50 := by
    show Ieee.rnd _ = _
    rw [Ieee.rnd_eq 6755399441055743 (-50) (by norm_num) (by norm_num [abs_of_pos])
      (by norm_num [abs_of_pos]) (by rw [abs_lt]; constructor <;> norm_num)]
    norm_num
  unfold numSteps
  rw [RDbl.lit_fin, RDbl.lit_fin, ieee_three_fifths, ieee_tenth', RDbl.div_fin _ (by norm_num), e3,
    fabs_rd (by norm_num)]
  exact castU32_rd (n := 5) (by norm_num) (by norm_num) (by norm_num)

/-- Thirty time steps of 0.02 are counted as thirty. -/
theorem steps_thirty : numSteps (lit 6 1 : RDbl ieee) (lit 2 2) = .ok 30 := by
  have e3 : ieee.rnd (5404319552844595 / 2 ^ 53 / (5764607523034235 / 2 ^ 58)) = 30 := by
    show Ieee.rnd _ = _
    rw [Ieee.rnd_eq 8444249301319680 (-48) (by norm_num) (by norm_num [abs_of_pos])
      (by norm_num [abs_of_pos]) (by rw [abs_lt]; constructor <;> norm_num)]
    norm_num
  unfold numSteps
  rw [RDbl.lit_fin, RDbl.lit_fin, ieee_three_fifths, ieee_fiftieth, RDbl.div_fin _ (by norm_num), e3,
    fabs_rd (by norm_num)]
  exact castU32_rd (n := 30) (by norm_num) (by norm_num) (by norm_num)

/-- The last pose of a window of thirty steps of 0.02 is matched with the sixth of five columns, with any
rounding to nearest. -/
theorem column_five : matchedColumn 5 (lit 2 2 : RDbl M) (Flt.ofInt (5 : ℕ) *. lit 1 1) 29 = .ok 5 := by
  have hm : minNormal ≤ 1 := minNormal_le_one
  have e1 := M.err' hm (x := ((2 : Int) : ℝ) / 10 ^ 2) (by norm_num [abs_of_pos])
  have e2 := M.err' hm (x := ((1 : Int) : ℝ) / 10 ^ 1) (by norm_num [abs_of_pos])
  unfold matchedColumn
  rw [RDbl.lit_fin 2 2, RDbl.lit_fin 1 1, lastCol_rd (by norm_num) (by norm_num), RDbl.ofInt_fin,
    Int.cast_natCast, M.rnd_nat (by norm_num), RDbl.mul_fin]
  generalize M.rnd (((2 : Int) : ℝ) / 10 ^ 2) = D at e1 ⊢
  generalize M.rnd (((1 : Int) : ℝ) / 10 ^ 1) = E at e2 ⊢
  norm_num at e1 e2
  obtain ⟨s, es, -, s0, s1⟩ := time_rd (M := M) hm (D := D) (by linarith [e1.1]) 29 (by
    norm_num; linarith [e1.2])
  rw [es, RDbl.mul_fin]
  norm_num at s0 s1
  have e3 := M.err' hm (x := ((5 : ℕ) : ℝ) * E) (by
    rw [abs_le]; constructor <;> norm_num <;> linarith [e2.1, e2.2])
  generalize M.rnd (((5 : ℕ) : ℝ) * E) = T at e3 ⊢
  have e4 := M.err' (show minNormal ≤ 4 from hm.trans (by norm_num)) (x := (((5 : ℕ) : ℝ) - 1) * s) (by
    rw [abs_le]; constructor <;> norm_num <;> linarith [e1.1, e1.2])
  generalize M.rnd ((((5 : ℕ) : ℝ) - 1) * s) = P at e4 ⊢
  norm_num at e3 e4
  have hT : 0 < T := by linarith [e3.1, e2.1]
  rw [RDbl.div_fin _ hT.ne']
  have q0 : 4.6 ≤ P / T := by
    rw [le_div_iff₀ hT]; norm_num; linarith [e1.1, e2.2, e3.2, e4.1]
  have q1 : P / T ≤ 5 := by
    rw [div_le_iff₀ hT]; linarith [e1.2, e2.1, e3.1, e4.2]
  have e5 := M.err' (show minNormal ≤ 8 from hm.trans (by norm_num)) (x := P / T) (by
    rw [abs_le]; norm_num at q0; constructor <;> linarith)
  generalize M.rnd (P / T) = Q at e5 ⊢
  norm_num at e5 q0
  exact castU32_round_rd (n := 5) (by norm_num) (by linarith [e5.1]) (by norm_num; linarith [e5.1])
    (by norm_num; linarith [e5.2])

/-- C86 is false: controller horizon 0.6 with time step 0.1 gives a reference of five columns; the window of
the same horizon with time step 0.02 matches its last pose with column number 5. -/
theorem C86_refuted : ¬ C86_statement := by
  intro h
  obtain ⟨j, hj, hlt⟩ := h 6 1 6 2 1 1 1 2 6 30 5 30 (by norm_num) (by norm_num) (by norm_num) (by norm_num)
    le_rfl steps_five steps_thirty (by decide) 29 (by decide)
  have hc : matchedColumn (5 : UInt32).toNat (lit 2 2 : RDbl ieee)
      (Flt.ofInt (5 : UInt32).toNat *. lit 1 1) 29 = .ok 5 := column_five
  rw [hc] at hj
  cases hj
  exact absurd hlt (by decide)

/-- C86, the consequence: with these parameters the objective returns no value for any twist whose rollout
is free, on any map and for any reference. -/
theorem C86_lost_column (d : DynamicWindow (RDbl M)) (hdt : d.dt = lit 2 2) (hst : d.steps = 30)
    (g : GridMap (RDbl M)) (x0 u : V3 (RDbl M)) (hf : FreeRollout d g x0 u) (ref : List (V3 (RDbl M)))
    (hr : ref.length = 5) (c : RDbl M) :
    d.objectiveTraj g x0 u ref (Flt.ofInt ref.length *. lit 1 1) ≠ .ok c := by
  refine C86_no_value d g x0 u ref _ hf 29 (by rw [hst]; decide) ?_ c
  rintro ⟨j, hj, hlt⟩
  rw [hr, hdt] at hj
  have hc : matchedColumn 5 (lit 2 2 : RDbl M) (Flt.ofInt ((5 : ℕ) : Int) *. lit 1 1) 29 = .ok 5 := column_five
  rw [hc] at hj
  cases hj
  rw [hr] at hlt
  exact absurd hlt (by decide)

/-- A robot at the origin that stands still stays at the origin. -/
theorem standing_rd (dt : ℝ) (k : ℕ) : ∃ th,
    poseAfter (⟨.fin 0, .fin 0, .fin 0⟩ : V3 (RDbl M)) (.fin dt) ⟨.fin 0, .fin 0, .fin 0⟩ k =
      ⟨.fin 0, .fin 0, .fin th⟩ := by
  induction k with
  | zero => exact ⟨0, rfl⟩
  | succ k ih =>
    obtain ⟨th, h⟩ := ih
    have hs : ∃ th', stepPose (⟨.fin 0, .fin 0, .fin 0⟩ : V3 (RDbl M)) (.fin dt) ⟨.fin 0, .fin 0, .fin th⟩ =
        ⟨.fin 0, .fin 0, .fin th'⟩ := by
      have ha : almostEqual (.fin 0 : RDbl M) (lit 0 0) = true := by
        have e := (M.err' minNormal_le_one (x := ((1 : ℤ) : ℝ) / 10 ^ 12) (by norm_num [abs_of_pos])).1
        unfold almostEqual
        rw [RDbl.lit_fin 0 0, RDbl.lit_fin 1 12, RDbl.sub_fin]
        simp only [Int.cast_zero, zero_div, M.rnd_zero, sub_zero]
        rw [fabs_rd le_rfl, RDbl.lt_fin]
        norm_num at e ⊢
        linarith
      refine ⟨M.rnd (wrapR M (M.rnd (M.rnd (th + 0) + piR M)) - piR M), ?_⟩
      unfold stepPose integrateTwist
      dsimp only
      rw [if_pos ha]
      simp only [transform2dAngle, M3.mulVec, V3.add, V3.dot, RDbl.mul_fin, RDbl.add_fin, RDbl.lit_fin,
        RDbl.cos_fin, RDbl.sin_fin, RDbl.neg_fin, zero_mul, mul_zero, M.rnd_zero, Int.cast_zero, zero_div,
        add_zero, normalize_rd]
    obtain ⟨th', hs⟩ := hs
    refine ⟨th', ?_⟩
    rw [← hs, ← h]
    unfold poseAfter
    rw [Function.iterate_succ_apply']

/-- The shipped detector on a free map of three by three cells of a metre. -/
theorem free_square_rd (th : RDbl M) :
    (⟨lit 7 1, lit 10 1, lit 2 1, lit 8 1⟩ : Collision (RDbl M)).collisionCheck (squareAt M (-1) 1)
      ⟨.fin 0, .fin 0, th⟩ = .ok false := by
  have h1 : minNormal ≤ 1 := minNormal_le_one
  have e7 := M.err' h1 (x := ((7 : Int) : ℝ) / 10 ^ 1) (by norm_num [abs_of_pos])
  have e2 := M.err' h1 (x := ((2 : Int) : ℝ) / 10 ^ 1) (by norm_num [abs_of_pos])
  have hs : SensibleRd (⟨lit 7 1, lit 10 1, lit 2 1, lit 8 1⟩ : Collision (RDbl M)) (squareAt M (-1) 1) (-1) (-1)
      1 (M.rnd (((7 : Int) : ℝ) / 10 ^ 1)) (M.rnd (((10 : Int) : ℝ) / 10 ^ 1))
      (M.rnd (((2 : Int) : ℝ) / 10 ^ 1)) := by
    refine ⟨?_, squareAt_placed (by norm_num), h1, show (3 : UInt32) ≠ 0 by decide,
      show (3 : UInt32) ≠ 0 by decide, by simp [squareAt], by simp [squareAt], rfl, rfl, rfl, ?_, ?_, ?_, ?_, ?_⟩
    · constructor <;> simp [squareAt, Fits, numCells]
    all_goals norm_num at e7 e2 ⊢
    all_goals linarith [e7.1, e7.2, e2.1, e2.2]
  have hp : InMap (squareAt M (-1) 1) (-1) (-1) 1 0 0 := by
    refine ⟨by norm_num, ?_, by norm_num, ?_⟩ <;> simp only [squareAt, UInt32.toNat_ofNat] <;> norm_num
  obtain ⟨i, j, -, -, cfg, hcfg, hr, -⟩ := config_rd hs hp th
  refine (C31_nothing_reported _ _ hs.wf _ cfg hcfg hr ?_).1
  rintro k l ⟨-, -, -, -, v, hv, hlt⟩
  have hv0 : v = 0 := by
    have := List.mem_of_getElem? hv
    simpa [squareAt] using this
  subst hv0
  have ht : (lit 8 1 : RDbl M) = lit 80 2 := by
    rw [RDbl.lit_fin, RDbl.lit_fin]; congr 2; norm_num
  rw [show (⟨lit 7 1, lit 10 1, lit 2 1, lit 8 1⟩ : Collision (RDbl M)).occupied_threshold = lit 80 2 from ht,
    C87_threshold _ _ (by norm_num) (by decide)] at hlt
  exact absurd hlt (by decide)

/-- A window meeting the hypotheses of `C86_lost_column`: the robot stands still on the free map. -/
example : ∃ d : DynamicWindow (RDbl M), d.dt = lit 2 2 ∧ d.steps = 30 ∧
    FreeRollout d (squareAt M (-1) 1) ⟨.fin 0, .fin 0, .fin 0⟩ ⟨.fin 0, .fin 0, .fin 0⟩ := by
  refine ⟨{ shippedWindow M with
    collision := ⟨lit 7 1, lit 10 1, lit 2 1, lit 8 1⟩, dt := lit 2 2, steps := 30 }, rfl, rfl, ?_⟩
  intro k _
  obtain ⟨th, h⟩ := standing_rd (M := M) (M.rnd (((2 : Int) : ℝ) / 10 ^ 2)) (k + 1)
  exact (congrArg _ h).trans (free_square_rd _)

end Ergodic
