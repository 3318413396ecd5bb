import Verif.Props.RoundedGrid
import Verif.Model.Numerics
import Verif.Model.Collision

/-!
# Property C81: counts computed from a quotient, with rounding

The number of steps of a rollout is `(unsigned int)|horizon / dt|`, the radii of a collision check
are `floor(radius / resolution)`.  The arguments are decimal numbers from a configuration file.
-/

namespace Ergodic
variable {M : Machine}

theorem fabs_rd {x : ℝ} (h : 0 ≤ x) : fabs (.fin x : RDbl M) = .fin x := by
  unfold fabs
  rw [RDbl.lit_fin, Int.cast_zero, zero_div, M.rnd_zero]
  rw [if_neg (by rw [RDbl.lt_fin]; exact not_lt.mpr h)]

/-- `C81` full statement: when the decimal number `H` is `N` times the decimal number `D`, the
rollout over `H` with time step `D` has `N` steps. -/
def C81_statement : Prop :=
  ∀ (h d : Int) (e f : Nat) (N : Nat), 0 < d → N < 2 ^ 32 → (h : ℝ) / 10 ^ e = N * ((d : ℝ) / 10 ^ f) →
    numSteps (lit h e : RDbl ieee) (lit d f) = .ok (UInt32.ofNat N)

/-- The quotient of two rounded numbers whose exact quotient is `N`. -/
theorem quot_rd {H D : ℝ} {N : ℕ} (hD : minNormal ≤ D) (hN : N < 2 ^ 32) (hN0 : N ≠ 0)
    (hq : H = N * D) : N - 1 / 4 ≤ M.rnd H / M.rnd D ∧ M.rnd H / M.rnd D ≤ N + 1 / 4 ∧
      0 < M.rnd D := by
  have hD0 : 0 < D := minNormal_pos.trans_le hD
  have h1 : (1 : ℝ) ≤ N := by exact_mod_cast Nat.one_le_iff_ne_zero.mpr hN0
  have h2 : (N : ℝ) ≤ 2 ^ 32 := by exact_mod_cast hN.le
  have hDH : D ≤ H := by rw [hq]; nlinarith
  have eD := M.err' hD (x := D) (by rw [abs_of_pos hD0])
  have eH := M.err' (hD.trans hDH) (x := H) (by rw [abs_of_pos (hD0.trans_le hDH)])
  have hd : D / 2 ≤ M.rnd D := by
    have : D / 2 ^ 52 ≤ D / 2 := by
      rw [div_le_div_iff₀ (by positivity) (by positivity)]; linarith
    linarith [eD.1]
  have hd0 : 0 < M.rnd D := by linarith
  have hND : N * D ≤ 2 ^ 32 * D := mul_le_mul_of_nonneg_right h2 hD0.le
  have hH : H / 2 ^ 52 ≤ D / 2 ^ 20 := by
    rw [hq, div_le_div_iff₀ (by positivity) (by positivity)]; linarith
  have hN' : N * (D / 2 ^ 52) ≤ D / 2 ^ 20 := by
    have : N * (D / 2 ^ 52) = H / 2 ^ 52 := by rw [hq]; ring
    rw [this]; exact hH
  have hs : D / 2 ^ 20 ≤ D / 32 := by
    rw [div_le_div_iff₀ (by positivity) (by positivity)]; linarith
  have a1 := mul_le_mul_of_nonneg_left eD.1 (show (0 : ℝ) ≤ N by linarith)
  have a2 := mul_le_mul_of_nonneg_left eD.2 (show (0 : ℝ) ≤ N by linarith)
  rw [mul_sub] at a1
  rw [mul_add] at a2
  refine ⟨?_, ?_, hd0⟩
  · rw [le_div_iff₀ hd0, sub_mul]
    linarith [eH.1]
  · rw [div_le_iff₀ hd0, add_mul]
    linarith [eH.2]

theorem near_floor_rd {q : ℝ} {N : ℕ} (hN : N < 2 ^ 32) (hN0 : N ≠ 0) (h0 : N - 1 / 4 ≤ q)
    (h1 : q ≤ N + 1 / 4) : ∃ n : ℕ, (n = N ∨ n + 1 = N) ∧ (n : ℝ) ≤ M.rnd q ∧ M.rnd q < n + 1 := by
  have hlo : ((N - 1 : ℕ) : ℝ) ≤ M.rnd q := by
    have : ((N - 1 : ℕ) : ℝ) ≤ q := by
      rw [Nat.cast_sub (Nat.one_le_iff_ne_zero.mpr hN0), Nat.cast_one]; linarith
    have := M.mono this
    rwa [M.rnd_nat (by omega)] at this
  by_cases hc : (N : ℝ) ≤ M.rnd q
  · refine ⟨N, Or.inl rfl, hc, ?_⟩
    have h2 : (N : ℝ) + 1 ≤ 2 ^ 32 := by exact_mod_cast hN
    have := (M.err' (show minNormal ≤ 2 ^ 33 from minNormal_le_one.trans (by norm_num)) (x := q) (by
      have : (0 : ℝ) ≤ N := by positivity
      rw [abs_le]; constructor <;> linarith)).2
    norm_num at this
    linarith
  · refine ⟨N - 1, Or.inr (by omega), hlo, ?_⟩
    rw [Nat.cast_sub (Nat.one_le_iff_ne_zero.mpr hN0), Nat.cast_one]
    linarith

/-- C81 (missing: one step may be lost): a rollout over `N` time steps, both given as decimal
numbers, has `N` or `N - 1` steps. -/
theorem C81_steps_partial (h d : Int) (e f : Nat) (N : Nat) (hd : minNormal ≤ (d : ℝ) / 10 ^ f)
    (hN : N < 2 ^ 32) (hN0 : N ≠ 0) (hq : (h : ℝ) / 10 ^ e = N * ((d : ℝ) / 10 ^ f)) :
    ∃ n : ℕ, (n = N ∨ n + 1 = N) ∧
      numSteps (lit h e : RDbl M) (lit d f) = .ok (UInt32.ofNat n) := by
  obtain ⟨q0, q1, d0⟩ := quot_rd (M := M) hd hN hN0 hq
  obtain ⟨n, hn, n0, n1⟩ := near_floor_rd (M := M) hN hN0 q0 q1
  refine ⟨n, hn, ?_⟩
  unfold numSteps
  rw [RDbl.lit_fin, RDbl.lit_fin, RDbl.div_fin _ d0.ne', fabs_rd (le_trans (by positivity) n0)]
  exact castU32_rd (by omega) n0 n1

/-- C81: for any finite horizon and positive time step the number of steps is the exact quotient
rounded down, or one more (when the quotient is rounded up to the next integer). -/
theorem C81_steps_bracket (h d : ℝ) (h0 : 0 ≤ h) (d0 : 0 < d) (hq : h / d < 2 ^ 32 - 1) :
    ∃ n : ℕ, n < 2 ^ 32 ∧ numSteps (.fin h : RDbl M) (.fin d) = .ok (UInt32.ofNat n) ∧
      (n : ℝ) ≤ h / d + 1 / 2 ^ 18 ∧ h / d < n + 1 := by
  have q0 : 0 ≤ h / d := div_nonneg h0 d0.le
  have r0 : 0 ≤ M.rnd (h / d) := M.rnd_nonneg q0
  obtain ⟨n, hn⟩ := Int.eq_ofNat_of_zero_le (Int.floor_nonneg.mpr r0)
  have f0 := Int.floor_le (M.rnd (h / d))
  have f1 := Int.lt_floor_add_one (M.rnd (h / d))
  rw [hn, Int.cast_natCast] at f0 f1
  have e := (M.err' (show minNormal ≤ 2 ^ 33 from minNormal_le_one.trans (by norm_num))
    (x := h / d) (by rw [abs_of_nonneg q0]; linarith)).2
  norm_num at e
  have hn32 : n < 2 ^ 32 := by
    have : (n : ℝ) < 2 ^ 32 := by norm_num at hq; linarith
    exact_mod_cast this
  refine ⟨n, hn32, ?_, ?_, ?_⟩
  · unfold numSteps
    rw [RDbl.div_fin _ d0.ne', fabs_rd r0]
    exact castU32_rd hn32 f0 f1
  · norm_num; linarith
  · by_contra hc
    push Not at hc
    have := M.mono hc
    rw [show ((n : ℝ) + 1) = ((n + 1 : ℕ) : ℝ) by push_cast; ring, M.rnd_nat (by omega)] at this
    push_cast at this
    linarith

theorem ieee_tenth : ieee.rnd (1 / 10) = 3602879701896397 / 2 ^ 55 := by
  show Ieee.rnd _ = _
  rw [Ieee.rnd_eq 7205759403792794 (-56) (by norm_num) (by norm_num [abs_of_pos])
    (by norm_num [abs_of_pos]) (by rw [abs_lt]; constructor <;> norm_num)]
  norm_num

theorem ieee_three_tenths : ieee.rnd (3 / 10) = 5404319552844595 / 2 ^ 54 := by
  show Ieee.rnd _ = _
  rw [Ieee.rnd_eq 5404319552844595 (-54) (by norm_num) (by norm_num [abs_of_pos])
    (by norm_num [abs_of_pos]) (by rw [abs_lt]; constructor <;> norm_num)]
  norm_num

/-- With binary64, `0.3 / 0.1` is `3 - 2^-51`: two steps instead of three. -/
theorem steps_lost : numSteps (lit 3 1 : RDbl ieee) (lit 1 1) = .ok 2 := by
  have e1 : ieee.rnd (((3 : Int) : ℝ) / 10 ^ 1) = 5404319552844595 / 2 ^ 54 := by
    rw [← ieee_three_tenths]; norm_num
  have e2 : ieee.rnd (((1 : Int) : ℝ) / 10 ^ 1) = 3602879701896397 / 2 ^ 55 := by
    rw [← ieee_tenth]; norm_num
  have e3 : ieee.rnd (5404319552844595 / 2 ^ 54 / (3602879701896397 / 2 ^ 55)) = 3 - 1 / 2 ^ 51 := by
    show Ieee.rnd _ = _
    rw [Ieee.rnd_eq 6755399441055743 (-51) (by norm_num) (by norm_num [abs_of_pos])
      (by norm_num [abs_of_pos]) (by rw [abs_lt]; constructor <;> norm_num)]
    norm_num
  unfold numSteps
  rw [RDbl.lit_fin, RDbl.lit_fin, e1, e2, RDbl.div_fin _ (by norm_num), e3, fabs_rd (by norm_num)]
  exact castU32_rd (n := 2) (by norm_num) (by norm_num) (by norm_num)

/-- C81 is false: three time steps of 0.1 in 0.3 are counted as two. -/
theorem C81_refuted : ¬ C81_statement := by
  intro h
  have := h 3 1 1 1 3 (by norm_num) (by norm_num) (by norm_num)
  rw [steps_lost] at this
  exact absurd (Res.ok.inj this) (by decide)

/-- The hypotheses of the two theorems hold for 0.3 and 0.1. -/
example : minNormal ≤ ((1 : Int) : ℝ) / 10 ^ 1 ∧
    ((3 : Int) : ℝ) / 10 ^ 1 = (3 : Nat) * (((1 : Int) : ℝ) / 10 ^ 1) ∧
    (0.3 : ℝ) / 0.1 < 2 ^ 32 - 1 := by
  refine ⟨?_, by norm_num, by norm_num⟩
  unfold minNormal
  have := tiny_le 60 (by norm_num)
  calc _ ≤ 2 ^ 53 * (1 / 2 ^ 60 : ℝ) := mul_le_mul_of_nonneg_left this (by positivity)
    _ ≤ _ := by norm_num

/-- C81: no step is lost with the shipped configuration (`config/explore_omni.yaml`,
`config/explore_cart.yaml`): validation 0.5 / 0.1, window 2.0 / 0.1, controller 5.0 / 0.1. -/
theorem C81_shipped_steps :
    numSteps (lit 5 1 : RDbl ieee) (lit 1 1) = .ok 5 ∧
    numSteps (lit 20 1 : RDbl ieee) (lit 1 1) = .ok 20 ∧
    numSteps (lit 50 1 : RDbl ieee) (lit 1 1) = .ok 50 := by
  have e2 : ieee.rnd (((1 : Int) : ℝ) / 10 ^ 1) = 3602879701896397 / 2 ^ 55 := by
    rw [← ieee_tenth]; norm_num
  have h5 : ieee.rnd (((5 : Int) : ℝ) / 10 ^ 1) = 1 / 2 := by
    rw [show ((5 : Int) : ℝ) / 10 ^ 1 = 1 / 2 by norm_num]
    exact Ieee.rnd_rep 1 (-1) (by norm_num) (by norm_num) (by norm_num)
  have h20 : ieee.rnd (((20 : Int) : ℝ) / 10 ^ 1) = 2 := by
    rw [show ((20 : Int) : ℝ) / 10 ^ 1 = 2 by norm_num]; simp
  have h50 : ieee.rnd (((50 : Int) : ℝ) / 10 ^ 1) = 5 := by
    rw [show ((50 : Int) : ℝ) / 10 ^ 1 = ((5 : Nat) : ℝ) by norm_num, ieee.rnd_nat (by norm_num)]; norm_num
  have key : ∀ (x : ℝ) (m e : ℤ) (n : ℕ), -1074 ≤ e → n < 2 ^ 32 →
      2 ^ (52 + e) ≤ |x / (3602879701896397 / 2 ^ 55)| →
      |x / (3602879701896397 / 2 ^ 55)| < 2 ^ (53 + e) →
      |x / (3602879701896397 / 2 ^ 55) - m * 2 ^ e| < 2 ^ e / 2 → (n : ℝ) = m * 2 ^ e →
      castU32 (fabs (.fin (ieee.rnd (x / (3602879701896397 / 2 ^ 55))) : RDbl ieee)) =
        .ok (UInt32.ofNat n) := by
    intro x m e n he hn h1 h2 h3 h4
    have : ieee.rnd (x / (3602879701896397 / 2 ^ 55)) = n := by
      rw [h4]; exact Ieee.rnd_eq m e he h1 h2 h3
    rw [this, fabs_rd (by positivity)]
    exact castU32_rd hn le_rfl (by linarith)
  unfold numSteps
  rw [RDbl.lit_fin, RDbl.lit_fin, RDbl.lit_fin, RDbl.lit_fin, e2, h5, h20, h50,
    RDbl.div_fin _ (by norm_num), RDbl.div_fin _ (by norm_num), RDbl.div_fin _ (by norm_num)]
  refine ⟨?_, ?_, ?_⟩
  · exact key (1 / 2) 5629499534213120 (-50) 5 (by norm_num) (by norm_num)
      (by norm_num [abs_of_pos]) (by norm_num [abs_of_pos])
      (by rw [abs_lt]; constructor <;> norm_num) (by norm_num)
  · exact key 2 5629499534213120 (-48) 20 (by norm_num) (by norm_num)
      (by norm_num [abs_of_pos]) (by norm_num [abs_of_pos])
      (by rw [abs_lt]; constructor <;> norm_num) (by norm_num)
  · exact key 5 7036874417766400 (-47) 50 (by norm_num) (by norm_num)
      (by norm_num [abs_of_pos]) (by norm_num [abs_of_pos])
      (by rw [abs_lt]; constructor <;> norm_num) (by norm_num)

/-! ## radii in cells -/

theorem castI32_floor_rd {q : ℝ} {n : ℕ} (hn : n < 2 ^ 31) (h0 : (n : ℝ) ≤ q) (h1 : q < n + 1) :
    castI32 (Flt.floor (RDbl.fin q : RDbl M)) = .ok (n : Int) := by
  have hz : ⌊q⌋ = (n : Int) := Int.floor_eq_iff.mpr ⟨by exact_mod_cast h0, by exact_mod_cast h1⟩
  unfold castI32
  rw [RDbl.floor_fin, hz, RDbl.trunc_fin, realTrunc_intCast]
  dsimp only
  rw [if_pos (by omega)]

/-- `C81` full statement for radii: when the decimal radius is `N` times the decimal resolution
and the message carries the resolution nearest to that decimal, the radius is `N` cells. -/
def C81_radius_statement : Prop :=
  ∀ (h d : Int) (e f : Nat) (N : Nat), 0 < d → N < 2 ^ 31 → (h : ℝ) / 10 ^ e = N * ((d : ℝ) / 10 ^ f) →
    castI32 (Flt.floor ((lit h e : RDbl ieee) /. lit d f)) = .ok (N : Int)

/-- C81 (missing: one cell may be lost), radii: a radius of `N` cells, both lengths given as
decimal numbers, becomes `N` or `N - 1` cells. -/
theorem C81_radius_partial (h d : Int) (e f : Nat) (N : Nat) (hd : minNormal ≤ (d : ℝ) / 10 ^ f)
    (hN : N < 2 ^ 31) (hN0 : N ≠ 0) (hq : (h : ℝ) / 10 ^ e = N * ((d : ℝ) / 10 ^ f)) :
    ∃ n : ℕ, (n = N ∨ n + 1 = N) ∧
      castI32 (Flt.floor ((lit h e : RDbl M) /. lit d f)) = .ok (n : Int) := by
  obtain ⟨q0, q1, d0⟩ := quot_rd (M := M) hd (by omega) hN0 hq
  obtain ⟨n, hn, n0, n1⟩ := near_floor_rd (M := M) (by omega) hN0 q0 q1
  refine ⟨n, hn, ?_⟩
  rw [RDbl.lit_fin, RDbl.lit_fin, RDbl.div_fin _ d0.ne']
  exact castI32_floor_rd (by omega) n0 n1

/-- C81 is false for radii: the shipped boundary radius of 0.7 on a map of resolution 0.1 is six
cells instead of seven. -/
theorem C81_radius_refuted : ¬ C81_radius_statement := by
  intro h
  have := h 7 1 1 1 7 (by norm_num) (by norm_num) (by norm_num)
  have e1 : ieee.rnd (((7 : Int) : ℝ) / 10 ^ 1) = 3152519739159347 / 2 ^ 52 := by
    show Ieee.rnd _ = _
    rw [Ieee.rnd_eq 6305039478318694 (-53) (by norm_num) (by norm_num [abs_of_pos])
      (by norm_num [abs_of_pos]) (by rw [abs_lt]; constructor <;> norm_num)]
    norm_num
  have e2 : ieee.rnd (((1 : Int) : ℝ) / 10 ^ 1) = 3602879701896397 / 2 ^ 55 := by
    rw [← ieee_tenth]; norm_num
  have e3 : ieee.rnd (3152519739159347 / 2 ^ 52 / (3602879701896397 / 2 ^ 55)) = 7 - 1 / 2 ^ 50 := by
    show Ieee.rnd _ = _
    rw [Ieee.rnd_eq 7881299347898367 (-50) (by norm_num) (by norm_num [abs_of_pos])
      (by norm_num [abs_of_pos]) (by rw [abs_lt]; constructor <;> norm_num)]
    norm_num
  rw [RDbl.lit_fin, RDbl.lit_fin, e1, e2, RDbl.div_fin _ (by norm_num), e3,
    castI32_floor_rd (n := 6) (by norm_num) (by norm_num) (by norm_num)] at this
  exact absurd (Res.ok.inj this) (by norm_num)

/-- The single-precision number nearest to 0.1, which is what a map message of resolution 0.1
carries: `13421773 / 2^27`. -/
noncomputable def tenthF32 : ℝ := 13421773 / 2 ^ 27

/-- C81, the shipped collision parameters (boundary 0.7, threshold 0.2, search 1.0) on a map whose
message has resolution 0.1 in single precision: the radii are 6, 8 and 9 cells instead of 7, 9
and 10, on every machine. -/
theorem C81_shipped_radii (g : GridMap (RDbl M)) (hg : g.resolution = .fin tenthF32) (pose : V3 (RDbl M))
    (i j : UInt32) (hp : g.world2Grid pose.c0 pose.c1 = .ok (i, j)) (occ : RDbl M) :
    Collision.config ⟨lit 7 1, lit 10 1, lit 2 1, occ⟩ g pose =
      .ok { r_bnd := 6, r_col := 8, r_max := 9, cx := u2i j, cy := u2i i } := by
  have hm : minNormal ≤ 1 := minNormal_le_one
  have hm2 : minNormal ≤ 16 := hm.trans (by norm_num)
  have hr : tenthF32 ≠ 0 := by unfold tenthF32; norm_num
  have e7 := M.err' hm (x := ((7 : Int) : ℝ) / 10 ^ 1) (by norm_num [abs_of_pos])
  have e2 := M.err' hm (x := ((2 : Int) : ℝ) / 10 ^ 1) (by norm_num [abs_of_pos])
  have e10 := M.err' hm (x := ((10 : Int) : ℝ) / 10 ^ 1) (by norm_num [abs_of_pos])
  unfold Collision.config
  rw [hp, hg, RDbl.lit_fin, RDbl.lit_fin, RDbl.lit_fin, RDbl.add_fin]
  generalize M.rnd (((7 : Int) : ℝ) / 10 ^ 1) = a7 at e7 ⊢
  generalize M.rnd (((2 : Int) : ℝ) / 10 ^ 1) = a2 at e2 ⊢
  generalize M.rnd (((10 : Int) : ℝ) / 10 ^ 1) = a10 at e10 ⊢
  norm_num at e7 e2 e10
  have e9 := M.err' hm (x := a7 + a2) (by rw [abs_le]; constructor <;> linarith [e7.1, e7.2, e2.1, e2.2])
  generalize M.rnd (a7 + a2) = a9 at e9 ⊢
  norm_num at e9
  rw [RDbl.div_fin _ hr, RDbl.div_fin _ hr, RDbl.div_fin _ hr]
  have hr0 : 0 < tenthF32 := by unfold tenthF32; norm_num
  have cell : ∀ (x : ℝ) (n : ℕ), n < 2 ^ 20 → n * tenthF32 ≤ x → x ≤ (n + 1 - 1 / 2 ^ 24) * tenthF32 →
      castI32 (Flt.floor (RDbl.fin (M.rnd (x / tenthF32)) : RDbl M)) = .ok (n : Int) := by
    intro x n hn h0 h1
    have q0 : (n : ℝ) ≤ x / tenthF32 := by rw [le_div_iff₀ hr0]; exact h0
    have q1 : x / tenthF32 ≤ n + 1 - 1 / 2 ^ 24 := by rw [div_le_iff₀ hr0]; exact h1
    have hn' : (n : ℝ) < 2 ^ 20 := by exact_mod_cast hn
    refine castI32_floor_rd (by omega) ?_ ?_
    · have := M.mono q0
      rwa [M.rnd_nat (by omega)] at this
    · have := (M.err' (show minNormal ≤ 2 ^ 21 from hm.trans (by norm_num)) (x := x / tenthF32) (by
        rw [abs_of_nonneg (le_trans (by positivity) q0)]; linarith)).2
      norm_num at this q1 ⊢
      linarith
  rw [cell a7 6 (by norm_num) (by unfold tenthF32; norm_num; linarith [e7.1])
      (by unfold tenthF32; norm_num; linarith [e7.2]),
    cell a9 8 (by norm_num) (by unfold tenthF32; norm_num; linarith [e7.1, e2.1, e9.1])
      (by unfold tenthF32; norm_num; linarith [e7.2, e2.2, e9.2]),
    cell a10 9 (by norm_num) (by unfold tenthF32; norm_num; linarith [e10.1])
      (by unfold tenthF32; norm_num; linarith [e10.2])]
  rfl

/-- A map of that resolution exists and locates a pose. -/
example : ∃ (g : GridMap (RDbl M)) (pose : V3 (RDbl M)) (i j : UInt32),
    g.resolution = .fin tenthF32 ∧ g.world2Grid pose.c0 pose.c1 = .ok (i, j) := by
  have hr0 : 0 < tenthF32 := by unfold tenthF32; norm_num
  have hr : minNormal ≤ tenthF32 := by
    unfold minNormal tenthF32
    have := tiny_le 60 (by norm_num)
    calc _ ≤ 2 ^ 53 * (1 / 2 ^ 60 : ℝ) := mul_le_mul_of_nonneg_left this (by positivity)
      _ ≤ _ := by norm_num
  obtain ⟨i, j, h, _⟩ := C80_located (squareAt M 0 tenthF32) 0 0 tenthF32 (squareAt_placed hr0) hr
    (show (3 : UInt32) ≠ 0 by decide) (show (3 : UInt32) ≠ 0 by decide) 0 0 le_rfl
    (by positivity) le_rfl (by positivity)
  exact ⟨squareAt M 0 tenthF32, ⟨.fin 0, .fin 0, .fin 0⟩, i, j, rfl, h⟩

end Ergodic
