import Verif.Model.Config
import Verif.Spec.Shipped
import Verif.Props.RoundedRunning
import Verif.Props.NotFinite
import Verif.Props.RoundedBayes
import Verif.Props.SinglePrecision
import Verif.Props.Launch
import Verif.Props.ClosedLoop
import Verif.Props.Startup

/-!
# C105: the shipped configurations

The two configuration files of the repository, in rounded arithmetic.
-/

namespace Ergodic
variable {M : Machine}

section numbers

theorem rnd_at {x B : ℝ} (hB : 1 ≤ B) (h : |x| ≤ B) : x - B / 2 ^ 52 ≤ M.rnd x ∧ M.rnd x ≤ x + B / 2 ^ 52 :=
  M.err' (minNormal_le_one.trans hB) h

theorem tenth_at : (1 : ℝ) / 10 - 1 / 2 ^ 52 ≤ M.rnd (1 / 10) ∧ M.rnd (1 / 10) ≤ 1 / 10 + 1 / 2 ^ 52 :=
  rnd_at le_rfl (by norm_num [abs_of_pos])

/-- The loop variable of the target grid after `k` additions of a tenth. -/
theorem accum_tenth {d : ℝ} (h0 : 1 / 10 - 1 / 2 ^ 52 ≤ d) (h1 : d ≤ 1 / 10 + 1 / 2 ^ 52) :
    ∀ (k n : ℕ) (s : ℝ), k < n → 0 ≤ s → s + k * (1 / 10 + 1 / 2 ^ 38) ≤ 4000 →
      ∃ y : ℝ, (.fin y : RDbl M) ∈ ErgodicControl.accumList (.fin s : RDbl M) (.fin d) n ∧
        |y - (s + k / 10)| ≤ k / 2 ^ 38 := by
  intro k
  induction k with
  | zero =>
    intro n s hn _ _
    obtain ⟨n, rfl⟩ := Nat.exists_eq_succ_of_ne_zero hn.ne'
    exact ⟨s, by simp [ErgodicControl.accumList], by simp⟩
  | succ k ih =>
    intro n s hn hs hk
    obtain ⟨n, rfl⟩ := Nat.exists_eq_succ_of_ne_zero (show n ≠ 0 by omega)
    have hk0 : (0 : ℝ) ≤ k := k.cast_nonneg
    push_cast at hk
    have hs1 : s ≤ 4000 := by nlinarith
    have ⟨e0, e1⟩ := rnd_at (M := M) (x := s + d) (B := 4096) (by norm_num)
      (abs_le.mpr ⟨by norm_num at h0 ⊢; linarith, by norm_num at h1 ⊢; linarith⟩)
    obtain ⟨y, hy, hd⟩ := ih n (M.rnd (s + d)) (by omega) (M.rnd_nonneg (by norm_num at h0; linarith)) (by
      norm_num at e1 h1 hk ⊢; linarith)
    refine ⟨y, ?_, ?_⟩
    · simp only [ErgodicControl.accumList, List.mem_cons, RDbl.add_fin]
      exact Or.inr hy
    · have ⟨d0, d1⟩ := abs_le.mp hd
      push_cast
      rw [abs_le]
      norm_num at e0 e1 h0 h1 d0 d1 ⊢
      constructor <;> linarith

/-- The number of target cells along a side. -/
theorem axisLength_tenth {a d : ℝ} (h0 : 1 / 10 - 1 / 2 ^ 52 ≤ d) (h1 : d ≤ 1 / 10 + 1 / 2 ^ 52)
    (ha : 1 / 1000 ≤ a) (hb : a ≤ 1001) :
    ∃ n : UInt32, axisLength (lit 0 0) (.fin a : RDbl M) (.fin d) = .ok n ∧ (n.toNat : ℝ) ≤ 10 * a + 1 ∧
      10 * a - 1 ≤ n.toNat := by
  have d0 : 0 < d := by norm_num at h0; linarith
  have e0 : (lit 0 0 : RDbl M) = .fin 0 := by simp
  unfold axisLength
  rw [e0, RDbl.sub_fin, sub_zero, RDbl.div_fin _ d0.ne', RDbl.round_fin]
  have ⟨r0, r1⟩ := rnd_at (M := M) (x := a) (B := 1024) (by norm_num)
    (abs_le.mpr ⟨by linarith, by linarith⟩)
  have rp : 0 ≤ M.rnd a := M.rnd_nonneg (by linarith)
  have q0 : 10 * a - 1 / 8 ≤ M.rnd a / d := by
    rw [le_div_iff₀ d0]
    norm_num at r0 h1 ⊢
    nlinarith
  have q1 : M.rnd a / d ≤ 10 * a + 1 / 8 := by
    rw [div_le_iff₀ d0]
    norm_num at r1 h0 ⊢
    nlinarith
  have ⟨s0, s1⟩ := rnd_at (M := M) (x := M.rnd a / d) (B := 2 ^ 14) (by norm_num)
    (abs_le.mpr ⟨by linarith, by norm_num; linarith⟩)
  have sp : 0 ≤ M.rnd (M.rnd a / d) := M.rnd_nonneg (div_nonneg rp d0.le)
  generalize M.rnd (M.rnd a / d) = q at s0 s1 sp
  have hr' : realRound q = ((⌊q + 1 / 2⌋₊ : Nat) : ℝ) := by
    unfold realRound
    rw [if_pos sp]
    rw [natCast_floor_eq_intCast_floor (by positivity)]
  have f0 := Nat.floor_le (show 0 ≤ q + 1 / 2 by linarith)
  have f1 := Nat.lt_floor_add_one (q + 1 / 2)
  have fn : ⌊q + 1 / 2⌋₊ < 2 ^ 32 := by
    rw [Nat.floor_lt (by linarith)]
    norm_num at s1 ⊢; linarith
  rw [hr', castU32_rd (n := ⌊q + 1 / 2⌋₊) fn le_rfl (by linarith)]
  refine ⟨_, rfl, ?_, ?_⟩ <;> rw [UInt32.toNat_ofNat_of_lt' (by unfold UInt32.size; omega)] <;>
    norm_num at s0 s1 ⊢ <;> linarith

/-- Some target grid line is near every coordinate near the map. -/
theorem grid_line {d a t : ℝ} (h0 : 1 / 10 - 1 / 2 ^ 52 ≤ d) (h1 : d ≤ 1 / 10 + 1 / 2 ^ 52)
    (hb : a ≤ 1001) {n : ℕ} (n0 : (n : ℝ) ≤ 10 * a + 1) (n1 : 10 * a - 1 ≤ n)
    (t0 : -25 ≤ t) (t1 : t ≤ a + 251 / 10) :
    ∃ y : ℝ, (.fin y : RDbl M) ∈ ErgodicControl.accumList (.fin 0 : RDbl M) (.fin d) (n + 1) ∧
      |y - t| ≤ 253 / 10 := by
  obtain ⟨k, hk, hd⟩ : ∃ k : ℕ, k ≤ n ∧ |(k : ℝ) / 10 - t| ≤ 252 / 10 := by
    rcases le_or_gt t 0 with h | h
    · exact ⟨0, by omega, by rw [abs_le]; constructor <;> norm_num <;> linarith⟩
    · rcases le_or_gt ⌊10 * t⌋₊ n with hn | hn
      · have f0 := Nat.floor_le (show 0 ≤ 10 * t by linarith)
        have f1 := Nat.lt_floor_add_one (10 * t)
        exact ⟨_, hn, by rw [abs_le]; constructor <;> linarith⟩
      · have f0 := Nat.floor_le (show 0 ≤ 10 * t by linarith)
        have hn : ((n + 1 : ℕ) : ℝ) ≤ ⌊10 * t⌋₊ := by exact_mod_cast hn
        push_cast at hn
        exact ⟨n, le_rfl, by rw [abs_le]; constructor <;> linarith⟩
  have hkn : (k : ℝ) ≤ n := by exact_mod_cast hk
  have k0 : (0 : ℝ) ≤ k := k.cast_nonneg
  obtain ⟨y, hy, hz⟩ := accum_tenth (M := M) h0 h1 k (n + 1) 0 (by omega) le_rfl (by norm_num; linarith)
  refine ⟨y, hy, ?_⟩
  have ⟨d0, d1⟩ := abs_le.mp hd
  have ⟨z0, z1⟩ := abs_le.mp hz
  rw [abs_le]
  norm_num at z0 z1 ⊢
  constructor <;> linarith

end numbers

/-! ## the target -/

/-- The variance of the shipped targets. -/
noncomputable def shippedVar (M : Machine) : ℝ := M.rnd (M.rnd (3 / 2) * M.rnd (3 / 2))

/-- A target of the shipped standard deviations. -/
noncomputable def shippedGauss (M : Machine) (x : ℝ) : Gaussian (RDbl M) :=
  ⟨⟨.fin (M.rnd x), .fin (M.rnd (5 / 2))⟩, ⟨⟨.fin (shippedVar M), .fin 0⟩, ⟨.fin 0, .fin (shippedVar M)⟩⟩,
    ⟨⟨.fin (M.rnd (1 / shippedVar M)), .fin 0⟩, ⟨.fin 0, .fin (M.rnd (1 / shippedVar M))⟩⟩⟩

/-- The shipped targets. -/
noncomputable def shippedTarget (M : Machine) : Target (RDbl M) :=
  ⟨[shippedGauss M (5 / 2), shippedGauss M (17 / 2)]⟩

theorem shippedVar_at : 224 / 100 ≤ shippedVar M ∧ shippedVar M ≤ 226 / 100 := by
  have ⟨a, b⟩ := rnd_at (M := M) (x := 3 / 2) (B := 2) (by norm_num) (by norm_num [abs_of_pos])
  norm_num at a b
  have ⟨c, d⟩ := rnd_at (M := M) (x := M.rnd (3 / 2) * M.rnd (3 / 2)) (B := 4) (by norm_num)
    (abs_le.mpr ⟨by nlinarith, by nlinarith⟩)
  unfold shippedVar
  norm_num at c d
  constructor <;> nlinarith

/-- The value of a shipped target. -/
theorem shipped_form (M : Machine) (m ax ay x y : ℝ) : (shippedGauss M m).evalTrans ⟨.fin x, .fin y⟩ ⟨.fin ax, .fin ay⟩ =
      .fin (M.exp (M.rnd (M.rnd (-5 / 10) *
        M.rnd (M.rnd (M.rnd (M.rnd (x - M.rnd (M.rnd m - ax)) * M.rnd (1 / shippedVar M)) *
            M.rnd (x - M.rnd (M.rnd m - ax))) +
          M.rnd (M.rnd (M.rnd (y - M.rnd (M.rnd (5 / 2) - ay)) * M.rnd (1 / shippedVar M)) *
            M.rnd (y - M.rnd (M.rnd (5 / 2) - ay))))))) := by
  simp only [Gaussian.evalTrans, Gaussian.expForm, V2.sub, V2.dot, shippedGauss, RDbl.sub_fin, RDbl.mul_fin,
      RDbl.add_fin, RDbl.lit_fin, RDbl.exp_fin, mul_zero, M.rnd_zero, add_zero, zero_add, M.idem]
  norm_num

/-- The value of a shipped Gaussian at a point at most 25.3 m away on each axis. -/
theorem shipped_value (hE : Accurate M) {m ax ay x y : ℝ} (hm : |m| ≤ 9) (hax : |ax| ≤ 10 ^ 6)
    (hay : |ay| ≤ 10 ^ 6) (hx : |x - (m - ax)| ≤ 253 / 10) (hy : |y - (5 / 2 - ay)| ≤ 253 / 10) :
    ∃ v : ℝ, (shippedGauss M m).evalTrans ⟨.fin x, .fin y⟩ ⟨.fin ax, .fin ay⟩ = .fin v ∧ 1 / 2 ^ 1000 ≤ v := by
  have ⟨w0, w1⟩ := shippedVar_at (M := M)
  have hc0 : M.rnd (1 / shippedVar M) ≤ 447 / 1000 := by
    have hq : 1 / shippedVar M ≤ 4465 / 10000 := by
      rw [div_le_iff₀ (by linarith)]; linarith
    have h0 : 0 < 1 / shippedVar M := one_div_pos.mpr (by linarith)
    have := (rnd_at (M := M) (x := 1 / shippedVar M) le_rfl (abs_le.mpr ⟨by linarith, by linarith⟩)).2
    norm_num at this hq ⊢
    linarith
  have hc1 : 0 ≤ M.rnd (1 / shippedVar M) := M.rnd_nonneg (one_div_nonneg.mpr (by linarith))
  -- one axis
  have key : ∀ p q z : ℝ, |p| ≤ 9 → |q| ≤ 10 ^ 6 → |z - (p - q)| ≤ 253 / 10 →
      |M.rnd (z - M.rnd (M.rnd p - q))| ≤ 254 / 10 := by
    intro p q z hp hq hz
    have ⟨p0, p1⟩ := abs_le.mp hp
    have ⟨q0, q1⟩ := abs_le.mp hq
    have ⟨z0, z1⟩ := abs_le.mp hz
    have ⟨a, b⟩ := rnd_at (M := M) (x := p) (B := 16) (by norm_num) (hp.trans (by norm_num))
    norm_num at a b
    have ⟨c, d⟩ := rnd_at (M := M) (x := M.rnd p - q) (B := 2 ^ 21) (by norm_num)
      (abs_le.mpr ⟨by norm_num; linarith, by norm_num; linarith⟩)
    norm_num at c d
    have ⟨e, f⟩ := rnd_at (M := M) (x := z - M.rnd (M.rnd p - q)) (B := 32) (by norm_num)
      (abs_le.mpr ⟨by linarith, by linarith⟩)
    norm_num at e f
    rw [abs_le]
    constructor <;> linarith
  have hdx := key m ax x hm hax hx
  have hdy := key (5 / 2) ay y (by norm_num [abs_of_pos]) hay hy
  -- one product
  have prod : ∀ c z : ℝ, 0 ≤ c → c ≤ 447 / 1000 → |z| ≤ 254 / 10 →
      |M.rnd (M.rnd (z * c) * z)| ≤ 289 := by
    intro c z c0 c1 hz
    have h1 : |z * c| ≤ 114 / 10 := by
      rw [abs_mul, abs_of_nonneg c0]
      have := abs_nonneg z
      nlinarith
    have ⟨a, b⟩ := rnd_at (M := M) (x := z * c) (B := 16) (by norm_num) (h1.trans (by norm_num))
    have ⟨h2, h3⟩ := abs_le.mp h1
    have h4 : |M.rnd (z * c)| ≤ 1136 / 100 := by
      have h1 : |z * c| ≤ 11354 / 1000 := by
        rw [abs_mul, abs_of_nonneg c0]
        have := abs_nonneg z
        nlinarith
      have ⟨h2, h3⟩ := abs_le.mp h1
      rw [abs_le]
      norm_num at a b
      constructor <;> linarith
    have h5 : |M.rnd (z * c) * z| ≤ 28855 / 100 := by
      rw [abs_mul]
      have := abs_nonneg z
      have := abs_nonneg (M.rnd (z * c))
      nlinarith
    have ⟨h6, h7⟩ := abs_le.mp h5
    have ⟨e, f⟩ := rnd_at (M := M) (x := M.rnd (z * c) * z) (B := 512) (by norm_num) (h5.trans (by norm_num))
    norm_num at e f
    rw [abs_le]
    constructor <;> linarith
  have hv := shipped_form M m ax ay x y
  refine ⟨_, hv, ?_⟩
  have ha := abs_le.mp (prod _ _ hc1 hc0 hdx)
  have hb := abs_le.mp (prod _ _ hc1 hc0 hdy)
  set u := M.rnd (M.rnd (M.rnd (x - M.rnd (M.rnd m - ax)) * M.rnd (1 / shippedVar M)) *
            M.rnd (x - M.rnd (M.rnd m - ax)))
  set w := M.rnd (M.rnd (M.rnd (y - M.rnd (M.rnd (5 / 2) - ay)) * M.rnd (1 / shippedVar M)) *
            M.rnd (y - M.rnd (M.rnd (5 / 2) - ay)))
  have ⟨s0, s1⟩ := rnd_at (M := M) (x := u + w) (B := 1024) (by norm_num)
    (abs_le.mpr ⟨by linarith, by linarith⟩)
  have hs : |M.rnd (u + w)| ≤ 579 := by
    norm_num at s0 s1
    rw [abs_le]
    constructor <;> linarith
  have hh : |M.rnd (-5 / 10)| ≤ 51 / 100 := by
    have ⟨a, b⟩ := rnd_at (M := M) (x := -5 / 10) le_rfl (by rw [abs_le]; norm_num)
    norm_num at a b ⊢
    rw [abs_le]
    constructor <;> linarith
  have hp : |M.rnd (-5 / 10) * M.rnd (u + w)| ≤ 296 := by
    rw [abs_mul]
    have := abs_nonneg (M.rnd (u + w))
    have := abs_nonneg (M.rnd (-5 / 10))
    nlinarith
  have ⟨p0, p1⟩ := abs_le.mp hp
  have ⟨r0, r1⟩ := rnd_at (M := M) (x := M.rnd (-5 / 10) * M.rnd (u + w)) (B := 512) (by norm_num)
    (hp.trans (by norm_num))
  set E := M.rnd (M.rnd (-5 / 10) * M.rnd (u + w))
  have hE0 : -300 ≤ E := by norm_num at r0; linarith
  have hE1 : E ≤ 300 := by norm_num at r1; linarith
  have he := (abs_le.mp (hE.exp E (abs_le.mpr ⟨by linarith, by linarith⟩))).1
  have hp0 := Real.exp_pos E
  have h2 : Real.exp E / 2 ≤ M.exp E := by norm_num at he ⊢; linarith
  refine le_trans ?_ h2
  have h3 : Real.exp (-300) ≤ Real.exp E := Real.exp_le_exp.mpr hE0
  have h4 : Real.exp 300 ≤ 2 ^ 600 := by
    have : Real.exp 300 = Real.exp 1 ^ 300 := by rw [← Real.exp_nat_mul]; norm_num
    rw [this, show (2 : ℝ) ^ 600 = (2 ^ 2) ^ 300 by rw [← pow_mul]]
    exact pow_le_pow_left₀ (Real.exp_pos _).le (by have := Real.exp_one_lt_d9; linarith) _
  have h5 : 1 / 2 ^ 600 ≤ Real.exp (-300) := by
    rw [Real.exp_neg, ← one_div]
    exact one_div_le_one_div_of_le (Real.exp_pos _) h4
  have h6 : (1 : ℝ) / 2 ^ 1000 ≤ 1 / 2 ^ 600 / 2 := by
    rw [div_div, ← pow_succ]
    exact one_div_le_one_div_of_le (by positivity) (pow_le_pow_right₀ (by norm_num) (by norm_num))
  exact h6.trans (div_le_div_of_nonneg_right (h5.trans h3) (by norm_num))

/-- The target grid of a map near a shipped target sees the target. -/
theorem shipped_seen (hE : Accurate M) {g : GridMap (RDbl M)} {ax ay a b m : ℝ} (hx0 : g.xmin = .fin ax)
    (hy0 : g.ymin = .fin ay) (hx : g.xmax -. g.xmin = .fin a) (hy : g.ymax -. g.ymin = .fin b)
    (ha0 : 1 / 1000 ≤ a) (ha1 : a ≤ 1001) (hb0 : 1 / 1000 ≤ b) (hb1 : b ≤ 1001) (hax : |ax| ≤ 10 ^ 6)
    (hay : |ay| ≤ 10 ^ 6) (hm : m = 5 / 2 ∨ m = 17 / 2) (m0 : ax - 25 ≤ m) (m1 : m ≤ ax + a + 251 / 10)
    (k0 : ay - 25 ≤ 5 / 2) (k1 : 5 / 2 ≤ ay + b + 251 / 10) :
    TargetSeen (shippedTarget M) (.fin (M.rnd (1 / 10))) g := by
  intro pts hp
  have ⟨t0, t1⟩ := tenth_at (M := M)
  obtain ⟨nx, ex, x0, x1⟩ := axisLength_tenth (M := M) t0 t1 ha0 ha1
  obtain ⟨ny, ey, y0, y1⟩ := axisLength_tenth (M := M) t0 t1 hb0 hb1
  obtain ⟨x, hxm, hxd⟩ := grid_line (M := M) (t := m - ax) t0 t1 ha1 x0 x1 (by linarith) (by linarith)
  obtain ⟨y, hym, hyd⟩ := grid_line (M := M) (t := 5 / 2 - ay) t0 t1 hb1 y0 y1 (by linarith) (by linarith)
  obtain ⟨v, hv, hv0⟩ := shipped_value hE (m := m) (by rcases hm with rfl | rfl <;> norm_num [abs_of_pos]) hax hay hxd hyd
  have bx : nx.toNat ≤ 16384 := by
    have : (nx.toNat : ℝ) ≤ 16384 := by linarith
    exact_mod_cast this
  have bY : ny.toNat ≤ 16384 := by
    have : (ny.toNat : ℝ) ≤ 16384 := by linarith
    exact_mod_cast this
  have c1 : (nx + 1).toNat = nx.toNat + 1 := by
    rw [UInt32.toNat_add, show UInt32.toNat 1 = 1 from rfl, Nat.mod_eq_of_lt (by omega)]
  have c2 : (ny + 1).toNat = ny.toNat + 1 := by
    rw [UInt32.toNat_add, show UInt32.toNat 1 = 1 from rfl, Nat.mod_eq_of_lt (by omega)]
  have e0 : (lit 0 0 : RDbl M) = .fin 0 := by simp
  unfold ErgodicControl.phiGrid at hp
  rw [hx, hy, ex, Res.ok_bind, ey, Res.ok_bind] at hp
  dsimp only at hp
  split at hp
  · nomatch hp
  · obtain rfl := Res.ok.inj hp
    refine ⟨⟨.fin x, .fin y⟩, ?_, shippedGauss M m, ?_, v, ?_, hv0⟩
    · simp only [List.mem_flatMap, List.mem_map]
      rw [c1, c2, e0]
      exact ⟨.fin y, hym, .fin x, hxm, rfl⟩
    · rcases hm with rfl | rfl <;> simp [shippedTarget]
    · rw [hx0, hy0]; exact hv

/-! ## maps -/

/-- The extent of a map as the controller computes it. -/
theorem extent_at {ax r : ℝ} {n : ℕ} (hr : 1 / 64 ≤ r) (hn : 0 < n) (h : n * r ≤ 1000) (ha : |ax| ≤ 10 ^ 6) :
    ∃ a : ℝ, (.fin r *. Flt.ofInt (n : Int) +. .fin ax) -. (.fin ax : RDbl M) = .fin a ∧
      n * r - 1 / 1000 ≤ a ∧ a ≤ n * r + 1 / 1000 := by
  have hn1 : (1 : ℝ) ≤ n := by exact_mod_cast hn
  have hn2 : (n : ℝ) ≤ 64000 := by nlinarith
  have hn3 : n ≤ 64000 := by exact_mod_cast hn2
  have ⟨a0, a1⟩ := abs_le.mp ha
  refine ⟨_, by
    rw [RDbl.ofInt_fin, Int.cast_natCast, M.rnd_nat (by omega), RDbl.mul_fin, RDbl.add_fin, RDbl.sub_fin], ?_⟩
  have hp : 0 ≤ r * n := by nlinarith
  have ⟨b0, b1⟩ := rnd_at (M := M) (x := r * n) (B := 1024) (by norm_num)
    (abs_le.mpr ⟨by linarith, by linarith⟩)
  norm_num at b0 b1
  have ⟨c0, c1⟩ := rnd_at (M := M) (x := M.rnd (r * n) + ax) (B := 2 ^ 21) (by norm_num)
    (abs_le.mpr ⟨by norm_num; linarith, by norm_num; linarith⟩)
  norm_num at c0 c1
  have ⟨d0, d1⟩ := rnd_at (M := M) (x := M.rnd (M.rnd (r * n) + ax) - ax) (B := 2 ^ 21) (by norm_num)
    (abs_le.mpr ⟨by norm_num; linarith, by norm_num; linarith⟩)
  norm_num at d0 d1
  constructor <;> linarith

theorem shipped_map (hE : Accurate M) {m : OccupancyGrid (RDbl M)} (h : MapNearTarget m) :
    MapOk ⟨.fin (M.rnd (7 / 10)), .fin 1, .fin (M.rnd (1 / 5)), .fin (M.rnd (4 / 5))⟩ (.fin (M.rnd (1 / 10)))
      (shippedTarget M) (mapOf m) := by
  obtain ⟨ax, ay, r, t, ⟨h1, h2, h3, hr, hw, hh, hwr, hhr, hax, hay, hd⟩, ht, t0, t1, k0, k1⟩ := h
  obtain ⟨a, ea, a0, a1⟩ := extent_at (M := M) hr hw hwr hax
  obtain ⟨b, eb, b0, b1⟩ := extent_at (M := M) hr hh hhr hay
  have wn : (1 : ℝ) ≤ m.width.toNat := by exact_mod_cast hw
  have hn : (1 : ℝ) ≤ m.height.toNat := by exact_mod_cast hh
  have w2 : (m.width.toNat : ℝ) ≤ 64000 := by nlinarith
  have h2' : (m.height.toNat : ℝ) ≤ 64000 := by nlinarith
  have w3 : m.width.toNat ≤ 64000 := by exact_mod_cast w2
  have h3' : m.height.toNat ≤ 64000 := by exact_mod_cast h2'
  have ⟨t2, t3⟩ := tenth_at (M := M)
  have ex : (mapOf m).xmax -. (mapOf m).xmin = .fin a := by
    show (m.resolution *. Flt.ofInt m.width.toNat +. m.originX) -. m.originX = _
    rw [h1, h3]; exact ea
  have ey : (mapOf m).ymax -. (mapOf m).ymin = .fin b := by
    show (m.resolution *. Flt.ofInt m.height.toNat +. m.originY) -. m.originY = _
    rw [h2, h3]; exact eb
  have al : 1 / 1000 ≤ a := by nlinarith
  have bl : 1 / 1000 ≤ b := by nlinarith
  have ⟨p0, p1⟩ := rnd_at (M := M) (x := 7 / 10) le_rfl (by norm_num [abs_of_pos])
  have ⟨q0, q1⟩ := rnd_at (M := M) (x := 1 / 5) le_rfl (by norm_num [abs_of_pos])
  norm_num at p0 p1 q0 q1 t2 t3
  refine ⟨⟨ax, ay, r, M.rnd (7 / 10), 1, M.rnd (1 / 5), ?_⟩, ⟨⟨ax, h1⟩, ⟨ay, h2⟩, ⟨a, ex, al⟩, b, ey, bl⟩,
    ⟨a, b, M.rnd (1 / 10), ex, ey, rfl, by norm_num; linarith, by norm_num; linarith, by norm_num; linarith⟩, ?_⟩
  · refine ⟨⟨?_, hd⟩, ⟨h1, h2, h3, by linarith⟩, minNormal_le_small.trans (by linarith), ?_, ?_, ?_, ?_, rfl, rfl,
      rfl, by norm_num; linarith, by norm_num; linarith, by norm_num; linarith, by linarith, by norm_num; linarith⟩
    · show m.width.toNat * m.height.toNat < 2 ^ 32
      calc _ ≤ 64000 * 64000 := Nat.mul_le_mul w3 h3'
        _ < _ := by norm_num
    · intro h0
      have h0 : m.width = 0 := h0
      rw [h0] at hw; exact absurd hw (by decide)
    · intro h0
      have h0 : m.height = 0 := h0
      rw [h0] at hh; exact absurd hh (by decide)
    · show m.width.toNat ≤ _; omega
    · show m.height.toNat ≤ _; omega
  · exact shipped_seen hE h1 h2 ex ey al (by linarith) bl (by linarith) hax hay ht t0 (by linarith) k0 (by linarith)

/-! ## parameters -/

/-- The numbers in the configuration files: velocity limits `lim` and acceleration limit `acc` of the
lateral direction, and the control weights. -/
noncomputable def shippedReal (M : Machine) (lim acc : ℝ) (vy : UInt32) (weights : List ℝ) : Params ℝ :=
  { map_frame_id := "map", val_dt := M.rnd (1 / 10), val_horizon := M.rnd (1 / 2)
    max_vel_x := 1, max_vel_y := lim, max_rot_vel := 2
    min_vel_x := -1, min_vel_y := -lim, min_rot_vel := -2
    acc_lim_x := M.rnd (5 / 2), acc_lim_y := acc, acc_lim_th := 1
    boundary_radius := M.rnd (7 / 10), search_radius := 1, obstacle_threshold := M.rnd (1 / 5)
    occupied_threshold := M.rnd (4 / 5)
    ec_dt := M.rnd (1 / 10), ec_horizon := 5, target_resolution := M.rnd (1 / 10), expl_weight := 1
    num_basis := 10, buffer_size := 1000000, batch_size := 100, control_weights := weights
    dwa_dt := M.rnd (1 / 10), dwa_horizon := 2, acc_dt := M.rnd (1 / 5), vx_samples := 3, vy_samples := vy
    vth_samples := 5
    targets := [(⟨M.rnd (5 / 2), M.rnd (5 / 2)⟩, ⟨M.rnd (3 / 2), M.rnd (3 / 2)⟩),
      (⟨M.rnd (17 / 2), M.rnd (5 / 2)⟩, ⟨M.rnd (3 / 2), M.rnd (3 / 2)⟩)] }

/-- They as read by the executables. -/
noncomputable def shippedParams (M : Machine) (lim acc : ℝ) (vy : UInt32) (weights : List ℝ) : Params (RDbl M) :=
  { map_frame_id := "map", val_dt := .fin (M.rnd (1 / 10)), val_horizon := .fin (M.rnd (1 / 2))
    max_vel_x := .fin 1, max_vel_y := .fin lim, max_rot_vel := .fin 2
    min_vel_x := .fin (-1), min_vel_y := .fin (-lim), min_rot_vel := .fin (-2)
    acc_lim_x := .fin (M.rnd (5 / 2)), acc_lim_y := .fin acc, acc_lim_th := .fin 1
    boundary_radius := .fin (M.rnd (7 / 10)), search_radius := .fin 1
    obstacle_threshold := .fin (M.rnd (1 / 5)), occupied_threshold := .fin (M.rnd (4 / 5))
    ec_dt := .fin (M.rnd (1 / 10)), ec_horizon := .fin 5, target_resolution := .fin (M.rnd (1 / 10))
    expl_weight := .fin 1
    num_basis := 10, buffer_size := 1000000, batch_size := 100, control_weights := weights.map .fin
    dwa_dt := .fin (M.rnd (1 / 10)), dwa_horizon := .fin 2, acc_dt := .fin (M.rnd (1 / 5)), vx_samples := 3
    vy_samples := vy, vth_samples := 5
    targets := [(⟨.fin (M.rnd (5 / 2)), .fin (M.rnd (5 / 2))⟩, ⟨.fin (M.rnd (3 / 2)), .fin (M.rnd (3 / 2))⟩),
      (⟨.fin (M.rnd (17 / 2)), .fin (M.rnd (5 / 2))⟩, ⟨.fin (M.rnd (3 / 2)), .fin (M.rnd (3 / 2))⟩)] }

theorem shipped_reads (lim acc : ℝ) (vy : UInt32) (weights : List ℝ) :
    ReadsAs (shippedParams M lim acc vy weights) (shippedReal M lim acc vy weights) := by
  constructor <;> rfl

theorem lit_eq {m : Int} {e : Nat} {x : ℝ} (h : (m : ℝ) / 10 ^ e = x) : (lit m e : RDbl M) = .fin (M.rnd x) := by
  rw [RDbl.lit_fin, h]

theorem lit_int {m : Int} {e : Nat} (n : Int) (h : (m : ℝ) / 10 ^ e = n) (hn : |n| ≤ 2 ^ 53) :
    (lit m e : RDbl M) = .fin n := by
  rw [RDbl.lit_fin, h, M.int n hn]

theorem omniYaml_params : (omniYaml : Launch (RDbl M)).params =
    .ok (shippedParams M 1 (M.rnd (5 / 2)) 8 [1, 1, M.rnd (1 / 2)]) := by
  have hb : castU32 (lit 1000000 0 : RDbl M) = .ok 1000000 := by
    rw [lit_int 1000000 (by norm_num) (by norm_num)]
    exact castU32_rd (n := 1000000) (by norm_num) (by norm_num) (by norm_num)
  unfold Launch.params
  have l1 : (lit 1 1 : RDbl M) = .fin (M.rnd (1 / 10)) := lit_eq (by norm_num)
  have l5 : (lit 5 1 : RDbl M) = .fin (M.rnd (1 / 2)) := lit_eq (by norm_num)
  have l10 : (lit 10 1 : RDbl M) = .fin 1 := by rw [lit_int 1 (by norm_num) (by norm_num)]; norm_num
  have l20 : (lit 20 1 : RDbl M) = .fin 2 := by rw [lit_int 2 (by norm_num) (by norm_num)]; norm_num
  have l50 : (lit 50 1 : RDbl M) = .fin 5 := by rw [lit_int 5 (by norm_num) (by norm_num)]; norm_num
  have m10 : (lit (-10) 1 : RDbl M) = .fin (-1) := by rw [lit_int (-1) (by norm_num) (by norm_num)]; norm_num
  have m20 : (lit (-20) 1 : RDbl M) = .fin (-2) := by rw [lit_int (-2) (by norm_num) (by norm_num)]; norm_num
  have l25 : (lit 25 1 : RDbl M) = .fin (M.rnd (5 / 2)) := lit_eq (by norm_num)
  have l85 : (lit 85 1 : RDbl M) = .fin (M.rnd (17 / 2)) := lit_eq (by norm_num)
  have l15 : (lit 15 1 : RDbl M) = .fin (M.rnd (3 / 2)) := lit_eq (by norm_num)
  have l7 : (lit 7 1 : RDbl M) = .fin (M.rnd (7 / 10)) := lit_eq (by norm_num)
  have l2 : (lit 2 1 : RDbl M) = .fin (M.rnd (1 / 5)) := lit_eq (by norm_num)
  have l8 : (lit 8 1 : RDbl M) = .fin (M.rnd (4 / 5)) := lit_eq (by norm_num)
  have ht : readTargets (yamlMeans : Xml (RDbl M)) yamlSigmas =
      .ok (shippedParams M 1 (M.rnd (5 / 2)) 8 [1, 1, M.rnd (1 / 2)]).targets := by
    unfold yamlMeans yamlSigmas
    rw [l25, l85, l15]
    rfl
  unfold omniYaml
  dsimp only
  rw [hb, Res.ok_bind, ht, Res.ok_bind, l1, l5, l10, l20, l50, m10, m20, l25, l7, l2, l8]
  rfl

theorem cartYaml_params : (cartYaml : Launch (RDbl M)).params =
    .ok (shippedParams M 0 0 0 [1, M.rnd (1 / 2)]) := by
  have hb : castU32 (lit 1000000 0 : RDbl M) = .ok 1000000 := by
    rw [lit_int 1000000 (by norm_num) (by norm_num)]
    exact castU32_rd (n := 1000000) (by norm_num) (by norm_num) (by norm_num)
  unfold Launch.params
  have l0 : (lit 0 0 : RDbl M) = .fin 0 := by simp
  have l1 : (lit 1 1 : RDbl M) = .fin (M.rnd (1 / 10)) := lit_eq (by norm_num)
  have l5 : (lit 5 1 : RDbl M) = .fin (M.rnd (1 / 2)) := lit_eq (by norm_num)
  have l10 : (lit 10 1 : RDbl M) = .fin 1 := by rw [lit_int 1 (by norm_num) (by norm_num)]; norm_num
  have l20 : (lit 20 1 : RDbl M) = .fin 2 := by rw [lit_int 2 (by norm_num) (by norm_num)]; norm_num
  have l50 : (lit 50 1 : RDbl M) = .fin 5 := by rw [lit_int 5 (by norm_num) (by norm_num)]; norm_num
  have m10 : (lit (-10) 1 : RDbl M) = .fin (-1) := by rw [lit_int (-1) (by norm_num) (by norm_num)]; norm_num
  have m20 : (lit (-20) 1 : RDbl M) = .fin (-2) := by rw [lit_int (-2) (by norm_num) (by norm_num)]; norm_num
  have l25 : (lit 25 1 : RDbl M) = .fin (M.rnd (5 / 2)) := lit_eq (by norm_num)
  have l85 : (lit 85 1 : RDbl M) = .fin (M.rnd (17 / 2)) := lit_eq (by norm_num)
  have l15 : (lit 15 1 : RDbl M) = .fin (M.rnd (3 / 2)) := lit_eq (by norm_num)
  have l7 : (lit 7 1 : RDbl M) = .fin (M.rnd (7 / 10)) := lit_eq (by norm_num)
  have l2 : (lit 2 1 : RDbl M) = .fin (M.rnd (1 / 5)) := lit_eq (by norm_num)
  have l8 : (lit 8 1 : RDbl M) = .fin (M.rnd (4 / 5)) := lit_eq (by norm_num)
  have ht : readTargets (yamlMeans : Xml (RDbl M)) yamlSigmas =
      .ok (shippedParams M 0 0 0 [1, M.rnd (1 / 2)]).targets := by
    unfold yamlMeans yamlSigmas
    rw [l25, l85, l15]
    rfl
  unfold cartYaml
  dsimp only
  rw [hb, Res.ok_bind, ht, Res.ok_bind, l0, l1, l5, l10, l20, l50, m10, m20, l25, l7, l2, l8]
  unfold shippedParams
  rw [neg_zero]
  rfl

/-! ## start-up -/

/-- The shipped detector. -/
noncomputable def shippedDetector (M : Machine) : Collision (RDbl M) :=
  ⟨.fin (M.rnd (7 / 10)), .fin 1, .fin (M.rnd (1 / 5)), .fin (M.rnd (4 / 5))⟩

theorem shipped_collision : Collision.new (.fin (M.rnd (7 / 10)) : RDbl M) (.fin 1) (.fin (M.rnd (1 / 5)))
    (.fin (M.rnd (4 / 5))) = .ok (shippedDetector M) := by
  have ⟨p0, p1⟩ := rnd_at (M := M) (x := 7 / 10) le_rfl (by norm_num [abs_of_pos])
  have ⟨q0, q1⟩ := rnd_at (M := M) (x := 4 / 5) le_rfl (by norm_num [abs_of_pos])
  have h100 : (lit 100 0 : RDbl M) = .fin 100 := by rw [lit_int 100 (by norm_num) (by norm_num)]; norm_num
  have h0 : (lit 0 0 : RDbl M) = .fin 0 := by simp
  norm_num at p0 p1 q0 q1
  unfold Collision.new
  rw [if_neg, if_neg]
  · rfl
  · rw [Bool.or_eq_true, not_or, Bool.not_eq_true, Bool.not_eq_true, h100, h0, RDbl.lt_fin_false,
      RDbl.lt_fin_false]
    constructor <;> linarith
  · rw [Bool.not_eq_true, RDbl.lt_fin_false]; linarith

theorem shipped_gaussians (lim acc : ℝ) (vy : UInt32) (weights : List ℝ) :
    ((shippedParams M lim acc vy weights).targets.mapM fun t => Gaussian.new t.1 t.2) =
      .ok (shippedTarget M).gaussians := by
  have ⟨w0, w1⟩ := shippedVar_at (M := M)
  have h0 : (lit 0 0 : RDbl M) = .fin 0 := by simp
  have h1 : (lit 1 0 : RDbl M) = .fin 1 := by rw [lit_int 1 (by norm_num) (by norm_num)]; norm_num
  have hG : ∀ x : ℝ, Gaussian.new (⟨.fin (M.rnd x), .fin (M.rnd (5 / 2))⟩ : V2 (RDbl M))
      ⟨.fin (M.rnd (3 / 2)), .fin (M.rnd (3 / 2))⟩ = .ok (shippedGauss M x) := by
    intro x
    unfold Gaussian.new
    dsimp only
    rw [RDbl.mul_fin, h0, h1, show M.rnd (M.rnd (3 / 2) * M.rnd (3 / 2)) = shippedVar M from rfl,
      RDbl.div_fin _ (by linarith), if_neg]
    · rfl
    · rw [not_or, not_not, RDbl.lt_fin]
      constructor <;> linarith
  simp only [shippedParams, List.mapM_cons, List.mapM_nil, hG, Res.ok_bind]
  rfl

theorem shipped_steps :
    (∃ n : UInt32, numSteps (.fin 5 : RDbl M) (.fin (M.rnd (1 / 10))) = .ok n ∧ 49 ≤ n.toNat) ∧
    (∃ n : UInt32, numSteps (.fin 2 : RDbl M) (.fin (M.rnd (1 / 10))) = .ok n) := by
  have ⟨t0, t1⟩ := tenth_at (M := M)
  norm_num at t0 t1
  obtain ⟨n, h1, h2, -⟩ := numSteps_fin (M := M) (h := 5) (d := M.rnd (1 / 10)) (by norm_num)
    (by norm_num; linarith) (by norm_num; linarith)
  obtain ⟨k, h3, -⟩ := numSteps_fin (M := M) (h := 2) (d := M.rnd (1 / 10)) (by norm_num)
    (by norm_num; linarith) (by norm_num; linarith)
  refine ⟨⟨n, h1, ?_⟩, k, h3⟩
  rw [h2]
  apply Nat.le_floor
  have hq : (49 : ℝ) ≤ 5 / M.rnd (1 / 10) := by
    rw [le_div_iff₀ (by norm_num; linarith)]
    norm_num; linarith
  have := M.int_le_rnd (n := 49) (by norm_num) (x := 5 / M.rnd (1 / 10)) (by exact_mod_cast hq)
  exact_mod_cast this

theorem omni_starts (lim acc : ℝ) (vy : UInt32) (a b c : ℝ) :
    ∃ n o, Node.omni (shippedParams M lim acc vy [a, b, c]) = .ok (n, o) ∧ n.up = true := by
  have ht := shipped_gaussians (M := M) lim acc vy [a, b, c]
  obtain ⟨⟨n, hn, hn2⟩, k, hk⟩ := shipped_steps (M := M)
  obtain ⟨ec, hec⟩ := (C66_throws_iff omniModel (shippedDetector M) (.fin (M.rnd (1 / 10))) (.fin 5)
    (.fin (M.rnd (1 / 10))) (.fin 1) 10 1000000 100
    (diag3 (lit 1 0 /. .fin a) (lit 1 0 /. .fin b) (lit 1 0 /. .fin c) : M3 (RDbl M))
    ⟨.fin (-1), .fin (-lim), .fin (-2)⟩ ⟨.fin 1, .fin lim, .fin 2⟩ n hn).2 (by
      intro h; rw [h] at hn2; exact absurd hn2 (by decide))
  simp only [shippedParams] at ht
  unfold Node.omni
  simp only [shippedParams, vecAt, List.map_cons, List.map_nil, List.getElem?_cons_zero,
    List.getElem?_cons_succ, Res.ok_bind, ht, shipped_collision, hec, DynamicWindow.new, hk]
  refine ⟨_, _, rfl, ?_⟩
  rw [Bool.not_eq_true', RDbl.lt_fin_false]; norm_num

theorem cart_starts (lim acc : ℝ) (vy : UInt32) (a b : ℝ) :
    ∃ n o, Node.cart (shippedParams M lim acc vy [a, b]) = .ok (n, o) ∧ n.up = true := by
  have ht := shipped_gaussians (M := M) lim acc vy [a, b]
  obtain ⟨⟨n, hn, hn2⟩, k, hk⟩ := shipped_steps (M := M)
  obtain ⟨ec, hec⟩ := (C66_throws_iff cartModel (shippedDetector M) (.fin (M.rnd (1 / 10))) (.fin 5)
    (.fin (M.rnd (1 / 10))) (.fin 1) 10 1000000 100
    (diag3 (lit 1 0 /. .fin a) (lit 0 0) (lit 1 0 /. .fin b) : M3 (RDbl M))
    ⟨.fin (-1), lit 0 0, .fin (-2)⟩ ⟨.fin 1, lit 0 0, .fin 2⟩ n hn).2 (by
      intro h; rw [h] at hn2; exact absurd hn2 (by decide))
  simp only [shippedParams] at ht
  unfold Node.cart
  simp only [shippedParams, vecAt, List.map_cons, List.map_nil, List.getElem?_cons_zero,
    List.getElem?_cons_succ, Res.ok_bind, ht, shipped_collision, hec, DynamicWindow.new, hk]
  refine ⟨_, _, rfl, ?_⟩
  rw [Bool.not_eq_true', RDbl.lt_fin_false]; norm_num

/-! ## running -/

/-- Room for twenty steps of a tenth of a second. -/
theorem shipped_room {v w D : ℝ} (hv0 : 1 ≤ v) (hv1 : v ≤ 2) (hw : w ≤ 3) {n : ℕ} (hn : n ≤ 20)
    (hD : 2 * v * (1 + 1 / 2 ^ 20) + 1 / 10 ^ 6 ≤ D) : Lookahead (M.rnd (1 / 10)) v w (10 ^ 6) D n := by
  have ⟨t0, t1⟩ := tenth_at (M := M)
  norm_num at t0 t1
  refine ⟨by norm_num; linarith, by norm_num; linarith, by norm_num; nlinarith, ?_, ?_⟩
  · norm_num
    nlinarith
  · have hn' : (n : ℝ) ≤ 20 := by exact_mod_cast hn
    have n0 : (0 : ℝ) ≤ n := n.cast_nonneg
    have tp : 0 ≤ M.rnd (1 / 10) := by norm_num; linarith
    have htv : v * M.rnd (1 / 10) ≤ v * (1 / 10 + 1 / 2 ^ 52) := by
      apply mul_le_mul_of_nonneg_left _ (by linarith)
      norm_num; linarith
    have htv0 : 0 ≤ v * M.rnd (1 / 10) := by positivity
    have hX : 2 * (10 ^ 6 + (3 * n + 19) * (v * M.rnd (1 / 10))) ≤ 2 * (10 ^ 6 + 79) := by
      have : (3 * (n : ℝ) + 19) * (v * M.rnd (1 / 10)) ≤ 79 * 1 := by
        apply mul_le_mul _ _ htv0 (by norm_num)
        · linarith
        · norm_num at htv ⊢; nlinarith
      linarith
    have hin : v * M.rnd (1 / 10) * (1 + 1 / 2 ^ 21) +
        2 * (10 ^ 6 + (3 * n + 19) * (v * M.rnd (1 / 10))) / 2 ^ 52 ≤
        v * (1 / 10 + 1 / 2 ^ 52) * (1 + 1 / 2 ^ 21) + 2 * (10 ^ 6 + 79) / 2 ^ 52 := by
      apply add_le_add
      · exact mul_le_mul_of_nonneg_right htv (by norm_num)
      · exact div_le_div_of_nonneg_right hX (by norm_num)
    have hin0 : 0 ≤ v * M.rnd (1 / 10) * (1 + 1 / 2 ^ 21) +
        2 * (10 ^ 6 + (3 * n + 19) * (v * M.rnd (1 / 10))) / 2 ^ 52 := by positivity
    calc _ ≤ 20 * (v * (1 / 10 + 1 / 2 ^ 52) * (1 + 1 / 2 ^ 21) + 2 * (10 ^ 6 + 79) / 2 ^ 52) :=
          mul_le_mul hn' hin hin0 (by norm_num)
      _ ≤ _ := by norm_num at hD ⊢; linarith

theorem shipped_sane {v w D lim : ℝ} (acc : ℝ) (vy : UInt32) {weights : List ℝ} (hl : 0 ≤ lim)
    (hws : ∀ a ∈ weights, a ≠ 0) (hv0 : 1 ≤ v) (hv1 : v ≤ 2) (hw : w ≤ 3)
    (hD : 2 * v * (1 + 1 / 2 ^ 20) + 1 / 10 ^ 6 ≤ D) :
    SaneRd M (shippedReal M lim acc vy weights) v w (10 ^ 6) D := by
  have ⟨t0, t1⟩ := tenth_at (M := M)
  have ⟨h0, h1⟩ := rnd_at (M := M) (x := 1 / 2) le_rfl (by norm_num [abs_of_pos])
  norm_num at t0 t1 h0 h1
  have tp : 0 < M.rnd (1 / 10) := by norm_num; linarith
  have fl : ∀ h : ℝ, 0 ≤ h → h ≤ 2 → ⌊M.rnd (h / M.rnd (1 / 10))⌋₊ ≤ 20 := by
    intro h hp hh
    have hq : h / M.rnd (1 / 10) ≤ 205 / 10 := by
      rw [div_le_iff₀ tp]
      norm_num; linarith
    have hq0 : 0 ≤ h / M.rnd (1 / 10) := div_nonneg hp tp.le
    have := (rnd_at (M := M) (x := h / M.rnd (1 / 10)) (B := 32) (by norm_num)
      (abs_le.mpr ⟨by linarith, by linarith⟩)).2
    rw [← Nat.lt_add_one_iff, Nat.floor_lt (M.rnd_nonneg hq0)]
    norm_num at this ⊢
    linarith
  obtain ⟨⟨n, hn, hn2⟩, -⟩ := shipped_steps (M := M)
  obtain ⟨n', hn', hf, -⟩ := numSteps_fin (M := M) (h := 5) (d := M.rnd (1 / 10)) (by norm_num) tp
    (by norm_num; linarith)
  rw [hn] at hn'
  obtain rfl := Res.ok.inj hn'
  have hn49 : (49 : ℝ) ≤ ⌊M.rnd (5 / M.rnd (1 / 10))⌋₊ := by
    rw [← hf]; exact_mod_cast hn2
  constructor <;> simp only [shippedReal]
  case dwa_room => exact shipped_room hv0 hv1 hw (fl 2 (by norm_num) le_rfl) hD
  case val_room => exact shipped_room hv0 hv1 hw (fl _ (by norm_num; linarith) (by norm_num; linarith)) hD
  case ec_dt => exact minNormal_le_small.trans (by norm_num; linarith)
  case weights => exact hws
  case columns =>
    have : (49 : ℝ) * M.rnd (1 / 10) ≤ ⌊M.rnd (5 / M.rnd (1 / 10))⌋₊ * M.rnd (1 / 10) :=
      mul_le_mul_of_nonneg_right hn49 tp.le
    norm_num at this ⊢
    nlinarith
  all_goals linarith

/-- A velocity the shipped limits can be reached from. -/
theorem shipped_axis {v acc lim B : ℝ} {k : Int} (hk : lim = k) (hk0 : 0 ≤ k) (hk1 : k ≤ 2) (hB : B = 4)
    (ha : 0 ≤ acc * M.rnd (1 / 5)) (ha1 : acc * M.rnd (1 / 5) ≤ 1)
    (hv : |v| ≤ lim + acc * M.rnd (1 / 5) - 1 / 2 ^ 48) :
    AxisNumbers.Sane ⟨v, acc, M.rnd (1 / 5), -lim, lim⟩ M B := by
  subst hB
  have hl0 : 0 ≤ lim := by rw [hk]; exact_mod_cast hk0
  have hl2 : lim ≤ 2 := by rw [hk]; exact_mod_cast hk1
  have hkb : |k| ≤ 2 ^ 53 := by rw [abs_of_nonneg hk0]; omega
  have ⟨v0, v1⟩ := abs_le.mp hv
  have ⟨a0, a1⟩ := rnd_at (M := M) (x := acc * M.rnd (1 / 5)) le_rfl (abs_le.mpr ⟨by linarith, ha1⟩)
  have hrl : M.rnd lim = lim := by rw [hk]; exact M.int k hkb
  refine ⟨minNormal_le_one.trans (by norm_num), abs_le.mpr ⟨?_, ?_⟩, ha, by linarith, ?_, ?_, ?_, ?_, ?_, ?_⟩
  · norm_num at v0 ⊢; linarith
  · norm_num at v1 ⊢; linarith
  · show |(-lim)| ≤ 4
    rw [abs_neg, abs_of_nonneg hl0]; linarith
  · show |lim| ≤ 4
    rw [abs_of_nonneg hl0]; linarith
  · show M.rnd (-lim) = -lim
    rw [M.neg, hrl]
  · show -lim ≤ lim; linarith
  · show M.rnd (v - M.rnd (acc * M.rnd (1 / 5))) ≤ lim
    have := M.mono (show v - M.rnd (acc * M.rnd (1 / 5)) ≤ lim by norm_num at v1 a0; linarith)
    rwa [hrl] at this
  · show -lim ≤ M.rnd (v + M.rnd (acc * M.rnd (1 / 5)))
    have := M.mono (show -lim ≤ v + M.rnd (acc * M.rnd (1 / 5)) by norm_num at v0 a0; linarith)
    rwa [M.neg, hrl] at this

theorem shipped_supplied (hE : Accurate M) {D : ℝ} {es : List (Event (RDbl M))} (h : Fed D es) :
    AllSuppliedRd (shippedDetector M) (.fin (M.rnd (1 / 10))) (shippedTarget M) 1000000 100 (10 ^ 6) D es := by
  intro pre tf draws post he
  obtain ⟨h1, h2, h3, h4⟩ := h pre tf draws post he
  exact ⟨h1, h2, fun m hm => shipped_map hE (h3 m hm), h4⟩

/-- What the accelerations of the files allow in two tenths of a second. -/
theorem shipped_reach : 49 / 100 ≤ M.rnd (5 / 2) * M.rnd (1 / 5) ∧ M.rnd (5 / 2) * M.rnd (1 / 5) ≤ 51 / 100 ∧
    19 / 100 ≤ 1 * M.rnd (1 / 5) ∧ 1 * M.rnd (1 / 5) ≤ 21 / 100 := by
  have ⟨q0, q1⟩ := rnd_at (M := M) (x := 1 / 5) le_rfl (by norm_num [abs_of_pos])
  have ⟨r0, r1⟩ := rnd_at (M := M) (x := 5 / 2) (B := 4) (by norm_num) (by norm_num [abs_of_pos])
  norm_num at q0 q1 r0 r1 ⊢
  refine ⟨?_, ?_, ?_, ?_⟩ <;> nlinarith

theorem shipped_axes {a r : ℝ} (ha : |a| ≤ 7 / 5) (hr : |r| ≤ 21 / 10) :
    AxisNumbers.Sane ⟨a, M.rnd (5 / 2), M.rnd (1 / 5), -1, 1⟩ M 4 ∧
    AxisNumbers.Sane ⟨r, 1, M.rnd (1 / 5), -2, 2⟩ M 4 := by
  obtain ⟨x0, x1, y0, y1⟩ := shipped_reach (M := M)
  exact ⟨shipped_axis (k := 1) (by norm_num) (by norm_num) (by norm_num) rfl (by linarith) (by linarith)
      (by norm_num at x0 ha ⊢; linarith),
    shipped_axis (k := 2) (by norm_num) (by norm_num) (by norm_num) rfl (by linarith) (by linarith)
      (by norm_num at y0 hr ⊢; linarith)⟩

/-- **The shipped configuration of the omnidirectional robot keeps running.**  `explore_omni` with
`config/explore_omni.yaml` starts; and whatever then arrives, as long as the maps are near one of the
two targets, the robot stays 2.83 m from the lower edges of the map, the measured velocity exceeds the
limits by at most a tenth per second turning and four tenths of a metre per second, every iteration
succeeds, and no twist is faster than 1.4143 m/s or turns by more than 2.001 per second. -/
theorem C105_omni (hM : AccurateTrig M) (hpow : PowPositive M) (hE : Accurate M) :
    ∃ (n : Node (RDbl M)) (o : List (Out (RDbl M))), omniYaml.omni = .ok (n, o) ∧ n.up = true ∧
      ∀ es : List (Event (RDbl M)), (∀ u ∈ odoms es, MeasuredTwist (7 / 5) (7 / 5) (21 / 10) u) →
        (∀ x ∈ poses es, V3Num x) → Fed 2.83 es →
        ∃ n' out, n.run es = .ok (n', out) ∧ ∀ u ∈ twists out, Slow 1.4143 2.001 u := by
  have ⟨g0, g1⟩ := rnd_at (M := M) (x := 1 / 2) le_rfl (by norm_num [abs_of_pos])
  norm_num at g0 g1
  obtain ⟨n, o, hn, hu⟩ := omni_starts (M := M) 1 (M.rnd (5 / 2)) 8 1 1 (M.rnd (1 / 2))
  refine ⟨n, o, ((C88_launch _ _).2).mpr ⟨show (i2u 10).toNat ≤ 46340 by decide, _, omniYaml_params, hn⟩, hu, ?_⟩
  intro es ho hx hf
  refine C99_omni hM hpow _ (shippedReal M 1 (M.rnd (5 / 2)) 8 [1, 1, M.rnd (1 / 2)]) n o
    (shippedDetector M) (shippedTarget M) es (B := 4) (by norm_num) (shipped_reads ..)
    (shipped_sane _ _ zero_le_one ?_ (by norm_num) (by norm_num) (by norm_num) (by norm_num))
    shipped_collision (shipped_gaussians ..) hn ?_ ?_ ?_ hx (shipped_supplied hE hf)
  · intro a ha
    simp only [List.mem_cons, List.not_mem_nil, or_false] at ha
    rcases ha with rfl | rfl | rfl
    · norm_num
    · norm_num
    · norm_num; linarith
  · rintro a b r ⟨a0, a1⟩ ⟨b0, b1⟩ ⟨r0, r1⟩
    simp only [shippedReal, shippedParams, show (3 : UInt32).toNat = 3 from rfl,
      show (8 : UInt32).toNat = 8 from rfl, show (5 : UInt32).toNat = 5 from rfl] at a0 a1 b0 b1 r0 r1
    norm_num at a1 b1 r1
    refine ⟨?_, abs_le.mpr ⟨by norm_num; linarith, by norm_num; linarith⟩⟩
    unfold speed
    rw [Real.sqrt_le_left (by norm_num)]
    have ha : a ^ 2 ≤ 1.0001 := by norm_num; nlinarith
    have hb : b ^ 2 ≤ 1.0001 := by norm_num; nlinarith
    norm_num at ha hb ⊢
    linarith
  · have h := shipped_axes (M := M) (a := 0) (r := 0) (by norm_num) (by norm_num)
    exact ⟨0, 0, 0, rfl, h.1, h.1, h.2⟩
  · intro u hu
    obtain ⟨a, b, c, rfl, ha, hb, hc⟩ := ho u hu
    exact ⟨a, b, c, rfl, (shipped_axes ha hc).1, (shipped_axes hb hc).1, (shipped_axes ha hc).2⟩

/-- **The shipped configuration of the cart keeps running.**  `explore_cart` with
`config/explore_cart.yaml` starts; the lateral velocity it measures may be a centimetre per second,
and 2.01 m within the lower edges of the map are enough; no twist is faster than 1.0001 m/s. -/
theorem C105_cart (hM : AccurateTrig M) (hpow : PowPositive M) (hE : Accurate M) :
    ∃ (n : Node (RDbl M)) (o : List (Out (RDbl M))), cartYaml.cart = .ok (n, o) ∧ n.up = true ∧
      ∀ es : List (Event (RDbl M)), (∀ u ∈ odoms es, MeasuredTwist (7 / 5) (1 / 100) (21 / 10) u) →
        (∀ x ∈ poses es, V3Num x) → Fed 2.01 es →
        ∃ n' out, n.run es = .ok (n', out) ∧ ∀ u ∈ twists out, Slow 1.0001 2.001 u := by
  have ⟨g0, g1⟩ := rnd_at (M := M) (x := 1 / 2) le_rfl (by norm_num [abs_of_pos])
  norm_num at g0 g1
  obtain ⟨n, o, hn, hu⟩ := cart_starts (M := M) 0 0 0 1 (M.rnd (1 / 2))
  refine ⟨n, o, ((C88_launch _ _).1).mpr ⟨show (i2u 10).toNat ≤ 46340 by decide, _, cartYaml_params, hn⟩, hu, ?_⟩
  intro es ho hx hf
  refine C99_cart hM hpow _ (shippedReal M 0 0 0 [1, M.rnd (1 / 2)]) n o
    (shippedDetector M) (shippedTarget M) es (B := 4) (lat := 11 / 1000) (by norm_num) (by norm_num)
    (shipped_reads ..)
    (shipped_sane _ _ le_rfl ?_ (by norm_num) (by norm_num) (by norm_num) (by norm_num))
    shipped_collision (shipped_gaussians ..) hn ?_ ?_ ?_ hx (shipped_supplied hE hf)
  · intro a ha
    simp only [List.mem_cons, List.not_mem_nil, or_false] at ha
    rcases ha with rfl | rfl
    · norm_num
    · norm_num; linarith
  · rintro a b r ⟨a0, a1⟩ b0 b1 ⟨r0, r1⟩
    simp only [shippedReal, shippedParams, show (3 : UInt32).toNat = 3 from rfl,
      show (5 : UInt32).toNat = 5 from rfl] at a0 a1 r0 r1
    norm_num at a1 r1
    refine ⟨?_, abs_le.mpr ⟨by norm_num; linarith, by norm_num; linarith⟩⟩
    unfold speed
    rw [Real.sqrt_le_left (by norm_num)]
    have ha : a ^ 2 ≤ 1.00001 := by norm_num; nlinarith
    have hb : b ^ 2 ≤ 0.00013 := by norm_num; nlinarith
    norm_num at ha hb ⊢
    linarith
  · have h := shipped_axes (M := M) (a := 0) (r := 0) (by norm_num) (by norm_num)
    exact ⟨0, 0, 0, rfl, h.1, by rw [M.rnd_zero]; norm_num, h.2⟩
  · intro u hu
    obtain ⟨a, b, c, rfl, ha, hb, hc⟩ := ho u hu
    refine ⟨a, b, c, rfl, (shipped_axes ha hc).1, ?_, (shipped_axes ha hc).2⟩
    have ⟨_, e1⟩ := rnd_at (M := M) (x := b) le_rfl (by linarith)
    have ⟨_, b1⟩ := abs_le.mp hb
    norm_num at e1 ⊢
    linarith

/-! ## far from the targets -/

theorem accum_nonneg {d : ℝ} (h0 : 0 ≤ d) : ∀ (n : ℕ) (s : ℝ), 0 ≤ s →
    ∀ z ∈ ErgodicControl.accumList (.fin s : RDbl M) (.fin d) n, ∃ y : ℝ, z = .fin y ∧ 0 ≤ y := by
  intro n
  induction n with
  | zero => intro s _ z hz; simp [ErgodicControl.accumList] at hz
  | succ n ih =>
    intro s hs z hz
    simp only [ErgodicControl.accumList, List.mem_cons, RDbl.add_fin] at hz
    rcases hz with rfl | hz
    · exact ⟨s, rfl, hs⟩
    · exact ih _ (M.rnd_nonneg (by linarith)) z hz

/-- Far to the right of a target, or far above, its value underflows to zero. -/
theorem far_value {m ax ay x y : ℝ} (m1 : m ≤ 9) (hx : 0 ≤ x) (hy : 0 ≤ y)
    (h : 81 ≤ ax ∨ 75 ≤ ay) :
    (shippedGauss ieee m).evalTrans ⟨.fin x, .fin y⟩ ⟨.fin ax, .fin ay⟩ = .fin 0 := by
  rw [shipped_form ieee m ax ay x y]
  have ⟨w0, w1⟩ := shippedVar_at (M := ieee)
  have hc : 44 / 100 ≤ ieee.rnd (1 / shippedVar ieee) := by
    have hq : 441 / 1000 ≤ 1 / shippedVar ieee := by
      rw [le_div_iff₀ (by linarith)]; linarith
    have hq1 : 1 / shippedVar ieee ≤ 1 := by
      rw [div_le_iff₀ (by linarith)]; linarith
    have := (rnd_at (M := ieee) (x := 1 / shippedVar ieee) le_rfl (abs_le.mpr ⟨by linarith, by linarith⟩)).1
    norm_num at this hq ⊢
    linarith
  have key : ∀ (p q z : ℝ) (k : ℤ), (p : ℝ) ≤ k → |k| ≤ 100 → k + 72 ≤ q → 0 ≤ z →
      72 ≤ ieee.rnd (z - ieee.rnd (ieee.rnd p - q)) := by
    intro p q z k hp hk hq hz
    have hk' := abs_le.mp hk
    have h1 := ieee.rnd_le_int (n := k) (abs_le.mpr ⟨by norm_num; omega, by norm_num; omega⟩) hp
    have h2 := ieee.rnd_le_int (n := -72) (x := ieee.rnd p - q) (by norm_num) (by push_cast; linarith)
    have h3 := ieee.int_le_rnd (n := 72) (x := z - ieee.rnd (ieee.rnd p - q)) (by norm_num)
      (by push_cast at h2 ⊢; linarith)
    exact_mod_cast h3
  have sq : ∀ c z : ℝ, 0 ≤ c → 0 ≤ ieee.rnd (ieee.rnd (z * c) * z) := by
    intro c z c0
    refine ieee.rnd_nonneg ?_
    rcases le_total 0 z with hz | hz
    · exact mul_nonneg (ieee.rnd_nonneg (mul_nonneg hz c0)) hz
    · have : ieee.rnd (z * c) ≤ 0 := by
        have := ieee.mono (mul_nonpos_of_nonpos_of_nonneg hz c0)
        rwa [ieee.rnd_zero] at this
      exact mul_nonneg_of_nonpos_of_nonpos this hz
  have big : ∀ c z : ℝ, 44 / 100 ≤ c → 72 ≤ z → 2232 ≤ ieee.rnd (ieee.rnd (z * c) * z) := by
    intro c z c0 hz
    have h1 := ieee.int_le_rnd (n := 31) (x := z * c) (by norm_num) (by push_cast; nlinarith)
    push_cast at h1
    have h2 := ieee.int_le_rnd (n := 2232) (x := ieee.rnd (z * c) * z) (by norm_num) (by push_cast; nlinarith)
    exact_mod_cast h2
  have hhalf : ieee.rnd (-5 / 10) = -1 / 2 := by
    show Ieee.rnd _ = _
    rw [Ieee.rnd_rep (-1) (-1) (by norm_num) (by norm_num) (by norm_num)]
    norm_num
  set u := ieee.rnd (ieee.rnd (ieee.rnd (x - ieee.rnd (ieee.rnd m - ax)) * ieee.rnd (1 / shippedVar ieee)) *
            ieee.rnd (x - ieee.rnd (ieee.rnd m - ax))) with hu
  set w := ieee.rnd (ieee.rnd (ieee.rnd (y - ieee.rnd (ieee.rnd (5 / 2) - ay)) * ieee.rnd (1 / shippedVar ieee)) *
            ieee.rnd (y - ieee.rnd (ieee.rnd (5 / 2) - ay))) with hw
  have u0 : 0 ≤ u := sq _ _ (by linarith)
  have w0 : 0 ≤ w := sq _ _ (by linarith)
  have huw : 2232 ≤ u + w := by
    rcases h with h | h
    · have : 2232 ≤ u := big _ _ hc (key m ax x 9 (by exact_mod_cast m1) (by norm_num) (by push_cast; linarith) hx)
      linarith
    · have : 2232 ≤ w := big _ _ hc (key (5 / 2) ay y 3 (by norm_num) (by norm_num) (by push_cast; linarith) hy)
      linarith
  have hs := ieee.int_le_rnd (n := 2232) (x := u + w) (by norm_num) (by exact_mod_cast huw)
  have he := ieee.rnd_le_int (n := -1116) (x := ieee.rnd (-5 / 10) * ieee.rnd (u + w)) (by norm_num) (by
    rw [hhalf]; push_cast at hs ⊢; linarith)
  rw [ieee_exp_zero (by push_cast at he; linarith)]

theorem far_small {m : OccupancyGrid (RDbl M)} {ax ay r : ℝ} (h : MapSized m ax ay r) :
    MapNum (mapOf m) ∧ GridSmall (mapOf m) (.fin (M.rnd (1 / 10))) := by
  obtain ⟨a, ea, a0, a1⟩ := extent_at (M := M) h.res_lo h.wide h.width h.ax_le
  obtain ⟨b, eb, b0, b1⟩ := extent_at (M := M) h.res_lo h.high h.height h.ay_le
  have wn : (1 : ℝ) ≤ m.width.toNat := by exact_mod_cast h.wide
  have hn : (1 : ℝ) ≤ m.height.toNat := by exact_mod_cast h.high
  have ⟨t2, t3⟩ := tenth_at (M := M)
  have ex : (mapOf m).xmax -. (mapOf m).xmin = .fin a := by
    show (m.resolution *. Flt.ofInt m.width.toNat +. m.originX) -. m.originX = _
    rw [h.x, h.res]; exact ea
  have ey : (mapOf m).ymax -. (mapOf m).ymin = .fin b := by
    show (m.resolution *. Flt.ofInt m.height.toNat +. m.originY) -. m.originY = _
    rw [h.y, h.res]; exact eb
  have r0 := h.res_lo
  have al : 1 / 1000 ≤ a := by nlinarith
  have bl : 1 / 1000 ≤ b := by nlinarith
  have hw := h.width
  have hh := h.height
  norm_num at t2 t3
  exact ⟨⟨⟨ax, h.x⟩, ⟨ay, h.y⟩, ⟨a, ex, al⟩, b, ey, bl⟩, a, b, M.rnd (1 / 10), ex, ey, rfl,
    by norm_num; linarith, by norm_num; linarith, by norm_num; linarith⟩

theorem far_blind {m : OccupancyGrid (RDbl ieee)} (h : MapFarFromTarget m) {e : ErgodicControl (RDbl ieee)}
    (hlx : e.basis.lx = .fin 0) (hres : e.resolution = .fin (ieee.rnd (1 / 10)))
    (ht : e.target = shippedTarget ieee) : OutOfSight e (mapOf m) := by
  obtain ⟨ax, ay, r, hs, hf⟩ := h
  obtain ⟨⟨-, -, ⟨a, ha, a0⟩, b, hb, b0⟩, a', b', r', ea, eb, er, r0, a1, b1⟩ := far_small hs
  have ⟨t0, t1⟩ := tenth_at (M := ieee)
  rw [ha] at ea
  obtain rfl := RDbl.fin_inj.mp ea
  rw [hb] at eb
  obtain rfl := RDbl.fin_inj.mp eb
  obtain rfl := RDbl.fin_inj.mp er
  obtain ⟨pts, hp, hp0⟩ := phiGrid_rd (M := ieee) a0 b0 r0 a1 b1
  have e0 : (lit 0 0 : RDbl ieee) = .fin 0 := by simp
  refine ⟨Or.inl ?_, pts, by rw [ha, hb, hres]; exact hp, by rintro rfl; simp at hp0, ?_⟩
  · rw [ha, hlx]
    unfold almostEqual
    have h1 : |a - 0| = a := by rw [sub_zero, abs_of_nonneg (by linarith)]
    rw [RDbl.sub_fin, sub_zero, fabs_rd (ieee.rnd_nonneg (by linarith)), RDbl.lit_fin, RDbl.lt_fin_false]
    exact ieee.mono (le_trans (by norm_num) a0)
  · intro p hpm G hG
    unfold ErgodicControl.phiGrid at hp
    simp only [Res.bind_eq_ok] at hp
    obtain ⟨nx, -, ny, -, hp⟩ := hp
    split at hp
    · nomatch hp
    obtain rfl := Res.ok.inj hp
    simp only [List.mem_flatMap, List.mem_map, e0] at hpm
    obtain ⟨y, hy, x, hx, rfl⟩ := hpm
    obtain ⟨x, rfl, hx0⟩ := accum_nonneg r0.le _ _ le_rfl _ hx
    obtain ⟨y, rfl, hy0⟩ := accum_nonneg r0.le _ _ le_rfl _ hy
    have g0 : (mapOf m).xmin = .fin ax := hs.x
    have g1 : (mapOf m).ymin = .fin ay := hs.y
    rw [g0, g1]
    rw [ht] at hG
    simp only [shippedTarget, List.mem_cons, List.not_mem_nil, or_false] at hG
    rcases hG with rfl | rfl
    · exact far_value (by norm_num) hx0 hy0 hf
    · exact far_value (by norm_num) hx0 hy0 hf

/-- What a new controller has in it. -/
theorem new_fresh {F : Type} [Flt F] {model : TwistModel F} {collision : Collision F}
    {dt horizon resolution weight : F} {num_basis buffer_size batch_size : Nat} {Rinv : M3 F} {umin umax : V3 F}
    {e : ErgodicControl F}
    (h : ErgodicControl.new model collision dt horizon resolution weight num_basis buffer_size batch_size Rinv
      umin umax = .ok e) :
    e.buffer = { buffer_size, batch_size } ∧ e.basis.lx = lit 0 0 ∧ e.resolution = resolution ∧
      (∀ v ∈ e.ut, v = V3.zero) ∧ numSteps horizon dt = .ok e.steps := by
  unfold ErgodicControl.new at h
  rw [Res.bind_eq_ok] at h
  obtain ⟨n, hn, h⟩ := h
  split at h
  · nomatch h
  · obtain rfl := Res.ok.inj h
    exact ⟨rfl, rfl, rfl, fun v hv => List.eq_of_mem_replicate hv, hn⟩

theorem val_steps : ∃ n : UInt32, numSteps (.fin (M.rnd (1 / 2)) : RDbl M) (.fin (M.rnd (1 / 10))) = .ok n ∧
    0 < n.toNat := by
  have ⟨t0, t1⟩ := tenth_at (M := M)
  have ⟨h0, h1⟩ := rnd_at (M := M) (x := 1 / 2) le_rfl (by norm_num [abs_of_pos])
  norm_num at t0 t1 h0 h1
  have tp : 0 < M.rnd (1 / 10) := by norm_num; linarith
  obtain ⟨n, h1, h2, -⟩ := numSteps_fin (M := M) (h := M.rnd (1 / 2)) (d := M.rnd (1 / 10))
    (by norm_num; linarith) tp (by norm_num; linarith)
  refine ⟨n, h1, ?_⟩
  rw [h2]
  refine Nat.floor_pos.mpr ?_
  have hq : (1 : ℝ) ≤ M.rnd (1 / 2) / M.rnd (1 / 10) := by
    rw [le_div_iff₀ tp]
    norm_num; linarith
  have := M.int_le_rnd (n := 1) (by norm_num) (x := M.rnd (1 / 2) / M.rnd (1 / 10)) (by exact_mod_cast hq)
  exact_mod_cast this

/-- **Far from the targets both shipped configurations end in the first iteration**: on binary64 numbers
the omnidirectional node has undefined behaviour, and the cart throws what nothing catches, as soon as the
first map begins 81 m to the right of the origin or 75 m above it, whatever the map shows and wherever the
robot is. -/
theorem C105_far {m : OccupancyGrid (RDbl ieee)} (h : MapFarFromTarget m) (tf : TransformMsg (RDbl ieee)) :
    (∃ n o, (omniYaml : Launch (RDbl ieee)).omni = .ok (n, o) ∧ n.up = true ∧
      n.run [.map m, .tick (some tf) (List.replicate 100 0)] = .ub) ∧
    ∃ n o, (cartYaml : Launch (RDbl ieee)).cart = .ok (n, o) ∧ n.up = true ∧
      n.run [.map m, .tick (some tf) (List.replicate 100 0)] = .throw .invalidArgument := by
  obtain ⟨nv, hnv, hnv0⟩ := val_steps (M := ieee)
  obtain ⟨⟨k, hk, hk49⟩, -⟩ := shipped_steps (M := ieee)
  have hz : (lit 0 0 : RDbl ieee) = .fin 0 := by simp
  set x : V3 (RDbl ieee) := ⟨tf.x, tf.y, getYaw tf.qx tf.qy tf.qz tf.qw⟩ with hx
  have hgr : GridMap.update GridMap.empty m = mapOf m := rfl
  obtain ⟨ax, ay, r, hs, -⟩ := id h
  obtain ⟨hnum, hsm⟩ := far_small hs
  constructor
  · obtain ⟨n, o, hn, hu⟩ := omni_starts (M := ieee) 1 (ieee.rnd (5 / 2)) 8 1 1 (ieee.rnd (1 / 2))
    refine ⟨n, o, ((C88_launch _ _).2).mpr ⟨show (i2u 10).toNat ≤ 46340 by decide, _, omniYaml_params, hn⟩, hu, ?_⟩
    obtain ⟨w0, w1, w2, gs, collision, ec, dwa, ⟨-, -, -, hgs, -⟩, hec, -, hst, -⟩ := omni_parts hn
    rw [shipped_gaussians, Res.ok.injEq] at hgs
    obtain ⟨f1, f2, f3, f4, f5⟩ := new_fresh hec
    have hb : EcBuilt _ _ _ _ _ _ _ _ _ _ _ _ ((ec.setTarget (shippedTarget ieee)).addStateMemory x) :=
      ⟨ec, hec, .addStateMemory x (.setTarget _ .start)⟩
    have hst2 : 2 ≤ ec.steps.toNat := by
      rw [show ec.steps = k from (Res.ok.inj (hk.symm.trans f5)).symm]; omega
    obtain ⟨e', u, hc⟩ := C60_total (g := mapOf m) (x := x) (draws := List.replicate 100 0) hb hst2
      (fun y v _ => ⟨_, rfl⟩) (configTarget_total_rd hb.inv.resolution_eq hnum hsm) (by simp [shippedParams])
      (by
        intro r hr
        rw [List.eq_of_mem_replicate hr]
        simp [ErgodicControl.addStateMemory, ErgodicControl.setTarget, f1, ReplayBuffer.append,
          ReplayBuffer.emplace, shippedParams])
      (by simp only [shippedParams, RDbl.lt_fin_false]; norm_num)
      (by simp only [shippedParams, RDbl.lt_fin_false]; norm_num)
      (by simp only [shippedParams, RDbl.lt_fin_false]; norm_num)
    have he : n.expl = (Expl.start ec collision dwa (shippedTarget ieee) "map" (.fin (ieee.rnd (1 / 10)))
        (.fin (ieee.rnd (1 / 2)))).1 := by
      rw [show shippedTarget ieee = ⟨gs⟩ from by rw [← hgs]]
      exact congrArg Prod.fst hst
    have key := C97_omni (show 0 < 10 by norm_num) ((Expl.start ec collision dwa (shippedTarget ieee) "map"
      (.fin (ieee.rnd (1 / 10))) (.fin (ieee.rnd (1 / 2)))).1.mapCallback m) (some tf) (List.replicate 100 0)
      hb rfl rfl rfl (far_blind h (by rw [← hz]; exact f2) f3 rfl) ⟨(e', u), hc⟩ hnv hnv0
    rw [← he] at key
    simp only [Node.run, Node.step, hu, if_true, Expl.step, Res.ok_bind, key]
    rfl
  · obtain ⟨n, o, hn, hu⟩ := cart_starts (M := ieee) 0 0 0 1 (ieee.rnd (1 / 2))
    refine ⟨n, o, ((C88_launch _ _).1).mpr ⟨show (i2u 10).toNat ≤ 46340 by decide, _, cartYaml_params, hn⟩, hu, ?_⟩
    obtain ⟨w0, w1, gs, collision, ec, dwa, ⟨-, -, hgs, -⟩, hec, -, hst, -⟩ := cart_parts hn
    rw [shipped_gaussians, Res.ok.injEq] at hgs
    obtain ⟨f1, f2, f3, f4, f5⟩ := new_fresh hec
    have hb : EcBuilt _ _ _ _ _ _ _ _ _ _ _ _ ((ec.setTarget (shippedTarget ieee)).addStateMemory x) :=
      ⟨ec, hec, .addStateMemory x (.setTarget _ .start)⟩
    have hst2 : 2 ≤ ec.steps.toNat := by
      rw [show ec.steps = k from (Res.ok.inj (hk.symm.trans f5)).symm]; omega
    have hf : ∀ y : V3 (RDbl ieee), ∀ v ∈ V3.zero :: ((ec.setTarget (shippedTarget ieee)).addStateMemory x).ut,
        ∃ d, (cartModel : TwistModel (RDbl ieee)).f y v = .ok d := by
      intro y v hv
      have hv0 : v = V3.zero := by
        rcases List.mem_cons.mp hv with rfl | hv
        · rfl
        · exact f4 v hv
      subst hv0
      refine ⟨⟨lit 0 0 *. Flt.cos y.c2, lit 0 0 *. Flt.sin y.c2, lit 0 0⟩, ?_⟩
      show SimpleCart.f y V3.zero = _
      unfold SimpleCart.f
      rw [if_neg]
      · rfl
      · rw [not_not]
        show almostEqual (lit 0 0) (lit 0 0) = true
        rw [hz]
        unfold almostEqual
        rw [RDbl.sub_fin, sub_zero, ieee.rnd_zero, fabs_rd le_rfl, RDbl.lit_fin, RDbl.lt_fin]
        refine rnd_pos ?_
        have : (1 : ℝ) / 2 ^ 1000 ≤ 1 / 2 ^ 40 :=
          one_div_le_one_div_of_le (by positivity) (pow_le_pow_right₀ (by norm_num) (by norm_num))
        refine this.trans ?_
        norm_num
    obtain ⟨e', u, hc⟩ := C60_total (g := mapOf m) (x := x) (draws := List.replicate 100 0) hb hst2
      hf (configTarget_total_rd hb.inv.resolution_eq hnum hsm) (by simp [shippedParams])
      (by
        intro r hr
        rw [List.eq_of_mem_replicate hr]
        simp [ErgodicControl.addStateMemory, ErgodicControl.setTarget, f1, ReplayBuffer.append,
          ReplayBuffer.emplace, shippedParams])
      (by simp only [shippedParams, RDbl.lt_fin_false]; norm_num)
      (by simp only [hz, RDbl.lt_fin_false]; norm_num)
      (by simp only [shippedParams, RDbl.lt_fin_false]; norm_num)
    have he : n.expl = (Expl.start ec collision dwa (shippedTarget ieee) "map" (.fin (ieee.rnd (1 / 10)))
        (.fin (ieee.rnd (1 / 2)))).1 := by
      rw [show shippedTarget ieee = ⟨gs⟩ from by rw [← hgs]]
      exact congrArg Prod.fst hst
    have key := C97_cart (show 0 < 10 by norm_num) ((Expl.start ec collision dwa (shippedTarget ieee) "map"
      (.fin (ieee.rnd (1 / 10))) (.fin (ieee.rnd (1 / 2)))).1.mapCallback m) (some tf) (List.replicate 100 0)
      hb rfl rfl rfl (far_blind h (by rw [← hz]; exact f2) f3 rfl) ⟨(e', u), hc⟩
    rw [← he] at key
    simp only [Node.run, Node.step, hu, if_true, Expl.step, Res.ok_bind, key]
    rfl

/-! ## free of obstacles -/

/-- **With the shipped configurations a robot that carries out its twists stays clear of obstacles**, in
exact arithmetic: at ten iterations a second, the rate of the files, on a map that does not change, a robot
that starts free and carries out every published twist for a tenth of a second is free at every iteration. -/
theorem C105_closed_loop {n : Node ℝ} {o0 : List (Out ℝ)}
    (hn : cartYaml.cart = .ok (n, o0) ∨ omniYaml.omni = .ok (n, o0)) {es : List (Event ℝ)}
    {os : List (List (Out ℝ))} {t : Expl ℝ} (ht : Trace n.expl es os t) {l : Option (V3 ℝ × List (V3 ℝ))}
    (hdr : Driven (1 / 10) es os l) (m : OccupancyGrid ℝ) (hmaps : ∀ m' ∈ maps es, m' = m)
    (hw : ∀ o ∈ os, ∀ u ∈ twists o, Measurable u)
    (hfirst : ∀ x, (poses es).head? = some x → n.expl.collision.collisionCheck (mapOf m) x = .ok false) :
    ∀ x ∈ poses es, n.expl.collision.collisionCheck (mapOf m) x = .ok false := by
  have l1 : (lit 1 1 : ℝ) = 1 / 10 := by simp
  have l5 : (lit 5 1 : ℝ) = 1 / 2 := by norm_num
  have l20 : (lit 20 1 : ℝ) = 2 := by norm_num
  have base : ∀ (y : Launch ℝ) (p : Params ℝ), y.params = .ok p → p.val_dt = y.base.val_dt ∧
      p.val_horizon = y.base.val_horizon ∧ p.dwa_dt = y.base.dwa_dt ∧ p.dwa_horizon = y.base.dwa_horizon := by
    intro y p h
    simp only [Launch.params, Res.bind_eq_ok, Res.ok.injEq] at h
    obtain ⟨_, _, _, _, rfl⟩ := h
    exact ⟨rfl, rfl, rfl, rfl⟩
  obtain ⟨p, hp, h1, h2, h3, h4⟩ : ∃ p : Params ℝ, (Node.cart p = .ok (n, o0) ∨ Node.omni p = .ok (n, o0)) ∧
      p.val_dt = lit 1 1 ∧ p.val_horizon = lit 5 1 ∧ p.dwa_dt = lit 1 1 ∧ p.dwa_horizon = lit 20 1 := by
    rcases hn with hn | hn
    · obtain ⟨-, p, hp, h⟩ := ((C88_launch _ _).1).mp hn
      exact ⟨p, Or.inl h, base _ _ hp⟩
    · obtain ⟨-, p, hp, h⟩ := ((C88_launch _ _).2).mp hn
      exact ⟨p, Or.inr h, base _ _ hp⟩
  rw [l1] at h1 h3
  rw [l5] at h2
  rw [l20] at h4
  refine C89_closed_loop_partial hp (by rw [h1]; norm_num) (by rw [h3]; norm_num) (T := 1 / 10)
    ⟨0, by rw [h1]; norm_num, by rw [h2]; norm_num⟩ ⟨0, by rw [h3]; norm_num, by rw [h4]; norm_num⟩
    ht hdr m hmaps hw hfirst

/-- In exact arithmetic, too, both start. -/
theorem C105_exact : (∃ n o, (omniYaml : Launch ℝ).omni = .ok (n, o)) ∧
    ∃ n o, (cartYaml : Launch ℝ).cart = .ok (n, o) := by
  have hb : castU32 (lit 1000000 0 : ℝ) = .ok 1000000 :=
    castU32_real_of (n := 1000000) (by norm_num) (by norm_num) (by norm_num)
  have hf : ⌊(5 : ℝ) / (1 / 10)⌋₊ = 50 := by
    rw [show (5 : ℝ) / (1 / 10) = (50 : ℕ) by norm_num, Nat.floor_natCast]
  have ht : ∃ ts : List (V2 ℝ × V2 ℝ), readTargets (yamlMeans : Xml ℝ) yamlSigmas = .ok ts ∧
      ∀ t ∈ ts, t.2 = ⟨3 / 2, 3 / 2⟩ := by
    have l15 : (lit 15 1 : ℝ) = 3 / 2 := by norm_num
    unfold yamlSigmas
    rw [l15]
    refine ⟨_, rfl, ?_⟩
    intro t ht
    have ht : t ∈ [((_ : V2 ℝ), (⟨3 / 2, 3 / 2⟩ : V2 ℝ)), (_, ⟨3 / 2, 3 / 2⟩)] := ht
    simp only [List.mem_cons, List.not_mem_nil, or_false] at ht
    rcases ht with rfl | rfl <;> rfl
  obtain ⟨ts, ht, hts⟩ := ht
  constructor
  · obtain ⟨n, o, h⟩ := (C78_starts_omni { (omniYaml : Launch ℝ).base with
        num_basis := 10, buffer_size := 1000000, batch_size := 100
        vx_samples := 3, vy_samples := 8, vth_samples := 5, targets := ts } (by
      constructor <;> simp only [omniYaml] <;> norm_num [hf])).mpr ⟨by simp [omniYaml], by
        intro t h
        rw [hts t h]
        norm_num, by simp only [omniYaml]; norm_num, by simp only [omniYaml]; norm_num,
        by simp only [omniYaml]; norm_num⟩
    refine ⟨n, o, ((C88_launch _ _).2).mpr ⟨show (i2u 10).toNat ≤ 46340 by decide, _, ?_, h⟩⟩
    unfold Launch.params omniYaml
    dsimp only
    rw [hb, Res.ok_bind, ht, Res.ok_bind]
    rfl
  · obtain ⟨n, o, h⟩ := (C78_starts_cart { (cartYaml : Launch ℝ).base with
        num_basis := 10, buffer_size := 1000000, batch_size := 100
        vx_samples := 3, vy_samples := 0, vth_samples := 5, targets := ts } (by
      constructor <;> simp only [cartYaml] <;> norm_num [hf])).mpr ⟨by simp [cartYaml], by
        intro t h
        rw [hts t h]
        norm_num, by simp only [cartYaml]; norm_num, by simp only [cartYaml]; norm_num,
        by simp only [cartYaml]; norm_num⟩
    refine ⟨n, o, ((C88_launch _ _).1).mpr ⟨show (i2u 10).toNat ≤ 46340 by decide, _, ?_, h⟩⟩
    unfold Launch.params cartYaml
    dsimp only
    rw [hb, Res.ok_bind, ht, Res.ok_bind]
    rfl

/-! ## such surroundings exist -/

theorem room_sized : MapSized roomMsg 0 0 1 := by
  have h10 : ((10 : UInt32).toNat : ℝ) = 10 := by rw [show (10 : UInt32).toNat = 10 from rfl]; norm_num
  refine ⟨rfl, rfl, rfl, by norm_num, by decide, by decide, ?_, ?_, by norm_num, by norm_num, ?_⟩
  · show ((10 : UInt32).toNat : ℝ) * 1 ≤ 1000
    rw [h10]; norm_num
  · show ((10 : UInt32).toNat : ℝ) * 1 ≤ 1000
    rw [h10]; norm_num
  · show (List.replicate 100 (0 : Int8)).length = _
    rw [List.length_replicate]; decide

theorem room_fed (vb : V3 (RDbl ieee)) :
    Fed 2.83 [.map roomMsg, .odom vb, .tick (some roomTf) (List.replicate 100 0)] := by
  have h10 : ((10 : UInt32).toNat : ℝ) = 10 := by rw [show (10 : UInt32).toNat = 10 from rfl]; norm_num
  have hp : poses ([.map roomMsg, .odom vb] ++ [Event.tick (some roomTf) (List.replicate 100 0)]) =
      [⟨.fin 5, .fin 5, .fin 0⟩] := by
    show [(⟨.fin 5, .fin 5, getYaw (.fin 0 : RDbl ieee) (.fin 0) (.fin 0) (.fin 1)⟩ : V3 (RDbl ieee))] = _
    rw [room_yaw]
  intro pre tf draws post h
  obtain ⟨rfl, rfl, rfl⟩ := three_events h
  have hm : ∀ m, (maps [.map roomMsg, .odom vb]).getLast? = some m → m = roomMsg := by
    intro m h
    have h : some roomMsg = some m := h
    exact (Option.some.inj h).symm
  refine ⟨List.length_replicate, ?_, ?_, ?_⟩
  · intro r hr
    rw [List.eq_of_mem_replicate hr, hp]
    decide
  · intro m h
    rw [hm m h]
    refine ⟨0, 0, 1, 5 / 2, room_sized, Or.inl rfl, by norm_num, ?_, by norm_num, ?_⟩
    · have : (0 : ℝ) ≤ roomMsg.width.toNat := Nat.cast_nonneg _
      linarith
    · have : (0 : ℝ) ≤ roomMsg.height.toNat := Nat.cast_nonneg _
      linarith
  · intro m x h hx
    rw [hm m h]
    rw [hp] at hx
    have hx : some _ = some x := hx
    obtain rfl := Option.some.inj hx
    refine ⟨5, 5, 0, 0, 0, 1, rfl, ⟨rfl, rfl, rfl, by norm_num⟩, ?_⟩
    norm_num

/-- The hypotheses of `C105_omni` hold together on binary64 numbers: a map of ten by ten metres with
both targets in it, the robot in the middle, faster than its limits, and an iteration. -/
example : ∃ (n n' : Node (RDbl ieee)) (o out : List (Out (RDbl ieee))), omniYaml.omni = .ok (n, o) ∧
    n.run [.map roomMsg, .odom ⟨.fin (5 / 4), .fin (-5 / 4), .fin 2⟩,
      .tick (some roomTf) (List.replicate 100 0)] = .ok (n', out) ∧ ∀ u ∈ twists out, Slow 1.4143 2.001 u := by
  obtain ⟨n, o, h, -, hr⟩ := C105_omni ieee_trig ieee_pow ieee_accurate
  obtain ⟨n', out, h1, h2⟩ := hr [.map roomMsg, .odom ⟨.fin (5 / 4), .fin (-5 / 4), .fin 2⟩,
      .tick (some roomTf) (List.replicate 100 0)]
    (by
      intro u hu
      simp only [odoms, List.filterMap_cons, Event.odom?, List.filterMap_nil, List.mem_singleton] at hu
      subst hu
      exact ⟨_, _, _, rfl, by rw [abs_le]; norm_num, by rw [abs_le]; norm_num, by rw [abs_le]; norm_num⟩)
    (by
      intro x hx
      have hx : x = ⟨.fin 5, .fin 5, getYaw (.fin 0 : RDbl ieee) (.fin 0) (.fin 0) (.fin 1)⟩ :=
        List.mem_singleton.mp hx
      rw [room_yaw] at hx
      subst hx
      exact ⟨⟨_, rfl⟩, ⟨_, rfl⟩, _, rfl⟩) (room_fed _)
  exact ⟨n, n', o, out, h, h1, h2⟩

/-- A map of ten by ten metres at (100, 0) is far from the targets. -/
example : MapFarFromTarget { roomMsg with originX := .fin 100 } := by
  obtain ⟨-, h2, h3, h4, h5, h6, h7, h8, -, h10, h11⟩ := room_sized
  exact ⟨100, 0, 1, ⟨rfl, h2, h3, h4, h5, h6, h7, h8, by norm_num, h10, h11⟩, Or.inl (by norm_num)⟩

end Ergodic
