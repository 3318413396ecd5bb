import Verif.Props.DynamicWindow
import Verif.Props.RoundedCounts

/-!
# Property C85: the velocity window with rounding

C55 is about exact arithmetic.  With rounding the samples are computed by repeatedly adding a
rounded increment, so the last ones may exceed the limits, but only by a rounding error per sample.
-/

namespace Ergodic

variable {M : Machine}

instance : StrictLt (RDbl M) where
  irrefl a := StrictLt.irrefl (F := Dbl) a
  trans a b c := StrictLt.trans (F := Dbl) a b c
  max_close := by
    unfold almostEqual
    rw [RDbl.maxFin_fin, RDbl.sub_fin, sub_self, M.rnd_zero, RDbl.lit_fin, fabs_rd le_rfl, RDbl.lt_fin]
    have e := (M.err' minNormal_le_one (x := ((1 : ℤ) : ℝ) / 10 ^ 12) (by norm_num [abs_of_pos])).1
    norm_num at e ⊢
    linarith

theorem fmax_rd (a b : ℝ) : fmax (.fin a : RDbl M) (.fin b) = .fin (max a b) := by
  unfold fmax
  by_cases h : a < b
  · rw [if_pos ((RDbl.lt_fin a b).mpr h), max_eq_right h.le]
  · rw [if_neg (by rw [RDbl.lt_fin]; exact h), max_eq_left (not_lt.mp h)]

theorem fmin_rd (a b : ℝ) : fmin (.fin a : RDbl M) (.fin b) = .fin (min a b) := by
  unfold fmin
  by_cases h : b < a
  · rw [if_pos ((RDbl.lt_fin b a).mpr h), min_eq_right h.le]
  · rw [if_neg (by rw [RDbl.lt_fin]; exact h), min_eq_left (not_lt.mp h)]

/-- Adding the increment again and again. -/
theorem stride_rd {L D B : ℝ} (hB : minNormal ≤ B) (hL : M.rnd L = L) (hL0 : |L| ≤ B) (hD0 : 0 ≤ D)
    (hD1 : D ≤ 3 * B) (k : ℕ) (hk : L + k * (D + B / 2 ^ 49) ≤ 2 * B) :
    ∃ s, stride (.fin L : RDbl M) (.fin D) k = .fin s ∧ M.rnd s = s ∧ L ≤ s ∧
      s ≤ L + k * (D + B / 2 ^ 49) := by
  have hB0 : 0 < B := minNormal_pos.trans_le hB
  induction k with
  | zero => exact ⟨L, rfl, hL, le_rfl, by simp⟩
  | succ k ih =>
    have hstep : 0 ≤ D + B / 2 ^ 49 := by positivity
    have hk' : L + k * (D + B / 2 ^ 49) ≤ 2 * B := by
      push_cast at hk; nlinarith
    obtain ⟨s, e1, e2, e3, e4⟩ := ih hk'
    have ⟨l0, l1⟩ := abs_le.mp hL0
    have er := M.err' (show minNormal ≤ 5 * B by linarith) (x := s + D) (by
      rw [abs_le]; constructor <;> linarith)
    refine ⟨M.rnd (s + D), ?_, M.idem _, ?_, ?_⟩
    · have : stride (.fin L : RDbl M) (.fin D) (k + 1) = stride (.fin L) (.fin D) k +. .fin D := by
        unfold stride; rw [Function.iterate_succ_apply']
      rw [this, e1, RDbl.add_fin]
    · have := M.mono (show s ≤ s + D by linarith)
      rw [e2] at this
      linarith
    · push_cast
      have := er.2
      norm_num at this ⊢
      linarith

/-- One axis of the window: the samples between `L` and `U`. -/
theorem axis_rd {L U B : ℝ} (hB : minNormal ≤ B) (hL : M.rnd L = L) (hLU : L ≤ U) (hL0 : |L| ≤ B)
    (hU0 : |U| ≤ B) {n : UInt32} {k : ℕ} (hk : k < n.toNat) :
    ∃ s, stride (.fin L : RDbl M) (DynamicWindow.delta n (.fin L) (.fin U)) k = .fin s ∧ L ≤ s ∧
      s ≤ U + k * (B / 2 ^ 48) := by
  have hB0 : 0 < B := minNormal_pos.trans_le hB
  have ⟨l0, l1⟩ := abs_le.mp hL0
  have ⟨u0, u1⟩ := abs_le.mp hU0
  by_cases h1 : 1 < n
  · unfold DynamicWindow.delta
    rw [if_pos h1]
    have h1' : 1 < n.toNat := by simpa [UInt32.lt_iff_toNat_lt] using h1
    have hn1 : (n - 1).toNat = n.toNat - 1 := by
      rw [UInt32.toNat_sub_of_le _ _ (UInt32.le_iff_toNat_le.mpr (by simpa using h1'.le))]; rfl
    have hlt := uint32_lt n
    rw [hn1, RDbl.ofInt_fin, RDbl.sub_fin]
    set N : ℕ := n.toNat - 1
    have hN1 : 1 ≤ N := by omega
    have hNR : (1 : ℝ) ≤ (N : ℝ) := by exact_mod_cast hN1
    have hN2 : (N : ℝ) ≤ 2 ^ 32 := by
      have : N ≤ 2 ^ 32 := by omega
      exact_mod_cast this
    rw [show (((N : ℕ) : ℤ) : ℝ) = (N : ℝ) by push_cast; rfl,
      M.rnd_nat (n := N) (by have : N ≤ 2 ^ 32 := by omega
                             exact this.trans (by norm_num)), RDbl.div_fin _ (by linarith)]
    have e1 := M.err' (show minNormal ≤ 2 * B by linarith) (x := U - L) (by
      rw [abs_le]; constructor <;> linarith)
    have w0 : 0 ≤ M.rnd (U - L) := M.rnd_nonneg (by linarith)
    set W := M.rnd (U - L)
    have hWN : W / N ≤ W := div_le_self w0 hNR
    have hW : W ≤ 2 * B + B / 2 ^ 51 := by
      have := e1.2; norm_num at this ⊢; linarith
    have e2 := M.err' (show minNormal ≤ 5 / 2 * B by linarith) (x := W / N) (by
      rw [abs_of_nonneg (by positivity)]
      norm_num at hW; linarith)
    have d0 : 0 ≤ M.rnd (W / N) := M.rnd_nonneg (by positivity)
    have dle : M.rnd (W / N) ≤ (U - L) / N + B / 2 ^ 49 := by
      have a : W / N ≤ (U - L) / N + 2 * B / 2 ^ 52 := by
        rw [div_add' _ _ _ (by linarith), div_le_div_iff_of_pos_right (by linarith)]
        have : 2 * B / 2 ^ 52 ≤ 2 * B / 2 ^ 52 * N := le_mul_of_one_le_right (by positivity) hNR
        linarith [e1.2]
      have := e2.2
      norm_num at a this ⊢
      linarith
    have d3 : M.rnd (W / N) ≤ 3 * B := by
      have := e2.2; norm_num at this hW; linarith
    set D := M.rnd (W / N)
    have hkN : (k : ℝ) ≤ N := by
      have : k ≤ N := by omega
      exact_mod_cast this
    have total : L + k * (D + B / 2 ^ 49) ≤ U + k * (B / 2 ^ 48) := by
      have : (k : ℝ) * ((U - L) / N) ≤ U - L := by
        rw [mul_div_assoc', div_le_iff₀ (by linarith), mul_comm]
        exact mul_le_mul_of_nonneg_left hkN (by linarith)
      have b := mul_le_mul_of_nonneg_left dle (show (0:ℝ) ≤ k by positivity)
      have c : B / 2 ^ 49 + B / 2 ^ 49 = B / 2 ^ 48 := by ring
      rw [← c]
      linarith
    have small : (k : ℝ) * (B / 2 ^ 48) ≤ B := by
      calc (k : ℝ) * (B / 2 ^ 48) ≤ 2 ^ 32 * (B / 2 ^ 48) :=
            mul_le_mul_of_nonneg_right (hkN.trans hN2) (by positivity)
        _ ≤ B := by norm_num; linarith
    obtain ⟨s, s1, _, s3, s4⟩ := stride_rd hB hL hL0 d0 d3 k (by linarith)
    exact ⟨s, s1, s3, by linarith⟩
  · have hk0 : k = 0 := by
      have : ¬ (1 : UInt32).toNat < n.toNat := by rwa [← UInt32.lt_iff_toNat_lt]
      have e : (1 : UInt32).toNat = 1 := rfl
      omega
    subst hk0
    exact ⟨L, rfl, le_rfl, by simpa using hLU⟩

/-- One axis of a search in numbers: measured velocity, acceleration limit, its time step, and the
velocity limits. -/
structure AxisNumbers where
  v : ℝ
  acc : ℝ
  t : ℝ
  vmin : ℝ
  vmax : ℝ

/-- Numbers of size at most `B`; the limits are machine numbers in order, and the window is not
empty.  (It is not if the measured velocity is within the limits, see `sane_of_within`.) -/
structure AxisNumbers.Sane (a : AxisNumbers) (M : Machine) (B : ℝ) : Prop where
  normal : minNormal ≤ B
  v_le : |a.v| ≤ B
  acc_nonneg : 0 ≤ a.acc * a.t
  acc_le : a.acc * a.t ≤ B
  min_le : |a.vmin| ≤ B
  max_le : |a.vmax| ≤ B
  min_num : M.rnd a.vmin = a.vmin
  ordered : a.vmin ≤ a.vmax
  upper : M.rnd (a.v - M.rnd (a.acc * a.t)) ≤ a.vmax
  lower : a.vmin ≤ M.rnd (a.v + M.rnd (a.acc * a.t))

/-- The parameters of the search and the measured twist are the given numbers. -/
structure WindowNumbers (d : DynamicWindow (RDbl M)) (vb : V3 (RDbl M)) (x y w : AxisNumbers) : Prop where
  vx : vb.c0 = .fin x.v
  vy : vb.c1 = .fin y.v
  vw : vb.c2 = .fin w.v
  ax : d.acc_lim_x = .fin x.acc
  ay : d.acc_lim_y = .fin y.acc
  aw : d.acc_lim_th = .fin w.acc
  tx : d.acc_dt = .fin x.t
  ty : d.acc_dt = .fin y.t
  tw : d.acc_dt = .fin w.t
  minx : d.min_vel_x = .fin x.vmin
  miny : d.min_vel_y = .fin y.vmin
  minw : d.min_rot_vel = .fin w.vmin
  maxx : d.max_vel_x = .fin x.vmax
  maxy : d.max_vel_y = .fin y.vmax
  maxw : d.max_rot_vel = .fin w.vmax

/-- A velocity is within the limits and reachable, up to `e`; not below the lower limit at all. -/
def AxisNumbers.Admits (a : AxisNumbers) (e : ℝ) (u : RDbl M) : Prop :=
  ∃ s : ℝ, u = .fin s ∧ a.vmin ≤ s ∧ s ≤ a.vmax + e ∧ |s - a.v| ≤ a.acc * a.t + e

theorem axis_admits {a : AxisNumbers} {B : ℝ} (h : a.Sane M B) {n : UInt32} {k : ℕ}
    (hk : k < n.toNat) :
    a.Admits (n.toNat * B / 2 ^ 46) (stride
      (fmax ((.fin a.v : RDbl M) -. .fin a.acc *. .fin a.t) (.fin a.vmin))
      (DynamicWindow.delta n
        (fmax ((.fin a.v : RDbl M) -. .fin a.acc *. .fin a.t) (.fin a.vmin))
        (fmin ((.fin a.v : RDbl M) +. .fin a.acc *. .fin a.t) (.fin a.vmax))) k) := by
  obtain ⟨hB, hv, ha0, ha1, hmin, hmax, nmin, hord, hup, hlo⟩ := h
  have hB0 : 0 < B := minNormal_pos.trans_le hB
  rw [RDbl.mul_fin, RDbl.sub_fin, RDbl.add_fin, fmax_rd, fmin_rd]
  have e1 := M.err' hB (x := a.acc * a.t) (by rw [abs_of_nonneg ha0]; exact ha1)
  have p0 : 0 ≤ M.rnd (a.acc * a.t) := M.rnd_nonneg ha0
  set p := M.rnd (a.acc * a.t)
  have ⟨v0, v1⟩ := abs_le.mp hv
  have ⟨m0, m1⟩ := abs_le.mp hmin
  have ⟨x0, x1⟩ := abs_le.mp hmax
  have p1 : p ≤ 2 * B := by
    have := e1.2; norm_num at this; linarith
  have e2 := M.err' (show minNormal ≤ 3 * B by linarith) (x := a.v - p) (by
    rw [abs_le]; constructor <;> linarith)
  have e3 := M.err' (show minNormal ≤ 3 * B by linarith) (x := a.v + p) (by
    rw [abs_le]; constructor <;> linarith)
  have hlu : M.rnd (a.v - p) ≤ M.rnd (a.v + p) := M.mono (by linarith)
  have hLU : max (M.rnd (a.v - p)) a.vmin ≤ min (M.rnd (a.v + p)) a.vmax :=
    max_le (le_min hlu hup) (le_min hlo hord)
  have hLnum : M.rnd (max (M.rnd (a.v - p)) a.vmin) = max (M.rnd (a.v - p)) a.vmin := by
    rcases max_choice (M.rnd (a.v - p)) a.vmin with h | h <;> rw [h]
    · exact M.idem _
    · exact nmin
  have hL1 := le_max_right (M.rnd (a.v - p)) a.vmin
  have hL2 := le_max_left (M.rnd (a.v - p)) a.vmin
  have hU1 := min_le_right (M.rnd (a.v + p)) a.vmax
  have hU2 := min_le_left (M.rnd (a.v + p)) a.vmax
  set L := max (M.rnd (a.v - p)) a.vmin
  set U := min (M.rnd (a.v + p)) a.vmax
  obtain ⟨s, s1, s2, s3⟩ := axis_rd (M := M) hB hLnum hLU (by rw [abs_le]; constructor <;> linarith)
    (by rw [abs_le]; constructor <;> linarith) hk
  have hkn : (k : ℝ) + 1 ≤ n.toNat := by exact_mod_cast hk
  have hk0 : (0 : ℝ) ≤ k := by positivity
  have big : (k : ℝ) * (B / 2 ^ 48) + B / 2 ^ 48 ≤ n.toNat * B / 2 ^ 46 := by
    have : ((k : ℝ) + 1) * (B / 2 ^ 48) ≤ n.toNat * (B / 2 ^ 48) :=
      mul_le_mul_of_nonneg_right hkn (by positivity)
    have : (n.toNat : ℝ) * (B / 2 ^ 48) ≤ n.toNat * B / 2 ^ 46 := by
      rw [mul_div_assoc]
      refine mul_le_mul_of_nonneg_left ?_ (by positivity)
      norm_num; linarith
    linarith
  have kb : 0 ≤ (k : ℝ) * (B / 2 ^ 48) := by positivity
  have hb : 0 ≤ B / 2 ^ 48 := by positivity
  have tiny4 : 4 * (B / 2 ^ 52) ≤ B / 2 ^ 48 := by norm_num; linarith
  refine ⟨s, s1, by linarith, by linarith, ?_⟩
  have e1a := e1.1
  have e1b := e1.2
  have e2a := e2.1
  have e3b := e3.2
  rw [show 3 * B / 2 ^ 52 = 3 * (B / 2 ^ 52) by ring] at e2a e3b
  rw [abs_le]
  constructor <;> linarith

/-- C85 as one would like it: with binary64 every sample is within the velocity limits. -/
def C85_statement : Prop :=
  ∀ (d : DynamicWindow (RDbl ieee)) (vb u : V3 (RDbl ieee)) (x y w : AxisNumbers) (B : ℝ),
    WindowNumbers d vb x y w → x.Sane ieee B → y.Sane ieee B → w.Sane ieee B → IsSample d vb u →
    Flt.lt d.max_vel_x u.c0 = false ∧ Flt.lt d.max_vel_y u.c1 = false ∧
      Flt.lt d.max_rot_vel u.c2 = false

/-- C85 (missing: the upper limit is only respected up to a rounding error per sample): with any
rounding to nearest, every sampled twist is finite, not below the lower velocity limits, and above the
upper limits or beyond the accelerations by at most `2^-46` of the velocity bound per sample. -/
theorem C85_within_partial (d : DynamicWindow (RDbl M)) (vb u : V3 (RDbl M)) (x y w : AxisNumbers)
    (B : ℝ) (h : WindowNumbers d vb x y w) (hx : x.Sane M B) (hy : y.Sane M B) (hw : w.Sane M B)
    (hu : IsSample d vb u) :
    x.Admits (d.vx_samples.toNat * B / 2 ^ 46) u.c0 ∧
    y.Admits (d.vy_samples.toNat * B / 2 ^ 46) u.c1 ∧
    w.Admits (d.vth_samples.toNat * B / 2 ^ 46) u.c2 := by
  obtain ⟨i, hi, j, hj, k, hk, rfl⟩ := hu
  have a0 := axis_admits hx hi
  have a1 := axis_admits hy hj
  have a2 := axis_admits hw hk
  rw [← h.vx, ← h.ax, ← h.tx, ← h.minx, ← h.maxx] at a0
  rw [← h.vy, ← h.ay, ← h.ty, ← h.miny, ← h.maxy] at a1
  rw [← h.vw, ← h.aw, ← h.tw, ← h.minw, ← h.maxw] at a2
  exact ⟨a0, a1, a2⟩

/-- C85 (same restriction): what the search returns is such a twist, or it reports failure and
returns zero. -/
theorem C85_result_partial (d : DynamicWindow (RDbl M)) (vb : V3 (RDbl M)) (x y w : AxisNumbers)
    (B : ℝ) (h : WindowNumbers d vb x y w) (hx : x.Sane M B) (hy : y.Sane M B) (hw : w.Sane M B)
    (g : GridMap (RDbl M)) (x0 vref : V3 (RDbl M)) (ref : List (V3 (RDbl M))) (dt_ref : RDbl M)
    (b : Bool) (u : V3 (RDbl M))
    (hc : d.controlTwist g x0 vb vref = .ok (b, u) ∨ d.controlTraj g x0 vb ref dt_ref = .ok (b, u)) :
    (x.Admits (d.vx_samples.toNat * B / 2 ^ 46) u.c0 ∧
      y.Admits (d.vy_samples.toNat * B / 2 ^ 46) u.c1 ∧
      w.Admits (d.vth_samples.toNat * B / 2 ^ 46) u.c2) ∨ (b = false ∧ u = V3.zero) := by
  obtain ⟨cost, hs⟩ : ∃ cost, d.searchWindow vb cost = .ok (b, u) := by
    rcases hc with hc | hc
    · exact ⟨_, hc⟩
    · exact ⟨_, hc⟩
  obtain ⟨m, -, hb, (⟨rfl, rfl⟩ | ⟨-, hu, -⟩)⟩ := searchWindow_spec d vb cost b u hs
  · exact Or.inr ⟨hb.mpr StrictLt.max_close, rfl⟩
  · exact Or.inl (C85_within_partial d vb u x y w B h hx hy hw hu)

/-- A measured velocity within the limits makes a window that is not empty. -/
theorem sane_of_within {a : AxisNumbers} {B : ℝ} (hB : minNormal ≤ B) (hv0 : a.vmin ≤ a.v)
    (hv1 : a.v ≤ a.vmax) (ha0 : 0 ≤ a.acc * a.t) (ha1 : a.acc * a.t ≤ B) (h0 : |a.vmin| ≤ B)
    (h1 : |a.vmax| ≤ B) (n0 : M.rnd a.vmin = a.vmin) (n1 : M.rnd a.vmax = a.vmax) : a.Sane M B := by
  have p0 : 0 ≤ M.rnd (a.acc * a.t) := M.rnd_nonneg ha0
  have ⟨b0, b1⟩ := abs_le.mp h0
  have ⟨c0, c1⟩ := abs_le.mp h1
  refine ⟨hB, abs_le.mpr ⟨by linarith, by linarith⟩, ha0, ha1, h0, h1, n0, hv0.trans hv1, ?_, ?_⟩
  · have := M.mono (show a.v - M.rnd (a.acc * a.t) ≤ a.vmax by linarith)
    rwa [n1] at this
  · have := M.mono (show a.vmin ≤ a.v + M.rnd (a.acc * a.t) by linarith)
    rwa [n0] at this

/-- An axis of the shipped configuration (speed limit 1, acceleration limit 2.5 over 0.2). -/
noncomputable def shippedAxis (M : Machine) (v : ℝ) : AxisNumbers :=
  ⟨v, 5 / 2, M.rnd (1 / 5), -1, 1⟩

theorem shippedAxis_sane {v : ℝ} (h : |v| ≤ 1) : (shippedAxis M v).Sane M 1 := by
  have ⟨h0, h1⟩ := abs_le.mp h
  have p0 : 0 ≤ M.rnd (1 / 5) := M.rnd_nonneg (by norm_num)
  have p1 := (M.err' minNormal_le_one (x := 1 / 5) (by norm_num [abs_of_pos])).2
  refine sane_of_within minNormal_le_one h0 h1 ?_ ?_ ?_ ?_ ?_ ?_
  · exact mul_nonneg (by norm_num [shippedAxis]) p0
  · show 5 / 2 * M.rnd (1 / 5) ≤ 1
    norm_num at p1 ⊢
    linarith
  · show |(-1 : ℝ)| ≤ 1; norm_num
  · show |(1 : ℝ)| ≤ 1; norm_num
  · show M.rnd (-1) = -1; rw [M.neg, M.rnd_one]
  · exact M.rnd_one

/-- A search with the shipped limits of the omni-directional robot in x and y (the rotation like
y), and 3 × 8 × 5 samples. -/
noncomputable def shippedWindow (M : Machine) : DynamicWindow (RDbl M) :=
  { collision := ⟨.nan, .nan, .nan, .nan⟩, dt := lit 1 1, horizon := lit 20 1,
    acc_dt := .fin (M.rnd (1 / 5)), acc_lim_x := .fin (5 / 2), acc_lim_y := .fin (5 / 2),
    acc_lim_th := .fin (5 / 2), max_vel_x := .fin 1, min_vel_x := .fin (-1), max_vel_y := .fin 1,
    min_vel_y := .fin (-1), max_rot_vel := .fin 1, min_rot_vel := .fin (-1), vx_samples := 3,
    vy_samples := 8, vth_samples := 5, steps := 20 }

theorem shipped_numbers (v : ℝ) : WindowNumbers (shippedWindow M) ⟨.fin 0, .fin v, .fin 0⟩
    (shippedAxis M 0) (shippedAxis M v) (shippedAxis M 0) := by
  constructor <;> rfl

/-- The hypotheses hold for the shipped limits. -/
example : WindowNumbers (shippedWindow M) ⟨.fin 0, .fin (1 / 2), .fin 0⟩
    (shippedAxis M 0) (shippedAxis M (1 / 2)) (shippedAxis M 0) ∧ (shippedAxis M 0).Sane M 1 ∧
    (shippedAxis M (1 / 2)).Sane M 1 :=
  ⟨shipped_numbers _, shippedAxis_sane (by norm_num), shippedAxis_sane (by norm_num [abs_of_pos])⟩

theorem ieee_fifth : ieee.rnd (1 / 5) = 3602879701896397 / 2 ^ 54 := by
  show Ieee.rnd _ = _
  rw [Ieee.rnd_eq 7205759403792794 (-55) (by norm_num) (by norm_num [abs_of_pos])
    (by norm_num [abs_of_pos]) (by rw [abs_lt]; constructor <;> norm_num)]
  norm_num

/-- With the shipped limits and a measured sideways velocity of `15/16`, the last of the eight
samples is `1 + 2^-52`. -/
theorem sample_over : stride ((shippedWindow ieee).window ⟨.fin 0, .fin (15 / 16), .fin 0⟩).1.c1
    ((shippedWindow ieee).window ⟨.fin 0, .fin (15 / 16), .fin 0⟩).2.c1 7 =
      .fin (4503599627370497 / 2 ^ 52) := by
  have step : ∀ (x : ℝ) (m e : ℤ), -1074 ≤ e → 0 ≤ x → 2 ^ (52 + e) ≤ x → x < 2 ^ (53 + e) →
      -(2 ^ e / 2) < x - m * 2 ^ e → x - m * 2 ^ e < 2 ^ e / 2 → ieee.rnd x = m * 2 ^ e := by
    intro x m e h0 hx h1 h2 h3 h4
    exact Ieee.rnd_eq m e h0 (by rwa [abs_of_nonneg hx]) (by rwa [abs_of_nonneg hx])
      (abs_lt.mpr ⟨h3, h4⟩)
  have p : ieee.rnd (5 / 2 * ieee.rnd (1 / 5)) = 1 / 2 := by
    rw [ieee_fifth, step _ 4503599627370496 (-53) (by norm_num) (by norm_num) (by norm_num)
      (by norm_num) (by norm_num) (by norm_num)]
    norm_num
  have q : ieee.rnd (15 / 16 - 1 / 2) = 7 / 16 :=
    (Ieee.rnd_rep 7 (-4) (by norm_num) (by norm_num) (by norm_num)).trans (by norm_num)
  have q2 : ieee.rnd (15 / 16 + 1 / 2) = 23 / 16 :=
    (Ieee.rnd_rep 23 (-4) (by norm_num) (by norm_num) (by norm_num)).trans (by norm_num)
  have lo : fmax ((.fin (15 / 16) : RDbl ieee) -. .fin (5 / 2) *. .fin (ieee.rnd (1 / 5))) (.fin (-1)) =
      .fin (7 / 16) := by
    rw [RDbl.mul_fin, p, RDbl.sub_fin, q, fmax_rd, max_eq_left (by norm_num)]
  have up : fmin ((.fin (15 / 16) : RDbl ieee) +. .fin (5 / 2) *. .fin (ieee.rnd (1 / 5))) (.fin 1) =
      .fin 1 := by
    rw [RDbl.mul_fin, p, RDbl.add_fin, q2, fmin_rd, min_eq_right (by norm_num)]
  show stride (fmax ((.fin (15 / 16) : RDbl ieee) -. .fin (5 / 2) *. .fin (ieee.rnd (1 / 5))) (.fin (-1)))
    (DynamicWindow.delta 8
      (fmax ((.fin (15 / 16) : RDbl ieee) -. .fin (5 / 2) *. .fin (ieee.rnd (1 / 5))) (.fin (-1)))
      (fmin ((.fin (15 / 16) : RDbl ieee) +. .fin (5 / 2) *. .fin (ieee.rnd (1 / 5))) (.fin 1))) 7 = _
  rw [lo, up]
  have hd : DynamicWindow.delta 8 (.fin (7 / 16) : RDbl ieee) (.fin 1) =
      .fin (5790342378047781 / 2 ^ 56) := by
    unfold DynamicWindow.delta
    rw [if_pos (show (1 : UInt32) < 8 by decide), show (((8 - 1 : UInt32).toNat : ℕ) : ℤ) = 7 from rfl,
      RDbl.ofInt_fin, ieee.int 7 (by norm_num), RDbl.sub_fin,
      show ieee.rnd (1 - 7 / 16) = 9 / 16 from
        (Ieee.rnd_rep 9 (-4) (by norm_num) (by norm_num) (by norm_num)).trans (by norm_num),
      RDbl.div_fin _ (by norm_num),
      step _ 5790342378047781 (-56) (by norm_num) (by norm_num) (by norm_num) (by norm_num)
        (by norm_num) (by norm_num)]
    norm_num
  rw [hd]
  have add : ∀ (x y : ℝ) (m e : ℤ), -1074 ≤ e → 0 ≤ x → 2 ^ (52 + e) ≤ x + 5790342378047781 / 2 ^ 56 →
      x + 5790342378047781 / 2 ^ 56 < 2 ^ (53 + e) →
      -(2 ^ e / 2) < x + 5790342378047781 / 2 ^ 56 - m * 2 ^ e →
      x + 5790342378047781 / 2 ^ 56 - m * 2 ^ e < 2 ^ e / 2 → y = m * 2 ^ e →
      (.fin x : RDbl ieee) +. .fin (5790342378047781 / 2 ^ 56) = .fin y := by
    intro x y m e h0 hx h1 h2 h3 h4 h5
    rw [RDbl.add_fin, step _ m e h0 (by positivity) h1 h2 h3 h4, h5]
  simp only [stride_succ]
  rw [add (7 / 16) (4664442471205157 / 2 ^ 53) 4664442471205157 (-53) (by norm_num) (by norm_num)
      (by norm_num) (by norm_num) (by norm_num) (by norm_num) (by norm_num),
    add _ (2694117634230565 / 2 ^ 52) 5388235268461130 (-53) (by norm_num) (by norm_num)
      (by norm_num) (by norm_num) (by norm_num) (by norm_num) (by norm_num),
    add _ (6112028065717103 / 2 ^ 53) 6112028065717103 (-53) (by norm_num) (by norm_num)
      (by norm_num) (by norm_num) (by norm_num) (by norm_num) (by norm_num),
    add _ (1708955215743269 / 2 ^ 51) 6835820862973076 (-53) (by norm_num) (by norm_num)
      (by norm_num) (by norm_num) (by norm_num) (by norm_num) (by norm_num),
    add _ (7559613660229049 / 2 ^ 53) 7559613660229049 (-53) (by norm_num) (by norm_num)
      (by norm_num) (by norm_num) (by norm_num) (by norm_num) (by norm_num),
    add _ (4141703228742511 / 2 ^ 52) 8283406457485022 (-53) (by norm_num) (by norm_num)
      (by norm_num) (by norm_num) (by norm_num) (by norm_num) (by norm_num),
    add _ (4503599627370497 / 2 ^ 52) 4503599627370497 (-52) (by norm_num) (by norm_num)
      (by norm_num) (by norm_num) (by norm_num) (by norm_num) (by norm_num)]
  rfl

/-- C85 is false: with the shipped limits of the omni-directional robot a sampled sideways velocity
exceeds the limit. -/
theorem C85_refuted : ¬ C85_statement := by
  intro h
  have := (h (shippedWindow ieee) ⟨.fin 0, .fin (15 / 16), .fin 0⟩ _ _ _ _ 1 (shipped_numbers _)
    (shippedAxis_sane (by norm_num)) (shippedAxis_sane (by norm_num [abs_of_pos]))
    (shippedAxis_sane (by norm_num))
    ⟨0, show 0 < (3 : UInt32).toNat by decide, 7, show 7 < (8 : UInt32).toNat by decide, 0,
      show 0 < (5 : UInt32).toNat by decide, rfl⟩).2.1
  have this : Flt.lt (.fin 1 : RDbl ieee) (stride
      ((shippedWindow ieee).window ⟨.fin 0, .fin (15 / 16), .fin 0⟩).1.c1
      ((shippedWindow ieee).window ⟨.fin 0, .fin (15 / 16), .fin 0⟩).2.c1 7) = false := this
  rw [sample_over, RDbl.lt_fin_false] at this
  norm_num at this

end Ergodic
