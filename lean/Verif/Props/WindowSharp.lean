import Verif.Props.DynamicWindow

/-!
# Property C55: exactly when the dynamic window respects its limits
-/

namespace Ergodic

/-- the two ends of an axis are sampled -/
theorem axis_ends {v a lo hi : ℝ} {n : Nat} (hn : 0 < n) (P : ℝ → Prop) :
    (∀ i < n, P (max (v - a) lo + (min (v + a) hi - max (v - a) lo) * ((i : ℝ) / ((n : ℝ) - 1)))) →
      P (max (v - a) lo) ∧ (1 < n → P (min (v + a) hi)) := by
  intro h
  constructor
  · simpa using h 0 hn
  · intro h1
    have := h (n - 1) (by omega)
    rw [Nat.cast_sub hn, Nat.cast_one, div_self (by
      have : (1 : ℝ) < n := by exact_mod_cast h1
      linarith)] at this
    simpa using this

/-- Everything a property of the three axes needs to be checked on: each axis on its own. -/
theorem axes_of_samples (d : DynamicWindow ℝ) (vb : V3 ℝ) (hx : 0 < d.vx_samples.toNat)
    (hy : 0 < d.vy_samples.toNat) (hw : 0 < d.vth_samples.toNat) (P Q R : ℝ → Prop)
    (h : ∀ u, IsSample d vb u → P u.c0 ∧ Q u.c1 ∧ R u.c2) :
    (P (max (vb.c0 - d.acc_lim_x * d.acc_dt) d.min_vel_x) ∧
      (1 < d.vx_samples.toNat → P (min (vb.c0 + d.acc_lim_x * d.acc_dt) d.max_vel_x))) ∧
    (Q (max (vb.c1 - d.acc_lim_y * d.acc_dt) d.min_vel_y) ∧
      (1 < d.vy_samples.toNat → Q (min (vb.c1 + d.acc_lim_y * d.acc_dt) d.max_vel_y))) ∧
    (R (max (vb.c2 - d.acc_lim_th * d.acc_dt) d.min_rot_vel) ∧
      (1 < d.vth_samples.toNat → R (min (vb.c2 + d.acc_lim_th * d.acc_dt) d.max_rot_vel))) := by
  have key := fun i (hi : i < d.vx_samples.toNat) j (hj : j < d.vy_samples.toNat) k
    (hk : k < d.vth_samples.toNat) =>
    h ⟨_, _, _⟩ ((C55_grid d vb ⟨_, _, _⟩).mpr ⟨i, hi, j, hj, k, hk, rfl, rfl, rfl⟩)
  exact ⟨axis_ends hx P fun i hi => (key i hi 0 hy 0 hw).1,
    axis_ends hy Q fun j hj => (key 0 hx j hj 0 hw).2.1,
    axis_ends hw R fun k hk => (key 0 hx 0 hy k hk).2.2⟩

/-- C55, the exact condition: with limits the right way round, every sampled twist is within the
velocity limits and reachable under the acceleration limits if and only if the measured velocity can
be brought back within the limits in one acceleration step. -/
theorem C55_iff (d : DynamicWindow ℝ) (vb : V3 ℝ) (hx : 0 < d.vx_samples.toNat)
    (hy : 0 < d.vy_samples.toNat) (hw : 0 < d.vth_samples.toNat)
    (lx : d.min_vel_x ≤ d.max_vel_x) (ly : d.min_vel_y ≤ d.max_vel_y) (lw : d.min_rot_vel ≤ d.max_rot_vel)
    (ax : 0 ≤ d.acc_lim_x * d.acc_dt) (ay : 0 ≤ d.acc_lim_y * d.acc_dt) (aw : 0 ≤ d.acc_lim_th * d.acc_dt) :
    (∀ u, IsSample d vb u → WithinLimits d u ∧ Reachable d vb u) ↔ WindowNonempty d vb := by
  refine ⟨fun h => ?_, fun h u hu => C55_within_partial d vb u h hu⟩
  have axis : ∀ v a lo hi : ℝ, 0 ≤ a → lo ≤ hi → ((lo ≤ max (v - a) lo ∧ max (v - a) lo ≤ hi) ∧
      |max (v - a) lo - v| ≤ a) → Recoverable v a lo hi := by
    intro v a lo hi ha hl h
    obtain ⟨⟨-, h1⟩, h2⟩ := h
    rw [max_le_iff] at h1
    have := (abs_le.mp h2).2
    have := le_max_right (v - a) lo
    exact ⟨ha, hl, by linarith, by linarith⟩
  obtain ⟨⟨p, -⟩, ⟨q, -⟩, r, -⟩ := axes_of_samples d vb hx hy hw
    (fun x => (d.min_vel_x ≤ x ∧ x ≤ d.max_vel_x) ∧ |x - vb.c0| ≤ d.acc_lim_x * d.acc_dt)
    (fun x => (d.min_vel_y ≤ x ∧ x ≤ d.max_vel_y) ∧ |x - vb.c1| ≤ d.acc_lim_y * d.acc_dt)
    (fun x => (d.min_rot_vel ≤ x ∧ x ≤ d.max_rot_vel) ∧ |x - vb.c2| ≤ d.acc_lim_th * d.acc_dt)
    (fun u hu => by
      obtain ⟨⟨a, b, c⟩, e, f, g⟩ := h u hu
      exact ⟨⟨a, e⟩, ⟨b, f⟩, c, g⟩)
  exact ⟨axis _ _ _ _ ax lx p, axis _ _ _ _ ay ly q, axis _ _ _ _ aw lw r⟩

/-- on one axis the window does not stick out of the limits -/
def AxisInside (v a lo hi : ℝ) (n : Nat) : Prop := v - a ≤ hi ∧ (n = 1 ∨ lo ≤ v + a)

/-- C55, the exact condition for the velocity limits alone: the measured velocity exceeds the upper
limit by at most one acceleration step, and so below the lower limit, unless the axis has only one
sample, which is never below. -/
theorem C55_limits_iff (d : DynamicWindow ℝ) (vb : V3 ℝ) (hx : 0 < d.vx_samples.toNat)
    (hy : 0 < d.vy_samples.toNat) (hw : 0 < d.vth_samples.toNat)
    (lx : d.min_vel_x ≤ d.max_vel_x) (ly : d.min_vel_y ≤ d.max_vel_y) (lw : d.min_rot_vel ≤ d.max_rot_vel) :
    (∀ u, IsSample d vb u → WithinLimits d u) ↔
      AxisInside vb.c0 (d.acc_lim_x * d.acc_dt) d.min_vel_x d.max_vel_x d.vx_samples.toNat ∧
      AxisInside vb.c1 (d.acc_lim_y * d.acc_dt) d.min_vel_y d.max_vel_y d.vy_samples.toNat ∧
      AxisInside vb.c2 (d.acc_lim_th * d.acc_dt) d.min_rot_vel d.max_rot_vel d.vth_samples.toNat := by
  constructor
  · intro h
    have axis : ∀ (v a lo hi : ℝ) (n : Nat), 0 < n → ((lo ≤ max (v - a) lo ∧ max (v - a) lo ≤ hi) ∧
        (1 < n → lo ≤ min (v + a) hi ∧ min (v + a) hi ≤ hi)) → AxisInside v a lo hi n := by
      intro v a lo hi n hn h
      obtain ⟨⟨-, h1⟩, h2⟩ := h
      refine ⟨(max_le_iff.mp h1).1, ?_⟩
      rcases Nat.lt_or_ge 1 n with h3 | h3
      · exact Or.inr (le_min_iff.mp (h2 h3).1).1
      · exact Or.inl (by omega)
    obtain ⟨p, q, r⟩ := axes_of_samples d vb hx hy hw (fun x => d.min_vel_x ≤ x ∧ x ≤ d.max_vel_x)
      (fun x => d.min_vel_y ≤ x ∧ x ≤ d.max_vel_y) (fun x => d.min_rot_vel ≤ x ∧ x ≤ d.max_rot_vel) h
    exact ⟨axis _ _ _ _ _ hx p, axis _ _ _ _ _ hy q, axis _ _ _ _ _ hw r⟩
  · intro h u hu
    obtain ⟨i, hi, j, hj, k, hk, e0, e1, e2⟩ := (C55_grid d vb u).mp hu
    have axis : ∀ (v a lo hi : ℝ) (n i : Nat) (x : ℝ), i < n → lo ≤ hi → AxisInside v a lo hi n →
        x = max (v - a) lo + (min (v + a) hi - max (v - a) lo) * ((i : ℝ) / ((n : ℝ) - 1)) →
        lo ≤ x ∧ x ≤ hi := by
      intro v a lo hi n i x hin hl h hx
      obtain ⟨h1, h2⟩ := h
      have a1 : lo ≤ max (v - a) lo := le_max_right _ _
      have a2 : max (v - a) lo ≤ hi := max_le h1 hl
      rcases h2 with h2 | h2
      · have : i = 0 := by omega
        subst this
        simp only [Nat.cast_zero, zero_div, mul_zero, add_zero] at hx
        rw [hx]
        exact ⟨a1, a2⟩
      · have b1 : lo ≤ min (v + a) hi := le_min h2 hl
        have b2 : min (v + a) hi ≤ hi := min_le_right _ _
        have hf : 0 ≤ (i : ℝ) / ((n : ℝ) - 1) ∧ (i : ℝ) / ((n : ℝ) - 1) ≤ 1 := by
          have hin : (i : ℝ) + 1 ≤ n := by exact_mod_cast hin
          have hi0 : (0 : ℝ) ≤ i := Nat.cast_nonneg i
          exact ⟨div_nonneg hi0 (by linarith), div_le_one_of_le₀ (by linarith) (by linarith)⟩
        rw [hx]
        generalize (i : ℝ) / ((n : ℝ) - 1) = r at hf
        generalize max (v - a) lo = A at *
        generalize min (v + a) hi = B at *
        constructor <;> nlinarith [hf.1, hf.2]
    obtain ⟨h0, h1, h2⟩ := h
    exact ⟨axis _ _ _ _ _ _ _ hi lx h0 e0, axis _ _ _ _ _ _ _ hj ly h1 e1, axis _ _ _ _ _ _ _ hk lw h2 e2⟩

/-- Too slow by more than one step: all right with one sample, not with three. -/
example : AxisInside (-5) 0.2 (-1) 1 1 ∧ ¬ AxisInside (-5) 0.2 (-1) 1 3 := by
  constructor
  · exact ⟨by norm_num, Or.inl rfl⟩
  · rintro ⟨-, h | h⟩ <;> norm_num at h

/-- the hypotheses are those of the repository's robot -/
example : 0 < (dwaRobot 3 5 0.1).vx_samples.toNat ∧ (dwaRobot 3 5 0.1).min_vel_x ≤ (dwaRobot 3 5 0.1).max_vel_x ∧
    0 ≤ (dwaRobot 3 5 0.1).acc_lim_x * (dwaRobot 3 5 0.1).acc_dt := by
  refine ⟨by simp [dwaRobot], ?_, ?_⟩ <;> norm_num [dwaRobot]

end Ergodic
