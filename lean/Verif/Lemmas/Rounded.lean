import Verif.Spec.Rounded
import Verif.Lemmas.Ieee
import Verif.Lemmas.Real

/-! # Rounding errors -/

namespace Ergodic

theorem minNormal_pos : 0 < minNormal := by unfold minNormal; have := tiny_pos; positivity

namespace Machine
variable (M : Machine)

/-- The error of a number of size `B`. -/
theorem err {x B : ℝ} (hB : minNormal ≤ B) (h : |x| ≤ B) : |M.rnd x - x| ≤ B / 2 ^ 52 := by
  have h1 := M.near x
  unfold minNormal at hB
  have h2 : tiny ≤ B / 2 ^ 53 := by
    rw [le_div_iff₀ (by positivity)]; linarith
  have h3 : |x| / 2 ^ 53 ≤ B / 2 ^ 53 := by
    exact div_le_div_of_nonneg_right h (by positivity)
  calc _ ≤ _ := h1
    _ ≤ B / 2 ^ 53 + B / 2 ^ 53 := add_le_add h3 h2
    _ = B / 2 ^ 52 := by ring

theorem err' {x B : ℝ} (hB : minNormal ≤ B) (h : |x| ≤ B) :
    x - B / 2 ^ 52 ≤ M.rnd x ∧ M.rnd x ≤ x + B / 2 ^ 52 := by
  have := abs_le.mp (M.err hB h)
  constructor <;> linarith [this.1, this.2]

/-- Numbers well inside `[n, n+1)` stay there. -/
theorem floor_rnd {q : ℝ} {n : ℕ} (hn : n < 2 ^ 33) (h0 : (n : ℝ) ≤ q) (h1 : q ≤ n + 15 / 16) :
    (n : ℝ) ≤ M.rnd q ∧ M.rnd q < n + 1 := by
  constructor
  · have := M.mono h0
    rwa [M.rnd_nat (by omega)] at this
  · have hq : |q| ≤ 2 ^ 34 := by
      have : (n : ℝ) < 2 ^ 33 := by exact_mod_cast hn
      rw [abs_of_nonneg (le_trans (by positivity) h0)]
      linarith
    have hm : minNormal ≤ 2 ^ 34 := by
      unfold minNormal
      have := tiny_le 53 (by norm_num)
      calc _ ≤ 2 ^ 53 * (1 / 2 ^ 53 : ℝ) := by
            exact mul_le_mul_of_nonneg_left this (by positivity)
        _ ≤ _ := by norm_num
    have := (M.err' hm hq).2
    norm_num at this
    linarith

end Machine

theorem minNormal_le_one : minNormal ≤ 1 := by
  unfold minNormal
  have := tiny_le 53 (by norm_num)
  calc _ ≤ 2 ^ 53 * (1 / 2 ^ 53 : ℝ) := by
        exact mul_le_mul_of_nonneg_left this (by positivity)
    _ ≤ _ := by norm_num

section cast
variable {M : Machine}

theorem castU32_rd {q : ℝ} {n : ℕ} (hn : n < 2 ^ 32) (h0 : (n : ℝ) ≤ q) (h1 : q < n + 1) :
    castU32 (RDbl.fin q : RDbl M) = .ok (UInt32.ofNat n) := by
  have := castU32_real_of h0 h1 hn
  exact this

theorem castU32_floor_rd {q : ℝ} {n : ℕ} (hn : n < 2 ^ 32) (h0 : (n : ℝ) ≤ q) (h1 : q < n + 1) :
    castU32 (Flt.floor (RDbl.fin q : RDbl M)) = .ok (UInt32.ofNat n) := by
  have hz : ⌊q⌋ = (n : Int) := Int.floor_eq_iff.mpr ⟨by exact_mod_cast h0, by exact_mod_cast h1⟩
  rw [RDbl.floor_fin, hz]
  exact castU32_rd hn (by simp) (by simp)

end cast

/-- The centre of cell `j` of an axis, computed and located again, with rounding. -/
theorem centre_rd (M : Machine) {a r : ℝ} {n j : ℕ} (h : NearOrigin a r n) (hj : j < n)
    (hn : n < 2 ^ 32) :
    (j : ℝ) ≤ M.rnd (M.rnd (M.rnd (M.rnd (M.rnd (j * r) + M.rnd (r / 2)) + a) - a) / r) ∧
    M.rnd (M.rnd (M.rnd (M.rnd (M.rnd (j * r) + M.rnd (r / 2)) + a) - a) / r) < j + 1 := by
  have hr : 0 < r := minNormal_pos.trans_le h.normal
  have hjn : (j : ℝ) + 1 ≤ n := by exact_mod_cast hj
  have hj0 : (0 : ℝ) ≤ j := by positivity
  have ha := abs_nonneg a
  have hjr : 0 ≤ j * r := by positivity
  have hjr' : j * r + r ≤ n * r := by
    have := mul_le_mul_of_nonneg_right hjn hr.le
    linarith
  obtain ⟨B, hBdef⟩ : ∃ B, B = |a| + n * r := ⟨_, rfl⟩
  have hBr : B ≤ 2 ^ 44 * r := hBdef ▸ h.near
  have hrB : r ≤ B := by linarith
  have hB : minNormal ≤ B := h.normal.trans hrB
  have haB := abs_le.mp (show |a| ≤ B by linarith)
  have hB0 : 0 < B := by linarith
  have e1 := M.err' hB (x := j * r) (by rw [abs_of_nonneg hjr]; linarith)
  have e2 := M.err' hB (x := r / 2) (by rw [abs_of_nonneg (by linarith)]; linarith)
  generalize M.rnd (j * r) = t1 at e1 ⊢
  generalize M.rnd (r / 2) = t2 at e2 ⊢
  have e3 := M.err' (show minNormal ≤ 2 * B by linarith) (x := t1 + t2) (by
    rw [abs_le]; constructor <;> linarith [e1.1, e1.2, e2.1, e2.2])
  generalize M.rnd (t1 + t2) = t3 at e3 ⊢
  have e4 := M.err' (show minNormal ≤ 3 * B by linarith) (x := t3 + a) (by
    rw [abs_le]; constructor <;> linarith [e1.1, e1.2, e2.1, e2.2, e3.1, e3.2, haB.1, haB.2])
  generalize M.rnd (t3 + a) = s at e4 ⊢
  have e5 := M.err' (show minNormal ≤ 4 * B by linarith) (x := s - a) (by
    rw [abs_le]
    constructor <;> linarith [e1.1, e1.2, e2.1, e2.2, e3.1, e3.2, e4.1, e4.2, haB.1, haB.2])
  generalize M.rnd (s - a) = d at e5 ⊢
  have hB2 : B / 2 ^ 52 ≤ r / 256 := by
    rw [div_le_div_iff₀ (by positivity) (by positivity)]; linarith
  have d0 : j * r + r / 4 ≤ d := by linarith [e1.1, e2.1, e3.1, e4.1, e5.1]
  have d1 : d ≤ j * r + r * (3 / 4) := by linarith [e1.2, e2.2, e3.2, e4.2, e5.2]
  refine M.floor_rnd (by omega) ?_ ?_
  · rw [le_div_iff₀ hr]; linarith
  · rw [div_le_iff₀ hr]; linarith

/-- A point of an axis, located with rounding. -/
theorem locate_rd (M : Machine) {a r x : ℝ} {n : ℕ} (hr : minNormal ≤ r) (hn : n < 2 ^ 32)
    (h0 : a ≤ x) (h1 : x ≤ a + (n + 1 / 2) * r) :
    ∃ k : ℕ, k ≤ n ∧ (k : ℝ) ≤ M.rnd (M.rnd (x - a) / r) ∧ M.rnd (M.rnd (x - a) / r) < k + 1 ∧
      k * r - r / 2 ^ 17 ≤ x - a ∧ x - a ≤ (k + 1) * r + r / 2 ^ 17 := by
  have hr0 : 0 < r := minNormal_pos.trans_le hr
  have hn' : (n : ℝ) + 1 ≤ 2 ^ 32 := by exact_mod_cast hn
  have hB : minNormal ≤ 2 ^ 32 * r := by linarith
  have hxa : x - a ≤ 2 ^ 32 * r := by
    have := mul_le_mul_of_nonneg_right hn' hr0.le; linarith
  have e1 := M.err' hB (x := x - a) (by rw [abs_of_nonneg (by linarith)]; exact hxa)
  have hd0 : 0 ≤ M.rnd (x - a) := M.rnd_nonneg (by linarith)
  generalize M.rnd (x - a) = d at e1 hd0 ⊢
  have hdq : d / r ≤ n + 3 / 4 := by
    rw [div_le_iff₀ hr0]
    have : 2 ^ 32 * r / 2 ^ 52 ≤ r / 4 := by
      rw [div_le_div_iff₀ (by positivity) (by positivity)]; linarith
    linarith [e1.2]
  have hq0 : 0 ≤ d / r := div_nonneg hd0 hr0.le
  have hm : minNormal ≤ 2 ^ 33 := minNormal_le_one.trans (by norm_num)
  have e2 := M.err' hm (x := d / r) (by rw [abs_of_nonneg hq0]; linarith)
  have hQ0 : 0 ≤ M.rnd (d / r) := M.rnd_nonneg hq0
  generalize hQ : M.rnd (d / r) = Q at e2 hQ0 ⊢
  have hfl := Int.floor_le Q
  have hfl' := Int.lt_floor_add_one Q
  obtain ⟨k, hk⟩ := Int.eq_ofNat_of_zero_le (Int.floor_nonneg.mpr hQ0)
  rw [hk] at hfl hfl'
  rw [Int.cast_natCast] at hfl hfl'
  have hQn : Q < n + 1 := by norm_num at e2; linarith [e2.2]
  refine ⟨k, ?_, hfl, hfl', ?_, ?_⟩
  · have : (k : ℝ) < n + 1 := by linarith
    have : k < n + 1 := by exact_mod_cast this
    omega
  · have h2 : k - 1 / 2 ^ 19 ≤ d / r := by norm_num at e2 ⊢; linarith [e2.2]
    rw [le_div_iff₀ hr0] at h2
    have : 2 ^ 32 * r / 2 ^ 52 = r / 2 ^ 20 := by ring
    rw [this] at e1
    have h3 : (k - 1 / 2 ^ 19) * r = k * r - r / 2 ^ 19 := by ring
    rw [h3] at h2
    have : r / 2 ^ 19 + r / 2 ^ 20 ≤ r / 2 ^ 17 := by norm_num; linarith
    linarith [e1.2]
  · have h2 : d / r ≤ k + 1 + 1 / 2 ^ 19 := by norm_num at e2 ⊢; linarith [e2.1]
    rw [div_le_iff₀ hr0] at h2
    have : 2 ^ 32 * r / 2 ^ 52 = r / 2 ^ 20 := by ring
    rw [this] at e1
    have h3 : ((k : ℝ) + 1 + 1 / 2 ^ 19) * r = (k + 1) * r + r / 2 ^ 19 := by ring
    rw [h3] at h2
    have : r / 2 ^ 19 + r / 2 ^ 20 ≤ r / 2 ^ 17 := by norm_num; linarith
    linarith [e1.1]

end Ergodic
