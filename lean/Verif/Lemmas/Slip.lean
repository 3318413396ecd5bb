import Verif.Spec.Collision

/-!
# Gaps between digital circles

In terms of `m` and `n`, the larger and the smaller absolute coordinate of a cell.
-/

namespace Ergodic

/-- The cell is passed over by circle `s` on its inner and circle `s + 1` on its outer side. -/
def Gap (s m n : Int) : Prop :=
  1 ≤ m ∧ s * s ≤ m * m + n * n - m + (if m = n then 1 else 0) ∧ m * m + n * n + m < (s + 1) * (s + 1)

theorem lt_of_sq_lt {a b : Int} (hb : 0 ≤ b) (h : a * a < b * b) : a < b := by
  by_contra hn
  push Not at hn
  nlinarith

theorem le_of_sq_le' {a b : Int} (hb : 0 ≤ b) (h : a * a ≤ b * b) : a ≤ b := by
  by_contra hn
  push Not at hn
  nlinarith

theorem sq_mono {a b : Int} (ha : 0 ≤ a) (h : a ≤ b) : a * a ≤ b * b := mul_self_le_mul_self ha h

/-- Neighbouring gap cells lie between the same circles. -/
theorem gap_layer {s s' m n m' n' : Int} (hs : 1 ≤ s) (hn : 0 ≤ n) (hmn : n ≤ m) (hn' : 0 ≤ n') (hmn' : n' ≤ m')
    (hm1 : m - 1 ≤ m') (hm2 : m' ≤ m + 1) (hn1 : n - 1 ≤ n') (hn2 : n' ≤ n + 1)
    (h : Gap s m n) (h' : Gap s' m' n') : s' ≤ s := by
  by_contra hlt
  push Not at hlt
  obtain ⟨hm0, a1, a2⟩ := h
  obtain ⟨-, b1, b2⟩ := h'
  have hsm : m ≤ s := by
    have : m * m < (s + 1) * (s + 1) := by nlinarith
    have := lt_of_sq_lt (by omega) this
    omega
  have key : (s + 1) * (s + 1) ≤ s' * s' := sq_mono (by omega) (by omega)
  obtain ⟨d, hd, hd'⟩ : ∃ d : Int, s' * s' ≤ m' * m' + n' * n' - m' + d ∧ (d = 0 ∨ d = 1 ∧ m' = n') := by
    split_ifs at b1 with h0
    · exact ⟨1, b1, .inr ⟨rfl, h0⟩⟩
    · exact ⟨0, b1, .inl rfl⟩
  have hcmp : m * m + n * n + m + 1 ≤ m' * m' + n' * n' - m' + d := by linarith
  obtain h1 | h1 | h1 : m' = m - 1 ∨ m' = m ∨ m' = m + 1 := by omega
  · subst h1
    obtain h2 | h2 | h2 : n' = n - 1 ∨ n' = n ∨ n' = n + 1 := by omega
    all_goals subst h2; ring_nf at hcmp; omega
  · subst h1
    obtain h2 | h2 | h2 : n' = n - 1 ∨ n' = n ∨ n' = n + 1 := by omega
    all_goals subst h2; ring_nf at hcmp; omega
  · subst h1
    obtain h2 | h2 | h2 : n' = n - 1 ∨ n' = n ∨ n' = n + 1 := by omega
    · subst h2; ring_nf at hcmp; omega
    · subst h2; ring_nf at hcmp; omega
    · subst h2
      rcases lt_or_ge (s + 1) s' with h3 | h3
      · have : (s + 2) * (s + 2) ≤ s' * s' := sq_mono (by omega) (by omega)
        have h5 : (s + 1) * (s + 1) + 2 * s + 3 ≤ (m + 1) * (m + 1) + (n + 1) * (n + 1) - (m + 1) + d := by linarith
        have h6 : m * m + n * n + m + 1 + 2 * s + 3 ≤ (m + 1) * (m + 1) + (n + 1) * (n + 1) - (m + 1) + d := by
          linarith
        ring_nf at h6; omega
      · have h4 : s' = s + 1 := by omega
        subst h4
        by_cases he : m = n
        · rw [if_pos he] at a1
          subst he
          have h5 : 3 * m ≤ 2 * s := by ring_nf at a1 b2; omega
          have : (3 * m) * (3 * m) ≤ (2 * s) * (2 * s) := sq_mono (by omega) h5
          nlinarith
        · rw [if_neg he] at a1
          have h5 : 2 * m + n ≤ 2 * s := by ring_nf at a1 b2; omega
          have : (2 * m + n) * (2 * m + n) ≤ (2 * s) * (2 * s) := sq_mono (by omega) h5
          have h6 : n * n ≤ m * n := mul_le_mul_of_nonneg_right hmn hn
          have h7 : 0 ≤ n * n := mul_self_nonneg n
          linarith

/-- No cell further than `c` has a neighbour in the gap between circles `b` and `b + 1`. -/
def Sealed (b c : Int) : Prop :=
  ∀ m n m' n' : Int, 0 ≤ n → n ≤ m → 0 ≤ n' → n' ≤ m' → m' ≤ m + 1 → n' ≤ n + 1 →
    c * c < m' * m' + n' * n' → ¬ Gap b m n

/-- A cell further than `c ≥ b + 3` is no neighbour of a gap between circles `b` and `b + 1`. -/
theorem sealed_three {b c : Int} (hb : 1 ≤ b) (hc : b + 3 ≤ c) : Sealed b c := by
  intro m n m' n' hn hmn hn' hmn' hm2 hn2 h' h
  obtain ⟨-, -, a2⟩ := h
  have h1 : m' * m' + n' * n' ≤ (m + 1) * (m + 1) + (n + 1) * (n + 1) :=
    add_le_add (sq_mono (by omega) hm2) (sq_mono hn' hn2)
  have h2 : (b + 3) * (b + 3) ≤ c * c := sq_mono (by omega) hc
  have h3 : m + n < 2 * (b + 1) := by nlinarith [sq_nonneg (m - n)]
  nlinarith

theorem sealed_two_check : ((List.range 22).all fun b => (List.range 23).all fun m => (List.range 23).all fun n =>
    decide (n ≤ m → 1 ≤ m →
    b * b + m ≤ m * m + n * n + (if m = n then 1 else 0) → m * m + n * n + m < (b + 1) * (b + 1) →
    (m + 1) * (m + 1) + (n + 1) * (n + 1) ≤ (b + 2) * (b + 2))) = true := by decide +kernel

/-- Up to `b = 21` two cells are enough. -/
theorem sealed_two {b c : Int} (hb : 1 ≤ b) (hb' : b ≤ 21) (hc : b + 2 ≤ c) : Sealed b c := by
  intro m n m' n' hn hmn hn' hmn' hm2 hn2 h' h
  obtain ⟨h0, a1, a2⟩ := h
  have h1 : m' * m' + n' * n' ≤ (m + 1) * (m + 1) + (n + 1) * (n + 1) :=
    add_le_add (sq_mono (by omega) hm2) (sq_mono hn' hn2)
  have h2 : (b + 2) * (b + 2) ≤ c * c := sq_mono (by omega) hc
  have hm : m < b + 1 := lt_of_sq_lt (by omega) (by nlinarith)
  lift b to Nat using by omega
  lift m to Nat using by omega
  lift n to Nat using hn
  have hall := sealed_two_check
  simp only [List.all_eq_true, List.mem_range, decide_eq_true_eq] at hall
  have := hall b (by omega) m (by omega) n (by omega) (by omega) (by omega)
    (by zify; split_ifs at a1 ⊢ <;> omega)
    (by zify; exact a2)
  zify at this
  omega

/-- No neighbour of a cell further than `c ≥ b + 2` is inside circle `b`. -/
theorem out_in {b c m n m' n' : Int} (hb : 1 ≤ b) (hc : b + 2 ≤ c) (hn : 0 ≤ n) (hmn : n ≤ m)
    (hn' : 0 ≤ n') (hm2 : m' ≤ m + 1) (hn2 : n' ≤ n + 1) (hmn' : n' ≤ m')
    (h' : c * c < m' * m' + n' * n') : b * b ≤ m * m + n * n + m := by
  by_contra hlt
  push Not at hlt
  have h1 : m' * m' + n' * n' ≤ (m + 1) * (m + 1) + (n + 1) * (n + 1) :=
    add_le_add (sq_mono (by omega) hm2) (sq_mono hn' hn2)
  have h2 : (b + 2) * (b + 2) ≤ c * c := sq_mono (by omega) hc
  have h3 : m < b := lt_of_sq_lt (by omega) (by nlinarith)
  nlinarith

/-- No neighbour of a gap outside circle `b + 1` is inside circle `b`. -/
theorem gap_in {b s m n m' n' : Int} (hb : 1 ≤ b) (hs : b + 1 ≤ s) (hn : 0 ≤ n) (hmn : n ≤ m) (hn' : 0 ≤ n')
    (hm1 : m - 1 ≤ m') (hm2 : m' ≤ m + 1) (hn2 : n' ≤ n + 1) (h' : Gap s m' n') :
    b * b ≤ m * m + n * n + m := by
  by_contra hlt
  push Not at hlt
  obtain ⟨hm0, b1, b2⟩ := h'
  have hmb : m < b := lt_of_sq_lt (by omega) (by nlinarith)
  have h2 : (b + 1) * (b + 1) ≤ s * s := sq_mono (by omega) hs
  have h3 : n' * n' ≤ (n + 1) * (n + 1) := sq_mono hn' hn2
  have h4 : m' * (m' - 1) ≤ (m + 1) * m := mul_le_mul hm2 (by omega) (by omega) (by omega)
  have h5 : (b + 1) * (b + 1) ≤ (m + 1) * (m + 1) + (n + 1) * (n + 1) - (m + 1) + 1 := by
    split_ifs at b1 <;> linarith
  ring_nf at h5 hlt; omega

/-- A cell on none of the circles from `b` to `c` is further than `c`, in a gap outside circle `b`, or inside
circle `b`. -/
theorem unseen_cases {b c x y : Int} (hb : 1 ≤ b) (hbc : b ≤ c)
    (h : ∀ r, b ≤ r → r ≤ c → OnRing r x y → c * c < x * x + y * y) {m n : Int} (hm : m = max |x| |y|)
    (hn : n = min |x| |y|) :
    c * c < m * m + n * n ∨ (∃ s, b ≤ s ∧ Gap s m n) ∨ m * m + n * n + m < b * b := by
  have hn0 : 0 ≤ n := by rw [hn]; exact le_min (abs_nonneg _) (abs_nonneg _)
  have hnm : n ≤ m := by rw [hm, hn]; exact min_le_max
  have hD : m * m + n * n = x * x + y * y := by
    rw [hm, hn, ← abs_mul_abs_self x, ← abs_mul_abs_self y]
    rcases le_total |x| |y| with h0 | h0
    · rw [max_eq_right h0, min_eq_left h0]; ring
    · rw [max_eq_left h0, min_eq_right h0]
  rcases eq_or_lt_of_le (show 0 ≤ m by omega) with h0 | h0
  · right; right
    have : n = 0 := by omega
    subst this; subst h0
    nlinarith
  have hDm : 0 ≤ m * m + n * n - m := by nlinarith
  obtain ⟨s, hs0, hs1, hs2⟩ : ∃ s : Int, 0 ≤ s ∧ s * s ≤ m * m + n * n - m ∧ m * m + n * n - m < (s + 1) * (s + 1) := by
    refine ⟨Nat.sqrt (m * m + n * n - m).toNat, by omega, ?_, ?_⟩
    · have := Nat.sqrt_le (m * m + n * n - m).toNat
      zify at this
      rwa [Int.toNat_of_nonneg hDm] at this
    · have := Nat.lt_succ_sqrt (m * m + n * n - m).toNat
      zify at this
      rwa [Int.toNat_of_nonneg hDm] at this
  by_cases h1 : m * m + n * n + m < (s + 1) * (s + 1)
  · by_cases h2 : b ≤ s
    · exact .inr (.inl ⟨s, h2, h0, by split_ifs <;> omega, h1⟩)
    · right; right
      have := sq_mono (show 0 ≤ s + 1 by omega) (show s + 1 ≤ b by omega)
      omega
  · push Not at h1
    by_cases h2 : b ≤ s + 1
    · by_cases h3 : s + 1 ≤ c
      · by_cases h4 : OnRing (s + 1) x y
        · left; rw [hD]; exact h _ h2 h3 h4
        · have h5 : |x| = |y| ∧ (s + 1) * (s + 1) = 2 * (x * x) - |x| + 1 := by
            by_contra hno
            apply h4
            refine ⟨?_, ?_, fun he hf => hno ⟨he, hf⟩⟩
            · rw [← hm, ← hn]; omega
            · rw [← hm, ← hn]; omega
          obtain ⟨he, hf⟩ := h5
          have hmx : m = |x| := by rw [hm, he, max_self]
          have hnx : n = |x| := by rw [hn, he, min_self]
          have hx2 : x * x = m * m := by rw [hmx, abs_mul_abs_self]
          have hmn : m = n := by rw [hmx, hnx]
          have hms : m ≤ s + 1 := le_of_sq_le' (by omega) (by rw [hf, ← hmx, hx2]; nlinarith)
          refine .inr (.inl ⟨s + 1, h2, h0, ?_, ?_⟩)
          · rw [if_pos hmn, hf, ← hmx, hx2, ← hmn]; omega
          · rw [← hmn]
            rw [← hmx, hx2] at hf
            nlinarith
      · left
        have := sq_mono (show 0 ≤ c by omega) (show c ≤ s by omega)
        omega
    · right; right
      have h3 := sq_mono (show 0 ≤ s + 1 by omega) (show s + 1 ≤ b - 1 by omega)
      have h4 : m ≤ b - 1 := by
        by_contra h5
        have : b * (b - 1) ≤ m * (m - 1) := mul_le_mul (by omega) (by omega) (by omega) (by omega)
        nlinarith
      nlinarith

/-- Further than `c`, or in a gap outside circle `b + 1`. -/
def Kept (b c m n : Int) : Prop := c * c < m * m + n * n ∨ ∃ s, b + 1 ≤ s ∧ Gap s m n

theorem Kept.far {b c m n : Int} (hb : 1 ≤ b) (hc : b + 2 ≤ c) (h : Kept b c m n) :
    (b + 1) * (b + 1) ≤ m * m + n * n := by
  rcases h with h | ⟨s, hs, h0, h1, -⟩
  · have := sq_mono (show 0 ≤ b + 1 by omega) (show b + 1 ≤ c by omega)
    omega
  · have := sq_mono (show 0 ≤ b + 1 by omega) hs
    split_ifs at h1 <;> omega

theorem Kept.step {b c m n m' n' x y : Int} (hb : 1 ≤ b) (hc : b + 2 ≤ c) (hseal : Sealed b c) (h : Kept b c m' n')
    (hm : m = max |x| |y|) (hn : n = min |x| |y|) (hn' : 0 ≤ n') (hmn' : n' ≤ m')
    (hm1 : m - 1 ≤ m') (hm2 : m' ≤ m + 1) (hn1 : n - 1 ≤ n') (hn2 : n' ≤ n + 1)
    (hfree : ∀ r, b ≤ r → r ≤ c → OnRing r x y → c * c < x * x + y * y) : Kept b c m n := by
  have hn0 : 0 ≤ n := by rw [hn]; exact le_min (abs_nonneg _) (abs_nonneg _)
  have hnm : n ≤ m := by rw [hm, hn]; exact min_le_max
  rcases unseen_cases hb (by omega) hfree hm hn with h1 | ⟨s, hs, h1⟩ | h1
  · exact .inl h1
  · rcases h with h | ⟨s', hs', h⟩
    · refine .inr ⟨s, ?_, h1⟩
      by_contra hlt
      have : s = b := by omega
      subst this
      exact hseal m n m' n' hn0 hnm hn' hmn' hm2 hn2 h h1
    · exact .inr ⟨s, hs'.trans (gap_layer (by omega) hn0 hnm hn' hmn' hm1 hm2 hn1 hn2 h1 h), h1⟩
  · exfalso
    rcases h with h | ⟨s', hs', h⟩
    · have := out_in hb hc hn0 hnm hn' hm2 hn2 hmn' h
      omega
    · have := gap_in hb hs' hn0 hnm hn' hm1 hm2 hn2 h
      omega

/-- The larger and the smaller absolute coordinate change by at most one in a king's move. -/
theorem king_max_min {x y x' y' : Int} (hx : |x - x'| ≤ 1) (hy : |y - y'| ≤ 1) :
    max |x| |y| - 1 ≤ max |x'| |y'| ∧ max |x'| |y'| ≤ max |x| |y| + 1 ∧
    min |x| |y| - 1 ≤ min |x'| |y'| ∧ min |x'| |y'| ≤ min |x| |y| + 1 := by
  rw [abs_le] at hx hy
  have a1 : |x| ≤ |x'| + 1 := by rw [abs_le]; constructor <;> cases abs_cases x' <;> omega
  have a2 : |x'| ≤ |x| + 1 := by rw [abs_le]; constructor <;> cases abs_cases x <;> omega
  have a3 : |y| ≤ |y'| + 1 := by rw [abs_le]; constructor <;> cases abs_cases y' <;> omega
  have a4 : |y'| ≤ |y| + 1 := by rw [abs_le]; constructor <;> cases abs_cases y <;> omega
  omega

theorem max_min_sq (x y : Int) : max |x| |y| * max |x| |y| + min |x| |y| * min |x| |y| = x * x + y * y := by
  rw [← abs_mul_abs_self x, ← abs_mul_abs_self y]
  rcases le_total |x| |y| with h0 | h0
  · rw [max_eq_right h0, min_eq_left h0]; ring
  · rw [max_eq_left h0, min_eq_right h0]

end Ergodic
