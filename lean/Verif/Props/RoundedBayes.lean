import Verif.Props.RoundedMap
import Verif.Lemmas.Ieee
import Mathlib.Analysis.Complex.ExponentialBounds

/-!
# Property C84: the stored map values with rounding

With a library whose `log` and `exp` are right to forty bits, what `updateCell` stores is the Bayes
posterior of C34 in percent, rounded down, except that a posterior that is a whole percentage may
come out one less.
-/

namespace Ergodic

variable {M : Machine}

/-- `log` and `exp` are right to forty bits. -/
structure Accurate (M : Machine) : Prop where
  log : ∀ x, 0 < x → |M.log x - Real.log x| ≤ (|Real.log x| + 1) / 2 ^ 40
  exp : ∀ x, |x| ≤ 400 → |M.exp x - Real.exp x| ≤ Real.exp x / 2 ^ 40

/-- The logarithm of a ratio close to one. -/
theorem abs_log_le {t e : ℝ} (h : |t - 1| ≤ e) (he : e ≤ 1 / 2) : |Real.log t| ≤ 2 * e := by
  have ⟨h0, h1⟩ := abs_le.mp h
  have ht : 0 < t := by linarith
  have he0 : 0 ≤ e := (abs_nonneg _).trans h
  rw [abs_le]
  constructor
  · have := Real.one_sub_inv_le_log_of_pos ht
    have : t⁻¹ ≤ 1 + 2 * e := by
      rw [inv_le_comm₀ ht (by linarith)]
      calc (1 + 2 * e)⁻¹ ≤ 1 - e := by
            rw [inv_le_iff_one_le_mul₀ (by linarith)]; nlinarith
        _ ≤ t := by linarith
    linarith
  · have := Real.log_le_sub_one_of_pos ht
    linarith

/-- The log-odds of a probability known to the last bits. -/
theorem logOdds_err (hM : Accurate M) {P p : ℝ} (h0 : 1 / 100 ≤ P) (h1 : P ≤ 99 / 100)
    (hp : |p - P| ≤ 1 / 2 ^ 52) :
    ∃ l : ℝ, prob2LogOdds (.fin p : RDbl M) = .fin l ∧ |l - Real.log (P / (1 - P))| ≤ 1 / 2 ^ 26 ∧
      |l| ≤ 101 := by
  have hm : minNormal ≤ 1 := minNormal_le_one
  have ⟨p0, p1⟩ := abs_le.mp hp
  norm_num at p0 p1
  obtain ⟨e1, hq0⟩ := prob2LogOdds_rd (M := M) (p := p) (by linarith) (by linarith)
  refine ⟨_, e1, ?_⟩
  have ed := M.err' hm (x := 1 - p) (by rw [abs_le]; constructor <;> linarith)
  norm_num at ed
  set d := M.rnd (1 - p)
  have d0 : 9 / 1000 ≤ d := by linarith [ed.1]
  have d1 : d ≤ 1 := by linarith [ed.2]
  have hdp : 0 < d := by linarith
  have hR : 0 < P / (1 - P) := div_pos (by linarith) (by linarith)
  have hPp : (0:ℝ) < 1 - P := by linarith
  -- the quotient
  have hq1 : |p / d| ≤ 128 := by
    rw [abs_of_pos (div_pos (by linarith) hdp), div_le_iff₀ hdp]; linarith
  have eq := M.err' (show minNormal ≤ 128 by linarith) hq1
  norm_num at eq
  set q := M.rnd (p / d)
  have hq128 : q ≤ 256 := by
    have := (abs_le.mp hq1).2
    linarith [eq.2]
  have hql : 1 / 200 ≤ q := by
    have : 9 / 1000 ≤ p / d := by rw [le_div_iff₀ hdp]; nlinarith
    linarith [eq.1]
  -- q d (1-P) / P close to 1
  have key : |q / (P / (1 - P)) - 1| ≤ 1 / 2 ^ 28 := by
    rw [div_div_eq_mul_div, abs_le]
    have a1 : |q - p / d| ≤ 1 / 2 ^ 45 := by
      rw [abs_le]; norm_num; constructor <;> linarith [eq.1, eq.2]
    have a2 : |p / d - P / (1 - P)| ≤ 1 / 2 ^ 36 := by
      rw [div_sub_div _ _ hdp.ne' hPp.ne', abs_div, div_le_iff₀ (abs_pos.mpr (by positivity)),
        abs_of_pos (show 0 < d * (1 - P) by positivity)]
      have b1 : |p * (1 - P) - d * P| ≤ 1 / 2 ^ 50 := by
        have : p * (1 - P) - d * P = (p - P) * (1 - P) - (d - (1 - P)) * P := by ring
        rw [this]
        have c1 : |(p - P) * (1 - P)| ≤ 1 / 2 ^ 52 * 1 := by
          rw [abs_mul]
          exact mul_le_mul hp (by rw [abs_of_pos hPp]; linarith) (abs_nonneg _) (by positivity)
        have c2 : |(d - (1 - P)) * P| ≤ 1 / 2 ^ 51 * 1 := by
          rw [abs_mul]
          refine mul_le_mul ?_ (by rw [abs_of_pos (by linarith)]; linarith) (abs_nonneg _)
            (by positivity)
          rw [abs_le]; norm_num
          constructor <;> linarith [ed.1, ed.2]
        have := abs_add_le ((p - P) * (1 - P)) (-((d - (1 - P)) * P))
        rw [abs_neg, ← sub_eq_add_neg] at this
        norm_num [-abs_mul] at c1 c2 ⊢
        linarith
      refine b1.trans ?_
      have : (9 / 1000 : ℝ) * (1 / 100) ≤ d * (1 - P) :=
        mul_le_mul d0 (by linarith) (by norm_num) hdp.le
      norm_num at this ⊢
      linarith
    have a3 : |q - P / (1 - P)| ≤ 1 / 2 ^ 35 := by
      have := abs_sub_le q (p / d) (P / (1 - P))
      norm_num at a1 a2 ⊢
      linarith
    have hP : (0:ℝ) < P := by linarith
    have e : q * (1 - P) / P - 1 = (q - P / (1 - P)) * ((1 - P) / P) := by
      field_simp
    have g : (1 - P) / P ≤ 99 := by rw [div_le_iff₀ hP]; linarith
    have g0 : 0 ≤ (1 - P) / P := by positivity
    have := mul_le_mul a3 (show |(1 - P) / P| ≤ 99 by rwa [abs_of_nonneg g0]) (abs_nonneg _)
      (by positivity)
    rw [← abs_mul, ← e] at this
    have := abs_le.mp this
    norm_num at this ⊢
    constructor <;> linarith [this.1, this.2]
  have hlog := abs_log_le key (by norm_num)
  rw [Real.log_div hq0.ne' hR.ne'] at hlog
  have hl := hM.log q hq0
  have hlq : |Real.log q| ≤ 256 := by
    rw [abs_le]
    have := Real.one_sub_inv_le_log_of_pos hq0
    have := Real.log_le_sub_one_of_pos hq0
    have : q⁻¹ ≤ 200 := by
      rw [inv_le_comm₀ hq0 (by norm_num)]; norm_num at hql ⊢; linarith
    constructor <;> linarith
  have hlR : |Real.log (P / (1 - P))| ≤ 100 := by
    have r0 : 1 / 99 ≤ P / (1 - P) := by rw [le_div_iff₀ hPp]; linarith
    have r1 : P / (1 - P) ≤ 99 := by rw [div_le_iff₀ hPp]; linarith
    rw [abs_le]
    have := Real.one_sub_inv_le_log_of_pos hR
    have := Real.log_le_sub_one_of_pos hR
    have : (P / (1 - P))⁻¹ ≤ 99 := by
      rw [inv_le_comm₀ hR (by norm_num)]; norm_num at r0 ⊢; linarith
    constructor <;> linarith
  have fin : |M.log q - Real.log (P / (1 - P))| ≤ 1 / 2 ^ 26 := by
    have := abs_sub_le (M.log q) (Real.log q) (Real.log (P / (1 - P)))
    have : (|Real.log q| + 1) / 2 ^ 40 ≤ 257 / 2 ^ 40 := by
      apply div_le_div_of_nonneg_right (by linarith) (by positivity)
    norm_num at *
    linarith
  refine ⟨fin, ?_⟩
  have h3 := abs_add_le (M.log q - Real.log (P / (1 - P))) (Real.log (P / (1 - P)))
  rw [sub_add_cancel] at h3
  norm_num at fin
  linarith

/-- From the log-odds to the stored number. -/
theorem stored_err (hM : Accurate M) {O L : ℝ} (hO : 0 < O) (hL : |L| ≤ 400)
    (h : |L - Real.log O| ≤ 1 / 2 ^ 24) :
    |M.rnd (M.rnd (1 - M.rnd (1 / M.rnd (1 + M.exp L))) * 100) - 100 * (O / (1 + O))| ≤ 1 / 2 ^ 13 := by
  have hm : minNormal ≤ 1 := minNormal_le_one
  -- exp
  have e1 : |Real.exp L - O| ≤ O / 2 ^ 23 := by
    have : Real.exp L = O * Real.exp (L - Real.log O) := by
      rw [Real.exp_sub, Real.exp_log hO]; field_simp
    rw [this, show O * Real.exp (L - Real.log O) - O = O * (Real.exp (L - Real.log O) - 1) by ring,
      abs_mul, abs_of_pos hO, div_eq_mul_inv]
    refine mul_le_mul_of_nonneg_left ?_ hO.le
    refine (Real.abs_exp_sub_one_le (h.trans (by norm_num))).trans ?_
    norm_num at h ⊢
    linarith
  have e2 := hM.exp L hL
  set E := M.exp L
  have e3 : |E - O| ≤ O / 2 ^ 22 := by
    have a := abs_sub_le E (Real.exp L) O
    have b : Real.exp L ≤ 2 * O := by
      have := (abs_le.mp e1).2
      have : O / 2 ^ 23 ≤ O := div_le_self hO.le (by norm_num)
      linarith
    have c : Real.exp L / 2 ^ 40 ≤ 2 * O / 2 ^ 40 := div_le_div_of_nonneg_right b (by positivity)
    have d : O / 2 ^ 23 + 2 * O / 2 ^ 40 ≤ O / 2 ^ 22 := by
      norm_num; linarith
    linarith
  have hE : 0 < E := by
    have := (abs_le.mp e3).1
    have : O / 2 ^ 22 < O := div_lt_self hO (by norm_num)
    linarith
  -- 1 + E
  have e4 := M.err (B := 1 + E) (x := 1 + E) (by linarith) (by rw [abs_of_pos (by linarith)])
  have u0 : 1 ≤ M.rnd (1 + E) := by
    have := M.mono (show 1 ≤ 1 + E by linarith)
    rwa [M.rnd_one] at this
  set u := M.rnd (1 + E)
  have e5 : |u - (1 + O)| ≤ (1 + O) / 2 ^ 20 := by
    have a := abs_sub_le u (1 + E) (1 + O)
    rw [show 1 + E - (1 + O) = E - O by ring] at a
    have : E ≤ 2 * O := by
      have := (abs_le.mp e3).2
      have : O / 2 ^ 22 ≤ O := div_le_self hO.le (by norm_num)
      linarith
    have b : (1 + E) / 2 ^ 52 ≤ (1 + 2 * O) / 2 ^ 52 :=
      div_le_div_of_nonneg_right (by linarith) (by positivity)
    have c : (1 + 2 * O) / 2 ^ 52 + O / 2 ^ 22 ≤ (1 + O) / 2 ^ 20 := by norm_num; linarith
    linarith
  have e6 : |1 / u - 1 / (1 + O)| ≤ 1 / 2 ^ 20 := by
    have hO1 : (0:ℝ) < 1 + O := by linarith
    have hu : (0:ℝ) < u := by linarith
    rw [div_sub_div _ _ hu.ne' hO1.ne', abs_div, abs_of_pos (mul_pos hu hO1),
      div_le_iff₀ (mul_pos hu hO1), show 1 * (1 + O) - u * 1 = -(u - (1 + O)) by ring, abs_neg]
    refine e5.trans ?_
    rw [div_eq_mul_inv, mul_comm, one_div]
    refine mul_le_mul_of_nonneg_left ?_ (by positivity)
    nlinarith
  have hv := M.err' hm (x := 1 / u) (by
    rw [abs_of_pos (by positivity), div_le_one (by linarith)]; exact u0)
  have v0 : 0 ≤ M.rnd (1 / u) := M.rnd_nonneg (by positivity)
  have v1 : M.rnd (1 / u) ≤ 1 := by
    have := M.mono (show 1 / u ≤ 1 by rw [div_le_one (by linarith)]; exact u0)
    rwa [M.rnd_one] at this
  set v := M.rnd (1 / u)
  have hw := M.err' hm (x := 1 - v) (by rw [abs_le]; constructor <;> linarith)
  have w0 : 0 ≤ M.rnd (1 - v) := M.rnd_nonneg (by linarith)
  have w1 : M.rnd (1 - v) ≤ 1 := by
    have := M.mono (show 1 - v ≤ 1 by linarith)
    rwa [M.rnd_one] at this
  set w := M.rnd (1 - v)
  have hz := M.err' (show minNormal ≤ 100 by linarith) (x := w * 100) (by
    rw [abs_of_nonneg (by positivity)]; linarith)
  have hO2 : O / (1 + O) = 1 - 1 / (1 + O) := by
    have : (1 + O) ≠ 0 := by linarith
    field_simp
    ring
  rw [hO2, abs_le]
  have ⟨a, b⟩ := abs_le.mp e6
  norm_num at *
  constructor <;> linarith [hz.1, hz.2, hw.1, hw.2, hv.1, hv.2]

/-- A number within `2^-13` of a quotient with a small denominator. -/
theorem floor_near {n d : ℤ} (hd : 0 < d) (hd1 : d ≤ 2 ^ 12) {z : ℝ}
    (h : |z - (n : ℝ) / d| ≤ 1 / 2 ^ 13) :
    ⌊z⌋ = n / d ∨ (d ∣ n ∧ ⌊z⌋ = n / d - 1) := by
  have ⟨h0, h1⟩ := abs_le.mp h
  have hdR : (0:ℝ) < d := by exact_mod_cast hd
  have hd1R : (d:ℝ) ≤ 2 ^ 12 := by exact_mod_cast hd1
  have hdm := Int.mul_ediv_add_emod n d
  have hm0 := Int.emod_nonneg n hd.ne'
  have hm1 := Int.emod_lt_of_pos n hd
  have e : (n : ℝ) / d = ((n / d : ℤ) : ℝ) + ((n % d : ℤ) : ℝ) / d := by
    have : (n : ℝ) = d * ((n / d : ℤ) : ℝ) + ((n % d : ℤ) : ℝ) := by exact_mod_cast hdm.symm
    rw [div_eq_iff hdR.ne', add_mul, div_mul_cancel₀ _ hdR.ne']; linarith
  rw [e] at h0 h1
  have inv : (1 : ℝ) / 2 ^ 12 ≤ 1 / d := one_div_le_one_div_of_le hdR hd1R
  have top : ((n % d : ℤ) : ℝ) / d ≤ 1 - 1 / 2 ^ 12 := by
    have : ((n % d : ℤ) : ℝ) ≤ d - 1 := by
      have : n % d ≤ d - 1 := by omega
      exact_mod_cast this
    calc _ ≤ ((d : ℝ) - 1) / d := div_le_div_of_nonneg_right this hdR.le
      _ = 1 - 1 / d := by field_simp
      _ ≤ _ := by linarith
  by_cases hz : n % d = 0
  · rw [hz] at h0 h1
    simp only [Int.cast_zero, zero_div, add_zero] at h0 h1
    by_cases hc : ((n / d : ℤ) : ℝ) ≤ z
    · left
      rw [Int.floor_eq_iff]
      norm_num at h1
      exact ⟨hc, by linarith⟩
    · right
      refine ⟨Int.dvd_of_emod_eq_zero hz, ?_⟩
      rw [Int.floor_eq_iff]
      push_cast
      norm_num at h0
      push Not at hc
      constructor <;> linarith
  · left
    have : (1 : ℝ) ≤ ((n % d : ℤ) : ℝ) := by
      have : 1 ≤ n % d := by omega
      exact_mod_cast this
    have bot : 1 / 2 ^ 12 ≤ ((n % d : ℤ) : ℝ) / d :=
      inv.trans (div_le_div_of_nonneg_right this hdR.le)
    rw [Int.floor_eq_iff]
    norm_num at h0 h1 top bot
    constructor <;> linarith

theorem lit_err (M : Machine) (m : Int) (e : Nat) (h0 : 0 ≤ (m : ℝ) / 10 ^ e)
    (h1 : (m : ℝ) / 10 ^ e ≤ 1) : |M.rnd ((m : ℝ) / 10 ^ e) - (m : ℝ) / 10 ^ e| ≤ 1 / 2 ^ 52 :=
  M.err minNormal_le_one (by rw [abs_of_nonneg h0]; exact h1)

/-- What is stored for a cell of `c` percent, and evidence of probability `S`. -/
theorem observe_err (hM : Accurate M) (Tbs : M3 (RDbl M)) {c : Int8} (h0 : 1 ≤ c.toInt)
    (h1 : c.toInt ≤ 99) {m : Int} {e : Nat} (hS0 : (1 / 100 : ℝ) ≤ (m : ℝ) / 10 ^ e)
    (hS1 : (m : ℝ) / 10 ^ e ≤ 99 / 100) :
    ∃ v z, observe (OccupancyMapper.new Tbs) (prob2LogOdds (lit m e)) c = .ok v ∧ v.toInt = ⌊z⌋ ∧
      |z - 100 * posterior ((c.toInt : ℝ) / 100) ((m : ℝ) / 10 ^ e)| ≤ 1 / 2 ^ 13 := by
  have hm : minNormal ≤ 1 := minNormal_le_one
  have c0 : (1 : ℝ) ≤ c.toInt := by exact_mod_cast h0
  have c1 : (c.toInt : ℝ) ≤ 99 := by exact_mod_cast h1
  set P : ℝ := (c.toInt : ℝ) / 100 with hP
  set S : ℝ := (m : ℝ) / 10 ^ e with hS
  have P0 : 1 / 100 ≤ P := by rw [hP]; linarith
  have P1 : P ≤ 99 / 100 := by rw [hP]; linarith
  obtain ⟨l1, e1, b1, g1⟩ := logOdds_err hM (p := M.rnd P) P0 P1
    (M.err hm (by rw [abs_of_pos (by linarith)]; linarith))
  obtain ⟨l2, e2, b2, g2⟩ := logOdds_err hM (p := M.rnd S) hS0 hS1
    (M.err hm (by rw [abs_of_pos (by linarith)]; linarith))
  obtain ⟨l3, e3, b3, g3⟩ := logOdds_err hM (P := 1 / 2) (p := M.rnd ((5 : Int) / 10 ^ 1))
    (by norm_num) (by norm_num) (by
      have := lit_err M 5 1 (by norm_num) (by norm_num)
      norm_num at this ⊢; exact this)
  rw [show (1 / 2 / (1 - 1 / 2) : ℝ) = 1 by norm_num, Real.log_one, sub_zero] at b3
  have hpr : (OccupancyMapper.new Tbs).log_odds_prior = .fin l3 := e3
  have f1 := M.err' (show minNormal ≤ 512 by linarith) (x := l1 + l2) (by
    have := abs_add_le l1 l2; linarith)
  set s1 := M.rnd (l1 + l2)
  have ⟨g1a, g1b⟩ := abs_le.mp g1
  have ⟨g2a, g2b⟩ := abs_le.mp g2
  have ⟨g3a, g3b⟩ := abs_le.mp g3
  have ⟨b1a, b1b⟩ := abs_le.mp b1
  have ⟨b2a, b2b⟩ := abs_le.mp b2
  have ⟨b3a, b3b⟩ := abs_le.mp b3
  norm_num at f1
  have f2 := M.err' (show minNormal ≤ 512 by linarith) (x := s1 - l3) (by
    rw [abs_le]; constructor <;> linarith [f1.1, f1.2])
  set L := M.rnd (s1 - l3) with hL
  norm_num at f2
  have P' : (0:ℝ) < 1 - P := by linarith
  have S' : (0:ℝ) < 1 - S := by linarith
  have hO1 : 0 < P / (1 - P) := div_pos (by linarith) P'
  have hO2 : 0 < S / (1 - S) := div_pos (by linarith) S'
  have hst := stored_err hM (O := P / (1 - P) * (S / (1 - S))) (L := L) (mul_pos hO1 hO2) (by
    rw [abs_le]; constructor <;> linarith [f1.1, f1.2, f2.1, f2.2]) (by
    rw [Real.log_mul hO1.ne' hO2.ne', abs_le]
    norm_num at b1a b1b b2a b2b b3a b3b ⊢
    constructor <;> linarith [f1.1, f1.2, f2.1, f2.2])
  have hpost : P / (1 - P) * (S / (1 - S)) / (1 + P / (1 - P) * (S / (1 - S))) = posterior P S := by
    unfold posterior
    have : P * S + (1 - P) * (1 - S) ≠ 0 := by
      have := mul_pos (show 0 < P by linarith) (show 0 < S by linarith)
      have := mul_pos P' S'
      linarith
    have h2 : 1 + P / (1 - P) * (S / (1 - S)) = (P * S + (1 - P) * (1 - S)) / ((1 - P) * (1 - S)) := by
      field_simp; ring
    rw [h2]
    field_simp
  rw [hpost] at hst
  obtain ⟨z, z0, z1, hz, ez⟩ := logOdds2Prob_rd (M := M) L
  obtain ⟨v, hv1, hv2, _⟩ := castI8_rd (M := M) z0 z1
  refine ⟨v, z, ?_, hv2, by rw [ez]; exact hst⟩
  unfold observe
  rw [percent_rd (by omega) (by omega), hpr, RDbl.lit_fin, e1, e2, RDbl.add_fin, RDbl.sub_fin, hz, hv1]

theorem occ_quot {c : Int} (h0 : 0 ≤ c) :
    100 * posterior ((c : ℝ) / 100) 0.9 = ((900 * c : Int) : ℝ) / ((100 + 8 * c : Int) : ℝ) := by
  have : (0 : ℝ) ≤ c := by exact_mod_cast h0
  unfold posterior
  push_cast
  rw [show (c : ℝ) / 100 * 0.9 + (1 - c / 100) * (1 - 0.9) = (100 + 8 * c) / 1000 by ring]
  field_simp
  ring

theorem free_quot {c : Int} (h0 : 0 ≤ c) (h1 : c ≤ 100) :
    100 * posterior ((c : ℝ) / 100) 0.35 = ((700 * c : Int) : ℝ) / ((1300 - 6 * c : Int) : ℝ) := by
  have : (0 : ℝ) ≤ c := by exact_mod_cast h0
  have : (c : ℝ) ≤ 100 := by exact_mod_cast h1
  have : (1300 - 6 * c : ℝ) ≠ 0 := by linarith
  unfold posterior
  push_cast
  rw [show (c : ℝ) / 100 * 0.35 + (1 - c / 100) * (1 - 0.35) = (1300 - 6 * c) / 2000 by ring]
  field_simp
  ring

/-- The stored value is the percentage `x` rounded down, or one less if `x` is a whole number. -/
def RoundsDown (x : ℝ) (v : Int) : Prop := v = ⌊x⌋ ∨ ((⌊x⌋ : ℝ) = x ∧ v = ⌊x⌋ - 1)

theorem roundsDown_of {n d : ℤ} (hd : 0 < d) (hd1 : d ≤ 2 ^ 12) {x z : ℝ} (hx : x = (n : ℝ) / d)
    (h : |z - x| ≤ 1 / 2 ^ 13) : RoundsDown x ⌊z⌋ := by
  have hf : ⌊x⌋ = n / d := by
    rw [hx]
    have := Rat.floor_intCast_div_natCast n d.toNat
    have hdd : (d.toNat : ℤ) = d := Int.toNat_of_nonneg hd.le
    have h2 : ⌊((n : ℝ) / (d.toNat : ℝ))⌋ = n / (d.toNat : ℤ) := by
      exact_mod_cast Rat.floor_cast (α := ℝ) ((n : ℚ) / (d.toNat : ℚ)) ▸ this
    rwa [hdd, show ((d.toNat : ℕ) : ℝ) = (d : ℝ) by exact_mod_cast hdd] at h2
  subst hx
  rcases floor_near hd hd1 h with h1 | ⟨hdvd, h1⟩
  · exact .inl (by rw [h1, hf])
  · refine .inr ⟨?_, by rw [h1, hf]⟩
    rw [hf]
    obtain ⟨k, rfl⟩ := hdvd
    have hdR : (d:ℝ) ≠ 0 := by exact_mod_cast hd.ne'
    rw [Int.mul_ediv_cancel_left _ hd.ne']
    push_cast
    field_simp

theorem posterior_ends (s : ℝ) (h0 : 0 < s) {c : Int} (h : c = 0 ∨ c = 100) :
    ⌊100 * posterior ((c : ℝ) / 100) s⌋ = c := by
  rcases h with rfl | rfl
  · simp [posterior]
  · have : posterior (((100 : ℤ) : ℝ) / 100) s = 1 := by
      unfold posterior
      norm_num
      exact h0.ne'
    rw [this]
    norm_num

theorem occ_whole (c : Int) (h0 : 1 ≤ c) (h1 : c ≤ 99) (hd : 100 + 8 * c ∣ 900 * c) :
    c < 900 * c / (100 + 8 * c) := by
  interval_cases c <;> omega

theorem observe_occ_rd (hM : Accurate M) (Tbs : M3 (RDbl M)) {c : Int8} (h0 : 0 ≤ c.toInt)
    (h1 : c.toInt ≤ 100) :
    ∃ v, observe (OccupancyMapper.new Tbs) (OccupancyMapper.new Tbs).log_odds_occ c = .ok v ∧
      RoundsDown (100 * posterior ((c.toInt : ℝ) / 100) 0.9) v.toInt ∧ c.toInt ≤ v.toInt := by
  by_cases hend : c.toInt = 0 ∨ c.toInt = 100
  · obtain ⟨p, o, f, _, ho, _⟩ := mapper_fin Tbs
    rw [ho]
    exact ⟨c, observe_ends Tbs o c hend, .inl (posterior_ends _ (by norm_num) hend).symm, le_rfl⟩
  · obtain ⟨v, z, e1, e2, e3⟩ := observe_err hM Tbs (c := c) (by omega) (by omega) (m := 90) (e := 2)
      (by norm_num) (by norm_num)
    rw [show (((90 : ℤ) : ℝ) / 10 ^ 2) = 0.9 by norm_num] at e3
    refine ⟨v, e1, ?_, ?_⟩
    · rw [e2]
      exact roundsDown_of (by omega) (by norm_num; omega) (occ_quot h0) e3
    · rw [occ_quot h0] at e3
      rcases floor_near (by omega) (by norm_num; omega) e3 with h | ⟨hd, h⟩
      · rw [e2, h]; exact (occStep_range h0 h1).1
      · rw [e2, h]
        have := occ_whole c.toInt (by omega) (by omega) hd
        omega

theorem observe_free_rd (hM : Accurate M) (Tbs : M3 (RDbl M)) {c : Int8} (h0 : 0 ≤ c.toInt)
    (h1 : c.toInt ≤ 100) :
    ∃ v, observe (OccupancyMapper.new Tbs) (OccupancyMapper.new Tbs).log_odds_free c = .ok v ∧
      RoundsDown (100 * posterior ((c.toInt : ℝ) / 100) 0.35) v.toInt ∧ v.toInt ≤ c.toInt := by
  by_cases hend : c.toInt = 0 ∨ c.toInt = 100
  · obtain ⟨p, o, f, _, _, hf⟩ := mapper_fin Tbs
    rw [hf]
    exact ⟨c, observe_ends Tbs f c hend, .inl (posterior_ends _ (by norm_num) hend).symm, le_rfl⟩
  · obtain ⟨v, z, e1, e2, e3⟩ := observe_err hM Tbs (c := c) (by omega) (by omega) (m := 35) (e := 2)
      (by norm_num) (by norm_num)
    rw [show (((35 : ℤ) : ℝ) / 10 ^ 2) = 0.35 by norm_num] at e3
    refine ⟨v, e1, ?_, ?_⟩
    · rw [e2]
      exact roundsDown_of (by omega) (by norm_num; omega) (free_quot h0 h1) e3
    · have := (freeStep_range h0 h1).2
      unfold freeStep at this
      rw [free_quot h0 h1] at e3
      rcases floor_near (by omega) (by norm_num; omega) e3 with h | ⟨hd, h⟩ <;> omega

/-- C84 as one would like it: with every library right to forty bits, `updateCell` stores the
Bayes posterior in percent, rounded down. -/
def C84_statement : Prop :=
  ∀ (M : Machine), Accurate M → ∀ (Tbs : M3 (RDbl M)) (g : GridMap (RDbl M)), WellFormed g →
    ∀ (x y : Int), InGrid g x y → ∀ c : Int8, cellAt g y.toNat x.toNat = some c → 0 ≤ c.toInt →
      c.toInt ≤ 100 →
      ∃ g' v, (OccupancyMapper.new Tbs).updateCell g x y (OccupancyMapper.new Tbs).log_odds_occ =
          .ok g' ∧ cellAt g' y.toNat x.toNat = some v ∧
        v.toInt = ⌊100 * posterior ((c.toInt : ℝ) / 100) 0.9⌋

/-- C84 (missing: a posterior that is a whole percentage may be stored one too low), end of a
beam: the cell becomes its Bayes posterior in percent rounded down, never decreases, and stays if it is
0 or 100; other cells keep their value. -/
theorem C84_occupied_partial (hM : Accurate M) (Tbs : M3 (RDbl M)) (g : GridMap (RDbl M))
    (hw : WellFormed g) (x y : Int) (hin : InGrid g x y) (c : Int8)
    (hc : cellAt g y.toNat x.toNat = some c) (h0 : 0 ≤ c.toInt) (h1 : c.toInt ≤ 100) :
    ∃ g' v, (OccupancyMapper.new Tbs).updateCell g x y (OccupancyMapper.new Tbs).log_odds_occ =
        .ok g' ∧ SameGeometry g g' ∧ cellAt g' y.toNat x.toNat = some v ∧
      RoundsDown (100 * posterior ((c.toInt : ℝ) / 100) 0.9) v.toInt ∧ c.toInt ≤ v.toInt ∧
      (c.toInt = 0 ∨ c.toInt = 100 → v = c) ∧
      ∀ x' y', InGrid g x' y' → (x', y') ≠ (x, y) →
        cellAt g' y'.toNat x'.toNat = cellAt g y'.toNat x'.toNat := by
  obtain ⟨v, e1, e2, e3⟩ := observe_occ_rd hM Tbs h0 h1
  refine ⟨setCell g x y v, v, ?_, setCell_geometry _ _ _ _, ?_, e2, e3, ?_, ?_⟩
  · rw [updateCell_eq _ hw hin _ hc, e1]; rfl
  · rw [setCell_cellAt hw _ hin hin, if_pos ⟨rfl, rfl⟩]
  · intro hend
    obtain ⟨p, o, f, _, ho, _⟩ := mapper_fin Tbs
    rw [ho, observe_ends Tbs _ c hend] at e1
    simpa using e1.symm
  · intro x' y' h' hne
    rw [setCell_cellAt hw _ hin h', if_neg]
    rintro ⟨rfl, rfl⟩; exact hne rfl

/-- C84 (missing as above), a cell a beam passes through. -/
theorem C84_free_partial (hM : Accurate M) (Tbs : M3 (RDbl M)) (g : GridMap (RDbl M))
    (hw : WellFormed g) (x y : Int) (hin : InGrid g x y) (c : Int8)
    (hc : cellAt g y.toNat x.toNat = some c) (h0 : 0 ≤ c.toInt) (h1 : c.toInt ≤ 100) :
    ∃ g' v, (OccupancyMapper.new Tbs).updateCell g x y (OccupancyMapper.new Tbs).log_odds_free =
        .ok g' ∧ SameGeometry g g' ∧ cellAt g' y.toNat x.toNat = some v ∧
      RoundsDown (100 * posterior ((c.toInt : ℝ) / 100) 0.35) v.toInt ∧ v.toInt ≤ c.toInt ∧
      (c.toInt = 0 ∨ c.toInt = 100 → v = c) ∧
      ∀ x' y', InGrid g x' y' → (x', y') ≠ (x, y) →
        cellAt g' y'.toNat x'.toNat = cellAt g y'.toNat x'.toNat := by
  obtain ⟨v, e1, e2, e3⟩ := observe_free_rd hM Tbs h0 h1
  refine ⟨setCell g x y v, v, ?_, setCell_geometry _ _ _ _, ?_, e2, e3, ?_, ?_⟩
  · rw [updateCell_eq _ hw hin _ hc, e1]; rfl
  · rw [setCell_cellAt hw _ hin hin, if_pos ⟨rfl, rfl⟩]
  · intro hend
    obtain ⟨p, o, f, _, _, ho⟩ := mapper_fin Tbs
    rw [ho, observe_ends Tbs _ c hend] at e1
    simpa using e1.symm
  · intro x' y' h' hne
    rw [setCell_cellAt hw _ hin h', if_neg]
    rintro ⟨rfl, rfl⟩; exact hne rfl

/-! ## the hypotheses can be met, and the exception happens -/

theorem ieee_accurate : Accurate ieee where
  log x _ := by
    have h := Ieee.rnd_near (Real.log x)
    have t := tiny_le 60 (by norm_num)
    refine h.trans ?_
    norm_num at t ⊢
    have := abs_nonneg (Real.log x)
    linarith
  exp x hx := by
    have h := Ieee.rnd_near (Real.exp x)
    refine h.trans ?_
    rw [abs_of_pos (Real.exp_pos x)]
    have e1 : (1 / 4 : ℝ) ^ 400 ≤ Real.exp x := by
      have : Real.exp (-1) ^ 400 ≤ Real.exp x := by
        rw [← Real.exp_nat_mul]
        refine Real.exp_le_exp.mpr ?_
        have := (abs_le.mp hx).1
        push_cast; linarith
      refine le_trans (pow_le_pow_left₀ (by norm_num) ?_ 400) this
      rw [Real.exp_neg, one_div]
      apply inv_anti₀ (Real.exp_pos 1)
      have := Real.exp_one_lt_d9
      linarith
    have e2 : tiny ≤ (1 / 4 : ℝ) ^ 400 * (1 / 2 ^ 50) := by
      have := tiny_le 850 (by norm_num)
      refine this.trans (le_of_eq ?_)
      rw [one_div_pow, show (4 : ℝ) = 2 ^ 2 by norm_num, ← pow_mul, one_div_mul_one_div, ← pow_add]
    have : tiny ≤ Real.exp x * (1 / 2 ^ 50) := e2.trans (mul_le_mul_of_nonneg_right e1 (by positivity))
    have := Real.exp_pos x
    norm_num at *
    linarith

/-- Binary64 with an exact `log` and an `exp` that is low by one part in `2^40`. -/
noncomputable def crude : Machine :=
  { ieee with
    log := Real.log
    exp := fun x => Real.exp x * (1 - 1 / 2 ^ 40)
    exp_nonneg := fun x => mul_nonneg (Real.exp_pos x).le (by norm_num) }

theorem crude_accurate : Accurate crude where
  log x _ := by
    show |Real.log x - Real.log x| ≤ _
    rw [sub_self, abs_zero]
    positivity
  exp x _ := by
    show |Real.exp x * (1 - 1 / 2 ^ 40) - Real.exp x| ≤ _
    rw [show Real.exp x * (1 - 1 / 2 ^ 40) - Real.exp x = -(Real.exp x / 2 ^ 40) by ring, abs_neg,
      abs_of_pos (by positivity)]

/-- a map of one cell -/
def oneCell (M : Machine) (v : Int8) : GridMap (RDbl M) :=
  { xsize := 1, ysize := 1, resolution := .fin 1, xmin := .fin 0, ymin := .fin 0,
    xmax := .fin 1, ymax := .fin 1, data := [v] }

theorem oneCell_wf (v : Int8) : WellFormed (oneCell M v) :=
  ⟨show (1 : UInt32).toNat * (1 : UInt32).toNat < 2 ^ 32 by decide, rfl⟩

theorem oneCell_in (v : Int8) : InGrid (oneCell M v) 0 0 :=
  ⟨le_rfl, show (0 : Int) < (1 : UInt32).toNat by decide, le_rfl,
    show (0 : Int) < (1 : UInt32).toNat by decide⟩

example : Accurate ieee ∧ WellFormed (oneCell ieee 50) ∧ InGrid (oneCell ieee 50) 0 0 ∧
    cellAt (oneCell ieee 50) (0 : Int).toNat (0 : Int).toNat = some 50 :=
  ⟨ieee_accurate, oneCell_wf 50, oneCell_in 50, rfl⟩

theorem ieee_half : ieee.rnd (1 / 2) = 1 / 2 := by
  exact Ieee.rnd_rep 1 (-1) (by norm_num) (by norm_num) (by norm_num [zpow_neg])

/-- An "occupied" observation of an unexplored cell (50) is stored as 89. -/
theorem crude_stores (Tbs : M3 (RDbl crude)) :
    observe (OccupancyMapper.new Tbs) (OccupancyMapper.new Tbs).log_odds_occ 50 = .ok 89 := by
  have hm : minNormal ≤ 1 := minNormal_le_one
  have half : crude.rnd (1 / 2) = 1 / 2 := ieee_half
  have hlog : crude.log = Real.log := rfl
  have hexp : ∀ x, crude.exp x = Real.exp x * (1 - 1 / 2 ^ 40) := fun _ => rfl
  have even : prob2LogOdds (.fin (1 / 2) : RDbl crude) = .fin 0 := by
    rw [(prob2LogOdds_rd (by norm_num) (by norm_num)).1, hlog, show (1 - 1 / 2 : ℝ) = 1 / 2 by norm_num,
      half, div_self (by norm_num), crude.rnd_one, Real.log_one]
  have hpr : (OccupancyMapper.new Tbs).log_odds_prior = .fin 0 := by
    show prob2LogOdds (lit 5 1 : RDbl crude) = _
    rw [RDbl.lit_fin, show (((5 : ℤ) : ℝ) / 10 ^ 1) = 1 / 2 by norm_num, half, even]
  -- the log-odds of 0.9
  have n9 := crude.err' hm (x := 9 / 10) (by norm_num [abs_of_pos])
  norm_num at n9
  set p := crude.rnd (9 / 10) with hp
  obtain ⟨ho, hq0⟩ := prob2LogOdds_rd (M := crude) (p := p) (by linarith [n9.1]) (by linarith [n9.2])
  have nd := crude.err' hm (x := 1 - p) (by rw [abs_le]; constructor <;> linarith [n9.1, n9.2])
  norm_num at nd
  set d := crude.rnd (1 - p)
  have d0 : 0 < d := by linarith [nd.1, n9.2]
  have hquo : p / d ≤ 9 + 1 / 2 ^ 44 := by
    rw [div_le_iff₀ d0]
    norm_num
    linarith [nd.1, n9.1, n9.2]
  have hquo0 : 0 < p / d := div_pos (by linarith [n9.1]) d0
  have nq := crude.err' (show minNormal ≤ 16 by linarith) (x := p / d) (by
    rw [abs_of_pos hquo0]; norm_num at hquo; linarith)
  set q := crude.rnd (p / d)
  have hq : q ≤ 9 + 1 / 2 ^ 43 := by
    have := nq.2
    norm_num at this hquo ⊢
    linarith
  have hq1 : 1 ≤ q := by
    have : (1:ℝ) ≤ p / d := by rw [le_div_iff₀ d0]; linarith [nd.2, n9.1]
    have := crude.mono this
    rwa [crude.rnd_one] at this
  have hocc : (OccupancyMapper.new Tbs).log_odds_occ = .fin (Real.log q) := by
    show prob2LogOdds (lit 90 2 : RDbl crude) = _
    rw [RDbl.lit_fin, show (((90 : ℤ) : ℝ) / 10 ^ 2) = 9 / 10 by norm_num, ho, hlog]
  have hl0 := Real.log_nonneg hq1
  have hl1 := Real.log_le_sub_one_of_pos hq0
  have nL := crude.err (show minNormal ≤ 16 by linarith) (x := Real.log q) (by
    rw [abs_of_nonneg hl0]; norm_num at hq; linarith)
  set L := crude.rnd (Real.log q) with hL
  have hexpL : Real.exp L ≤ 9 + 1 / 2 ^ 42 := by
    have e : Real.exp L = q * Real.exp (L - Real.log q) := by
      rw [Real.exp_sub, Real.exp_log hq0]; field_simp
    have b := Real.abs_exp_sub_one_le (nL.trans (by norm_num))
    have b2 := (abs_le.mp b).2
    have b3 : Real.exp (L - Real.log q) ≤ 1 + 1 / 2 ^ 47 := by
      norm_num at nL b2 ⊢; linarith
    rw [e]
    calc q * Real.exp (L - Real.log q) ≤ (9 + 1 / 2 ^ 43) * (1 + 1 / 2 ^ 47) :=
          mul_le_mul hq b3 (Real.exp_pos _).le (by norm_num)
      _ ≤ _ := by norm_num
  have hE : crude.exp L ≤ 9 - 1 / 2 ^ 37 := by
    rw [hexp]
    calc Real.exp L * (1 - 1 / 2 ^ 40) ≤ (9 + 1 / 2 ^ 42) * (1 - 1 / 2 ^ 40) :=
          mul_le_mul_of_nonneg_right hexpL (by norm_num)
      _ ≤ _ := by norm_num
  obtain ⟨z, z0, z1, hz, ez⟩ := logOdds2Prob_rd (M := crude) L
  -- the stored number is below 90
  have hst := stored_err crude_accurate (O := 9) (L := L) (by norm_num) ?_ ?_
  rotate_left
  · rw [abs_le]
    have := abs_le.mp nL
    norm_num at this hq
    constructor <;> linarith
  · obtain ⟨l, el, bl, _⟩ := logOdds_err crude_accurate (P := 9 / 10) (p := p) (by norm_num)
      (by norm_num) (by rw [abs_le]; norm_num; constructor <;> linarith [n9.1, n9.2])
    rw [ho, hlog, RDbl.fin_inj] at el
    rw [← el, show (9 / 10 / (1 - 9 / 10) : ℝ) = 9 by norm_num] at bl
    have := abs_sub_le L (Real.log q) (Real.log 9)
    norm_num at nL bl ⊢
    linarith
  rw [← ez] at hst
  have hE0 := crude.exp_nonneg L
  have nu := crude.err' (show minNormal ≤ 16 by linarith) (x := 1 + crude.exp L) (by
    rw [abs_of_nonneg (by linarith)]; norm_num at hE; linarith)
  have u0 : 1 ≤ crude.rnd (1 + crude.exp L) := by
    have := crude.mono (show 1 ≤ 1 + crude.exp L by linarith)
    rwa [crude.rnd_one] at this
  set u := crude.rnd (1 + crude.exp L)
  have hu : u ≤ 10 - 1 / 2 ^ 38 := by
    have := nu.2
    norm_num at this hE ⊢
    linarith
  have hiu : 1 / 10 + 1 / 2 ^ 45 ≤ 1 / u := by
    rw [le_div_iff₀ (by linarith)]
    calc (1 / 10 + 1 / 2 ^ 45) * u ≤ (1 / 10 + 1 / 2 ^ 45) * (10 - 1 / 2 ^ 38) :=
          mul_le_mul_of_nonneg_left hu (by norm_num)
      _ ≤ 1 := by norm_num
  have hiu1 : 1 / u ≤ 1 := by rw [div_le_one (by linarith)]; exact u0
  have nv := crude.err' hm (x := 1 / u) (by rw [abs_of_pos (by positivity)]; exact hiu1)
  set v := crude.rnd (1 / u)
  have hv1 : v ≤ 1 := by
    have := crude.mono hiu1
    rwa [crude.rnd_one] at this
  have hv0 : 0 ≤ v := crude.rnd_nonneg (by positivity)
  have nw := crude.err' hm (x := 1 - v) (by rw [abs_le]; constructor <;> linarith)
  set w := crude.rnd (1 - v)
  have hw0 : 0 ≤ w := crude.rnd_nonneg (by linarith)
  have hw1 : w ≤ 9 / 10 - 1 / 2 ^ 46 := by
    have := nw.2
    have := nv.1
    norm_num at *
    linarith
  have nz := crude.err' (show minNormal ≤ 128 by linarith) (x := w * 100) (by
    rw [abs_of_nonneg (by positivity)]; norm_num at hw1; linarith)
  rw [← ez] at nz
  have hz90 : z < 90 := by
    have := nz.2
    norm_num at *
    linarith
  have hfl : ⌊z⌋ = 89 := by
    rw [Int.floor_eq_iff]
    have := (abs_le.mp hst).1
    norm_num at this ⊢
    exact ⟨by linarith, hz90⟩
  obtain ⟨v', c1, c2, _⟩ := castI8_rd (M := crude) z0 z1
  unfold observe
  rw [hpr, hocc, show (50 : Int8).toInt = 50 by decide, percent_rd (by norm_num) (by norm_num),
    show (((50 : ℤ) : ℝ) / 100) = 1 / 2 by norm_num, half, even, RDbl.add_fin, zero_add, ← hL,
    RDbl.sub_fin, sub_zero, hL, crude.idem, ← hL, hz, c1,
    Int8.toInt_inj.mp (show v'.toInt = (89 : Int8).toInt by rw [c2, hfl]; decide)]

/-- C84 is false. -/
theorem C84_refuted : ¬ C84_statement := by
  intro h
  let T : M3 (RDbl crude) := transform2dXY (lit 0 0) (lit 0 0)
  obtain ⟨g', v, e1, e2, e3⟩ := h crude crude_accurate T (oneCell crude 50) (oneCell_wf 50) 0 0
    (oneCell_in 50) 50 rfl (by decide) (by decide)
  rw [updateCell_eq _ (oneCell_wf 50) (oneCell_in 50) _ (v := 50) rfl, crude_stores] at e1
  have e1' : setCell (oneCell crude 50) 0 0 89 = g' := by simpa using e1
  subst e1'
  rw [setCell_cellAt (oneCell_wf 50) _ (oneCell_in 50) (oneCell_in 50), if_pos ⟨rfl, rfl⟩] at e2
  simp only [Option.some.injEq] at e2
  subst e2
  rw [show (89 : Int8).toInt = 89 by decide, show (50 : Int8).toInt = 50 by decide] at e3
  have : (100 * posterior (((50 : ℤ) : ℝ) / 100) 0.9) = 90 := by unfold posterior; norm_num
  rw [this] at e3
  norm_num at e3

end Ergodic
