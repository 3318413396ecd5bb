import Verif.Lemmas.Rounded
import Verif.Model.Numerics
import Mathlib.Analysis.Real.Pi.Bounds

/-!
# Property C82: angle normalisation with rounding

C13 and C14 are about exact arithmetic.  Here the same functions run on rounded numbers.  `PI` and
`2 PI` are the rounded constants of the code.
-/

namespace Ergodic
variable {M : Machine}

/-- The constant `PI` of the code. -/
noncomputable def piR (M : Machine) : ℝ := M.rnd Real.pi

theorem piR_machine (M : Machine) : M.rnd (piR M) = piR M := M.idem _

theorem piR_near (M : Machine) : |piR M - Real.pi| ≤ 1 / 2 ^ 50 := by
  have h := M.err (show minNormal ≤ 4 from minNormal_le_one.trans (by norm_num)) (x := Real.pi) (by
    rw [abs_of_pos Real.pi_pos]; exact Real.pi_le_four)
  norm_num at h ⊢
  exact h

theorem piR_bounds (M : Machine) : 3 < piR M ∧ piR M < 4 := by
  have h := abs_le.mp (piR_near M)
  have := Real.pi_gt_d2
  have := Real.pi_lt_d2
  norm_num at h
  constructor <;> linarith [h.1, h.2]

theorem two_pi_rd : (lit 2 0 : RDbl M) *. Flt.pi = .fin (2 * piR M) := by
  have h2 : (lit 2 0 : RDbl M) = .fin 2 := by simp
  rw [h2, show (Flt.pi : RDbl M) = .fin (piR M) from rfl, RDbl.mul_fin,
    M.double _ (piR_machine M)]

/-- The remainder step shared by both functions: `s - floor(s / 2PI) * 2 * PI`, moved up by `2PI`
when negative. -/
noncomputable def wrapR (M : Machine) (s : ℝ) : ℝ :=
  let q : ℝ := ⌊M.rnd (s / (2 * piR M))⌋
  let r := M.rnd (s - M.rnd (M.rnd (q * 2) * piR M))
  if r < 0 then M.rnd (r + 2 * piR M) else r

theorem wrap_rd (s : ℝ) :
    (let q := Flt.floor ((.fin s : RDbl M) /. (lit 2 0 *. Flt.pi))
     let r := (.fin s : RDbl M) -. q *. lit 2 0 *. Flt.pi
     if Flt.lt r (lit 0 0) then r +. lit 2 0 *. Flt.pi else r) = .fin (wrapR M s) := by
  have hp := (piR_bounds M).1
  have h2 : (lit 2 0 : RDbl M) = .fin 2 := by simp
  have h0 : (lit 0 0 : RDbl M) = .fin 0 := by simp
  have hpi : (Flt.pi : RDbl M) = .fin (piR M) := rfl
  dsimp only
  rw [two_pi_rd, RDbl.div_fin _ (by linarith), h2, h0, hpi]
  simp only [RDbl.floor_fin, RDbl.mul_fin, RDbl.sub_fin, RDbl.add_fin, RDbl.lt_fin]
  unfold wrapR
  dsimp only
  split <;> rfl

theorem normalize2_rd (x : ℝ) : normalizeAngle2PI (.fin x : RDbl M) = .fin (wrapR M x) :=
  wrap_rd x

theorem normalize_rd (x : ℝ) :
    normalizeAnglePI (.fin x : RDbl M) = .fin (M.rnd (wrapR M (M.rnd (x + piR M)) - piR M)) := by
  have hpi : (Flt.pi : RDbl M) = .fin (piR M) := rfl
  have h := wrap_rd (M := M) (M.rnd (x + piR M))
  dsimp only at h
  unfold normalizeAnglePI
  dsimp only
  rw [show (.fin x : RDbl M) +. Flt.pi = .fin (M.rnd (x + piR M)) by rw [hpi, RDbl.add_fin], h, hpi,
    RDbl.sub_fin]

/-- `C82` full statement: for moderate angles the results lie in `[-PI, PI)` and `[0, 2 PI)`. -/
def C82_statement : Prop :=
  ∀ x : ℝ, ieee.rnd x = x → |x| ≤ 1000 →
    (∃ y, normalizeAnglePI (.fin x : RDbl ieee) = .fin y ∧ -piR ieee ≤ y ∧ y < piR ieee) ∧
    (∃ y, normalizeAngle2PI (.fin x : RDbl ieee) = .fin y ∧ 0 ≤ y ∧ y < 2 * piR ieee)

/-- What the floor of the rounded quotient tells. -/
theorem wrap_quot {s : ℝ} {q : ℤ} (hq : |q| < 2 ^ 52) (h : ⌊M.rnd (s / (2 * piR M))⌋ = q) :
    (q - 1) * (2 * piR M) ≤ s ∧ s < (q + 1) * (2 * piR M) := by
  have hp := (piR_bounds M).1
  have hT : 0 < 2 * piR M := by linarith
  have hf := Int.floor_eq_iff.mp h
  have hq' := abs_lt.mp hq
  constructor
  · by_contra hc
    push Not at hc
    have h1 : s / (2 * piR M) ≤ ((q - 1 : ℤ) : ℝ) := by
      push_cast; rw [div_le_iff₀ hT]; exact hc.le
    have := M.rnd_le_int (by rw [abs_le]; constructor <;> omega) h1
    push_cast at this
    linarith [hf.1]
  · by_contra hc
    push Not at hc
    have h1 : ((q + 1 : ℤ) : ℝ) ≤ s / (2 * piR M) := by
      push_cast; rw [le_div_iff₀ hT]; exact hc
    have := M.int_le_rnd (by rw [abs_le]; constructor <;> omega) h1
    push_cast at this
    linarith [hf.2]

/-- When the multiple of `2 PI` is exact, the remainder is in the closed interval. -/
theorem wrap_range {s : ℝ} {q : ℤ} (hq : |q| < 2 ^ 52) (h : ⌊M.rnd (s / (2 * piR M))⌋ = q)
    (hex : M.rnd (M.rnd ((q : ℝ) * 2) * piR M) = q * (2 * piR M)) :
    0 ≤ wrapR M s ∧ wrapR M s ≤ 2 * piR M := by
  have hw := wrap_quot hq h
  have hT : M.rnd (2 * piR M) = 2 * piR M := M.double _ (piR_machine M)
  unfold wrapR
  rw [h]
  dsimp only
  rw [hex]
  split
  · rename_i hneg
    have h1 : -(2 * piR M) ≤ M.rnd (s - q * (2 * piR M)) := by
      have := M.mono (show -(2 * piR M) ≤ s - q * (2 * piR M) by linarith [hw.1])
      rwa [M.neg, hT] at this
    constructor
    · exact M.rnd_nonneg (by linarith)
    · have := M.mono (show M.rnd (s - q * (2 * piR M)) + 2 * piR M ≤ 2 * piR M by linarith)
      rwa [hT] at this
  · rename_i hneg
    refine ⟨not_lt.mp hneg, ?_⟩
    have := M.mono (show s - q * (2 * piR M) ≤ 2 * piR M by linarith [hw.2])
    rwa [hT] at this

theorem exact_mult {q : ℤ} (h0 : -2 ≤ q) (h1 : q ≤ 2) :
    M.rnd (M.rnd ((q : ℝ) * 2) * piR M) = q * (2 * piR M) := by
  have hT : M.rnd (2 * piR M) = 2 * piR M := M.double _ (piR_machine M)
  have h4 : M.rnd (2 * (2 * piR M)) = 2 * (2 * piR M) := M.double _ hT
  have hq : M.rnd ((q : ℝ) * 2) = q * 2 := by
    have := M.int (q * 2) (by rw [abs_le]; constructor <;> omega)
    push_cast at this
    exact this
  rw [hq]
  have : q = -2 ∨ q = -1 ∨ q = 0 ∨ q = 1 ∨ q = 2 := by omega
  rcases this with rfl | rfl | rfl | rfl | rfl
  · rw [show (((-2 : ℤ) : ℝ) * 2 * piR M) = -(2 * (2 * piR M)) by push_cast; ring, M.neg, h4]
    push_cast; ring
  · rw [show (((-1 : ℤ) : ℝ) * 2 * piR M) = -(2 * piR M) by push_cast; ring, M.neg, hT]
    push_cast; ring
  · simp
  · rw [show (((1 : ℤ) : ℝ) * 2 * piR M) = 2 * piR M by push_cast; ring, hT]
    push_cast; ring
  · rw [show (((2 : ℤ) : ℝ) * 2 * piR M) = 2 * (2 * piR M) by push_cast; ring, h4]
    push_cast; ring

theorem wrap_small {s : ℝ} (h0 : -(2 * (2 * piR M)) ≤ s) (h1 : s ≤ 2 * (2 * piR M)) :
    0 ≤ wrapR M s ∧ wrapR M s ≤ 2 * piR M := by
  have hp := (piR_bounds M).1
  have hT : 0 < 2 * piR M := by linarith
  have b0 : ((-2 : ℤ) : ℝ) ≤ M.rnd (s / (2 * piR M)) := M.int_le_rnd (by norm_num) (by
    rw [le_div_iff₀ hT]; push_cast; linarith)
  have b1 : M.rnd (s / (2 * piR M)) ≤ ((2 : ℤ) : ℝ) := M.rnd_le_int (by norm_num) (by
    rw [div_le_iff₀ hT]; push_cast; linarith)
  have f0 : -2 ≤ ⌊M.rnd (s / (2 * piR M))⌋ := Int.le_floor.mpr b0
  have f1 : ⌊M.rnd (s / (2 * piR M))⌋ ≤ 2 := by
    have := (Int.floor_le (M.rnd (s / (2 * piR M)))).trans b1
    exact_mod_cast this
  exact wrap_range (by rw [abs_lt]; constructor <;> omega) rfl (exact_mult f0 f1)

/-- C82 (missing: the upper end point may be reached): angles between `-3 PI` and `3 PI`, which is
what a normalised heading plus a step of less than a full turn is, are brought into the closed
interval `[-PI, PI]`. -/
theorem C82_range_PI_partial (x : ℝ) (h0 : -(3 * piR M) ≤ x) (h1 : x ≤ 3 * piR M) :
    ∃ y, normalizeAnglePI (.fin x : RDbl M) = .fin y ∧ -piR M ≤ y ∧ y ≤ piR M := by
  have hT : M.rnd (2 * piR M) = 2 * piR M := M.double _ (piR_machine M)
  have h4 : M.rnd (2 * (2 * piR M)) = 2 * (2 * piR M) := M.double _ hT
  have hp := (piR_bounds M).1
  have s0 : -(2 * (2 * piR M)) ≤ M.rnd (x + piR M) := by
    have := M.mono (show -(2 * (2 * piR M)) ≤ x + piR M by linarith)
    rwa [M.neg, h4] at this
  have s1 : M.rnd (x + piR M) ≤ 2 * (2 * piR M) := by
    have := M.mono (show x + piR M ≤ 2 * (2 * piR M) by linarith)
    rwa [h4] at this
  have hw := wrap_small s0 s1
  refine ⟨_, normalize_rd x, ?_, ?_⟩
  · have := M.mono (show -piR M ≤ wrapR M (M.rnd (x + piR M)) - piR M by linarith [hw.1])
    rwa [M.neg, piR_machine] at this
  · have := M.mono (show wrapR M (M.rnd (x + piR M)) - piR M ≤ piR M by linarith [hw.2])
    rwa [piR_machine] at this

/-- C82 (missing: the upper end point may be reached): angles between `-4 PI` and `4 PI` are
brought into the closed interval `[0, 2 PI]`. -/
theorem C82_range_2PI_partial (x : ℝ) (h0 : -(4 * piR M) ≤ x) (h1 : x ≤ 4 * piR M) :
    ∃ y, normalizeAngle2PI (.fin x : RDbl M) = .fin y ∧ 0 ≤ y ∧ y ≤ 2 * piR M :=
  ⟨_, normalize2_rd x, wrap_small (by linarith) (by linarith)⟩

example : -(3 * piR M) ≤ 5 ∧ 5 ≤ 3 * piR M := by
  have := (piR_bounds M).1
  constructor <;> linarith

/-! ## the direction -/

/-- The remainder differs from the angle by whole turns, up to rounding, and lies in
`[0, 2 PI]` up to rounding. -/
theorem wrap_heading {s : ℝ} (hs : |s| ≤ 2 ^ 46) :
    (∃ k : ℤ, |wrapR M s - (s + 2 * Real.pi * k)| ≤ (|s| + 16) / 2 ^ 47) ∧
      0 ≤ wrapR M s ∧ wrapR M s ≤ 2 * piR M + (|s| + 16) / 2 ^ 47 := by
  obtain ⟨p0, p1⟩ := piR_bounds M
  obtain ⟨pn0, pn1⟩ := abs_le.mp (piR_near M)
  have hs0 := abs_nonneg s
  obtain ⟨A, hA⟩ : ∃ A, A = |s| + 16 := ⟨_, rfl⟩
  have hm : ∀ c : ℝ, 1 ≤ c → minNormal ≤ c := fun c hc => minNormal_le_one.trans hc
  have hT : 0 < 2 * piR M := by linarith
  have sA := abs_le.mp (show |s| ≤ A - 16 by linarith)
  -- the quotient
  have hq6 : |s / (2 * piR M)| ≤ |s| / 6 := by
    rw [abs_div, abs_of_pos hT]
    exact div_le_div_of_nonneg_left hs0 (by norm_num) (by linarith)
  have e1 := M.err' (hm (|s| / 6 + 1) (by linarith)) (hq6.trans (by linarith))
  have hq6' := abs_le.mp hq6
  have hdiv : s / (2 * piR M) * (2 * piR M) = s := div_mul_cancel₀ _ hT.ne'
  unfold wrapR
  generalize hQ : M.rnd (s / (2 * piR M)) = Q at e1 ⊢
  have f0 := Int.floor_le Q
  have f1 := Int.lt_floor_add_one Q
  generalize hq : ⌊Q⌋ = q at f0 f1 ⊢
  dsimp only
  have hsmall : (|s| / 6 + 1) / 2 ^ 52 ≤ 1 := by
    rw [div_le_one (by positivity)]; norm_num at hs ⊢; linarith
  have qb : |(q : ℝ)| ≤ A / 6 := by
    rw [abs_le]; constructor <;> linarith [e1.1, e1.2, hq6'.1, hq6'.2]
  have qb' := abs_le.mp qb
  have hqexact : |q| ≤ 2 ^ 50 := by
    have : (|q| : ℝ) ≤ 2 ^ 50 := by norm_num at hs ⊢; linarith
    exact_mod_cast this
  have e2 : M.rnd ((q : ℝ) * 2) = q * 2 := by
    have hq' := abs_le.mp hqexact
    have := M.int (q * 2) (by rw [abs_le]; constructor <;> omega)
    push_cast at this
    exact this
  rw [e2]
  have hqp : |(q : ℝ) * 2 * piR M| ≤ 2 * A := by
    rw [abs_mul, abs_mul, abs_of_pos (show (0:ℝ) < 2 by norm_num), abs_of_pos (show 0 < piR M by linarith)]
    have := mul_le_mul qb p1.le (by linarith) (by linarith)
    linarith
  have e3 := M.err' (hm (2 * A) (by linarith)) hqp
  have hqp' := abs_le.mp hqp
  -- the constant
  have hpi : |(q : ℝ) * 2 * piR M - 2 * Real.pi * q| ≤ A / 2 ^ 50 := by
    rw [show (q : ℝ) * 2 * piR M - 2 * Real.pi * q = 2 * (q * (piR M - Real.pi)) by ring, abs_mul,
      abs_mul, abs_of_pos (show (0:ℝ) < 2 by norm_num)]
    have := mul_le_mul qb (piR_near M) (abs_nonneg _) (by linarith)
    norm_num at this ⊢
    linarith
  have hpi' := abs_le.mp hpi
  have upper := (wrap_quot (M := M) (s := s) (q := q) (lt_of_le_of_lt hqexact (by norm_num)) (by rw [hQ, hq])).2
  have lower : (q - 1 / 2) * (2 * piR M) ≤ s := by
    rw [← hdiv]
    refine mul_le_mul_of_nonneg_right ?_ hT.le
    have hhalf : (|s| / 6 + 1) / 2 ^ 52 ≤ 1 / 2 := by
      rw [div_le_div_iff₀ (by positivity) (by positivity)]; norm_num at hs ⊢; linarith
    linarith [e1.2]
  generalize M.rnd ((q : ℝ) * 2 * piR M) = w at e3 ⊢
  have hA52 : A / 2 ^ 52 ≤ A / 64 := by
    rw [div_le_div_iff₀ (by positivity) (by positivity)]; linarith
  have e4 := M.err' (hm (4 * A) (by linarith)) (x := s - w) (by
    rw [abs_le]
    constructor <;> linarith [e3.1, e3.2, hqp'.1, hqp'.2])
  generalize M.rnd (s - w) = r at e4 ⊢
  have c50 : A / 2 ^ 50 = 4 * (A / 2 ^ 52) := by ring
  have c47 : A / 2 ^ 47 = 32 * (A / 2 ^ 52) := by ring
  have t1 : 1 / 2 ^ 50 ≤ A / 2 ^ 52 := by
    rw [div_le_div_iff₀ (by positivity) (by positivity)]; norm_num; linarith
  have hAs : A ≤ 2 ^ 47 := by norm_num at hs ⊢; linarith
  have hA1 : A / 2 ^ 52 ≤ 1 / 32 := by
    rw [div_le_div_iff₀ (by positivity) (by positivity)]; norm_num at hAs ⊢; linarith
  have hTm : M.rnd (2 * piR M) = 2 * piR M := M.double _ (piR_machine M)
  rw [← hA]
  split
  · rename_i hneg
    have e5 := M.err' (hm (8 * A) (by linarith)) (x := r + 2 * piR M) (by
      rw [abs_le]
      constructor <;> linarith [e3.1, e3.2, hqp'.1, hqp'.2, e4.1, e4.2])
    refine ⟨⟨1 - q, ?_⟩, ?_, ?_⟩
    · push_cast
      rw [abs_le, c47]
      rw [c50] at hpi'
      constructor <;> linarith [e3.1, e3.2, e4.1, e4.2, e5.1, e5.2, hpi'.1, hpi'.2]
    · refine M.rnd_nonneg ?_
      linarith [e3.2, e4.1]
    · have := M.mono (show r + 2 * piR M ≤ 2 * piR M by linarith)
      rw [hTm] at this
      have : 0 ≤ A / 2 ^ 47 := by rw [hA]; positivity
      linarith
  · rename_i hneg
    refine ⟨⟨-q, ?_⟩, not_lt.mp hneg, ?_⟩
    · push_cast
      rw [abs_le, c47]
      rw [c50] at hpi'
      constructor <;> linarith [e3.1, e3.2, e4.1, e4.2, hpi'.1, hpi'.2]
    · rw [c47]
      linarith [e3.1, e4.2]

/-- C82: up to `2^45` radians, the result differs from the angle by whole turns, up to an error of
about `2^-46` relative to the angle, and lies in `[0, 2 PI]` up to that error. -/
theorem C82_heading_2PI (x : ℝ) (hx : |x| ≤ 2 ^ 45) :
    ∃ (y : ℝ) (k : ℤ), normalizeAngle2PI (.fin x : RDbl M) = .fin y ∧
      |y - (x + 2 * Real.pi * k)| ≤ (|x| + 32) / 2 ^ 46 ∧
      0 ≤ y ∧ y ≤ 2 * piR M + (|x| + 32) / 2 ^ 46 := by
  obtain ⟨⟨k, hk⟩, h0, h1⟩ := wrap_heading (M := M) (s := x) (hx.trans (by norm_num))
  have : (|x| + 16) / 2 ^ 47 ≤ (|x| + 32) / 2 ^ 46 := by
    have := abs_nonneg x
    rw [div_le_div_iff₀ (by positivity) (by positivity)]
    linarith
  exact ⟨_, k, normalize2_rd x, hk.trans this, h0, h1.trans (by linarith)⟩

/-- C82: the same for `[-PI, PI]`. -/
theorem C82_heading_PI (x : ℝ) (hx : |x| ≤ 2 ^ 45) :
    ∃ (y : ℝ) (k : ℤ), normalizeAnglePI (.fin x : RDbl M) = .fin y ∧
      |y - (x + 2 * Real.pi * k)| ≤ (|x| + 32) / 2 ^ 46 ∧
      -piR M ≤ y ∧ y ≤ piR M + (|x| + 32) / 2 ^ 46 := by
  obtain ⟨p0, p1⟩ := piR_bounds M
  have hm : ∀ c : ℝ, 1 ≤ c → minNormal ≤ c := fun c hc => minNormal_le_one.trans hc
  have hx0 := abs_nonneg x
  have hxx := abs_le.mp (le_refl |x|)
  have e1 := M.err' (hm (|x| + 4) (by linarith)) (x := x + piR M) (by
    rw [abs_le]; constructor <;> linarith [hxx.1, hxx.2])
  have hsm : (|x| + 4) / 2 ^ 52 ≤ 1 := by
    rw [div_le_one (by positivity)]; norm_num at hx ⊢; linarith
  have hs : |M.rnd (x + piR M)| ≤ |x| + 5 := by
    rw [abs_le]; constructor <;> linarith [e1.1, e1.2, hxx.1, hxx.2]
  obtain ⟨⟨k, hk⟩, h0, h1⟩ := wrap_heading (M := M) (s := M.rnd (x + piR M))
    (hs.trans (by norm_num at hx ⊢; linarith))
  have hy := normalize_rd (M := M) x
  generalize M.rnd (x + piR M) = s at e1 hs hk h0 h1 hy
  generalize wrapR M s = w at hk h0 h1 hy
  have hA : (|s| + 16) / 2 ^ 47 ≤ (|x| + 21) / 2 ^ 47 :=
    div_le_div_of_nonneg_right (by linarith) (by positivity)
  have hA1 : (|x| + 21) / 2 ^ 47 ≤ 1 := by
    rw [div_le_one (by positivity)]; norm_num at hx ⊢; linarith
  have e2 := M.err' (hm 16 (by norm_num)) (x := w - piR M) (by
    rw [abs_le]; constructor <;> linarith)
  have hk' := abs_le.mp hk
  have b : (|x| + 4) / 2 ^ 52 + (|x| + 21) / 2 ^ 47 + 16 / 2 ^ 52 ≤ (|x| + 32) / 2 ^ 46 := by
    rw [div_add_div _ _ (by positivity) (by positivity), div_add_div _ _ (by positivity) (by positivity),
      div_le_div_iff₀ (by positivity) (by positivity)]
    norm_num
    linarith
  have b0 : 0 ≤ (|x| + 4) / 2 ^ 52 := by positivity
  refine ⟨_, k, hy, ?_, ?_, ?_⟩
  · rw [abs_le]
    constructor <;> linarith [e1.1, e1.2, e2.1, e2.2, hk'.1, hk'.2]
  · have := M.mono (show -piR M ≤ w - piR M by linarith)
    rwa [M.neg, piR_machine] at this
  · linarith [e2.2]

example : |(-12345 : ℝ)| ≤ 2 ^ 45 := by norm_num

/-! ## the end point is reached -/

theorem ieee_pi : piR ieee = 7074237752028440 * 2 ^ (-51 : ℤ) := by
  show Ieee.rnd _ = _
  have h0 := Real.pi_gt_d20
  have h1 := Real.pi_lt_d20
  have := Ieee.rnd_eq (x := Real.pi) 7074237752028440 (-51) (by norm_num)
    (by rw [abs_of_pos Real.pi_pos]; norm_num; linarith)
    (by rw [abs_of_pos Real.pi_pos]; norm_num; linarith)
    (by rw [abs_lt]; norm_num at h0 h1 ⊢; constructor <;> linarith)
  exact_mod_cast this

/-- The number below zero of size `2^-60` is brought to `2 PI`, not below it. -/
theorem end_reached_2PI : normalizeAngle2PI (.fin (-(1 / 2 ^ 60)) : RDbl ieee) = .fin (2 * piR ieee) := by
  rw [normalize2_rd]
  congr 1
  obtain ⟨p0, p1⟩ := piR_bounds ieee
  have hT : 0 < 2 * piR ieee := by linarith
  have hfl : ⌊ieee.rnd (-(1 / 2 ^ 60) / (2 * piR ieee))⌋ = -1 := by
    rw [Int.floor_eq_iff]
    have hq : 1 / 2 ^ 63 ≤ 1 / 2 ^ 60 / (2 * piR ieee) ∧ 1 / 2 ^ 60 / (2 * piR ieee) ≤ 1 / 2 ^ 60 := by
      constructor
      · rw [le_div_iff₀ hT]; norm_num; linarith
      · rw [div_le_iff₀ hT]; norm_num; linarith
    have e := ieee.err' (show minNormal ≤ 1 / 2 ^ 60 by
      unfold minNormal
      have := tiny_le 200 (by norm_num)
      calc _ ≤ 2 ^ 53 * (1 / 2 ^ 200 : ℝ) := mul_le_mul_of_nonneg_left this (by positivity)
        _ ≤ _ := by norm_num) (x := 1 / 2 ^ 60 / (2 * piR ieee)) (by
        rw [abs_of_nonneg (by positivity)]; exact hq.2)
    rw [neg_div, ieee.neg]
    norm_num at e hq ⊢
    constructor <;> linarith [e.1, e.2, hq.1, hq.2]
  unfold wrapR
  rw [hfl]
  dsimp only
  rw [exact_mult (by norm_num) (by norm_num)]
  have hr : ieee.rnd (-(1 / 2 ^ 60) - ((-1 : ℤ) : ℝ) * (2 * piR ieee)) = 2 * piR ieee := by
    rw [ieee_pi]
    show Ieee.rnd _ = _
    rw [Ieee.rnd_eq 7074237752028440 (-50) (by norm_num) (by norm_num [abs_of_pos])
      (by norm_num [abs_of_pos]) (by rw [abs_lt]; norm_num)]
    norm_num
  rw [hr, if_neg (by linarith)]

/-- The number just below `-PI` is brought to `PI`, not below it. -/
theorem end_reached_PI :
    normalizeAnglePI (.fin (-(7074237752028441 * 2 ^ (-51 : ℤ))) : RDbl ieee) = .fin (piR ieee) := by
  rw [normalize_rd]
  congr 1
  obtain ⟨p0, p1⟩ := piR_bounds ieee
  have hT : 0 < 2 * piR ieee := by linarith
  have hs : ieee.rnd (-(7074237752028441 * 2 ^ (-51 : ℤ)) + piR ieee) = -(1 / 2 ^ 51) := by
    rw [ieee_pi]
    show Ieee.rnd _ = _
    rw [Ieee.rnd_rep (-1) (-51) (by norm_num) (by norm_num) (by norm_num)]
    norm_num
  rw [hs]
  have hfl : ⌊ieee.rnd (-(1 / 2 ^ 51) / (2 * piR ieee))⌋ = -1 := by
    rw [Int.floor_eq_iff]
    have hq : 1 / 2 ^ 54 ≤ 1 / 2 ^ 51 / (2 * piR ieee) ∧ 1 / 2 ^ 51 / (2 * piR ieee) ≤ 1 / 2 ^ 51 := by
      constructor
      · rw [le_div_iff₀ hT]; norm_num; linarith
      · rw [div_le_iff₀ hT]; norm_num; linarith
    have e := ieee.err' (show minNormal ≤ 1 / 2 ^ 51 by
      unfold minNormal
      have := tiny_le 200 (by norm_num)
      calc _ ≤ 2 ^ 53 * (1 / 2 ^ 200 : ℝ) := mul_le_mul_of_nonneg_left this (by positivity)
        _ ≤ _ := by norm_num) (x := 1 / 2 ^ 51 / (2 * piR ieee)) (by
        rw [abs_of_nonneg (by positivity)]; exact hq.2)
    rw [neg_div, ieee.neg]
    norm_num at e hq ⊢
    constructor <;> linarith [e.1, e.2, hq.1, hq.2]
  have hw : wrapR ieee (-(1 / 2 ^ 51)) = 2 * piR ieee := by
    unfold wrapR
    rw [hfl]
    dsimp only
    rw [exact_mult (by norm_num) (by norm_num)]
    have hr : ieee.rnd (-(1 / 2 ^ 51) - ((-1 : ℤ) : ℝ) * (2 * piR ieee)) = 2 * piR ieee := by
      rw [ieee_pi]
      show Ieee.rnd _ = _
      rw [Ieee.rnd_tie 7074237752028440 (-50) (by decide) (by norm_num) (by norm_num [abs_of_pos])
        (by norm_num [abs_of_pos]) (by right; norm_num)]
      norm_num
    rw [hr, if_neg (by linarith)]
  rw [hw, show 2 * piR ieee - piR ieee = piR ieee by ring, piR_machine]

/-- C82 is false for both functions: the excluded upper end point is returned. -/
theorem C82_refuted : ¬ C82_statement := by
  intro h
  have hx : ieee.rnd (-(7074237752028441 * 2 ^ (-51 : ℤ))) = -(7074237752028441 * 2 ^ (-51 : ℤ)) := by
    show Ieee.rnd _ = _
    exact Ieee.rnd_rep (-7074237752028441) (-51) (by norm_num) (by norm_num) (by push_cast; ring)
  obtain ⟨⟨y, hy, _, hlt⟩, _⟩ := h _ hx (by rw [abs_neg]; norm_num [abs_of_pos])
  rw [end_reached_PI] at hy
  rw [RDbl.fin_inj.mp hy] at hlt
  exact lt_irrefl _ hlt

/-- The other half of the statement fails as well. -/
theorem C82_refuted_2PI : ¬ ∀ x : ℝ, ieee.rnd x = x → |x| ≤ 1000 →
    ∃ y, normalizeAngle2PI (.fin x : RDbl ieee) = .fin y ∧ 0 ≤ y ∧ y < 2 * piR ieee := by
  intro h
  have hx : ieee.rnd (-(1 / 2 ^ 60)) = -(1 / 2 ^ 60) := by
    show Ieee.rnd _ = _
    exact Ieee.rnd_rep (-1) (-60) (by norm_num) (by norm_num) (by norm_num)
  obtain ⟨y, hy, _, hlt⟩ := h _ hx (by rw [abs_neg]; norm_num [abs_of_pos])
  rw [end_reached_2PI] at hy
  rw [RDbl.fin_inj.mp hy] at hlt
  exact lt_irrefl _ hlt

end Ergodic
