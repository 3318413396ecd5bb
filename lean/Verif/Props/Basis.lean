import Verif.Lemmas.Basis
import Mathlib.Analysis.SpecialFunctions.Trigonometric.Deriv
import Mathlib.Analysis.SpecialFunctions.Pow.Real

/-!
# Properties C39–C42 and C74: Fourier basis
-/

namespace Ergodic

/-! ## C39 basis numbers -/

/-- C39: column `i*n + j` is `(j, i)`. -/
theorem C39_column (F : Type) [Flt F] (lx ly : F) (n i j : Nat) (hi : i < n) (hj : j < n) :
    (Basis.new lx ly n).k[i * n + j]? = some ((j : Int), (i : Int)) := by
  show (Basis.numbers n)[i * n + j]? = _
  rw [numbers_eq, List.getElem?_map, List.getElem?_range (by nlinarith)]
  have h1 : (i * n + j) % n = j := Nat.mul_add_mod_of_lt hj
  have h2 : (i * n + j) / n = i := by
    rw [Nat.mul_comm, Nat.mul_add_div (by omega), Nat.div_eq_of_lt hj, Nat.add_zero]
  rw [Option.map_some, h1, h2]

/-- C39: there are `n²` columns, no two equal, and every pair of frequencies below `n` occurs. -/
theorem C39_enumeration (F : Type) [Flt F] (lx ly : F) (n : Nat) :
    (Basis.new lx ly n).k.length = n * n ∧ (Basis.new lx ly n).k.Nodup ∧
    (∀ a b : Int, (a, b) ∈ (Basis.new lx ly n).k ↔ 0 ≤ a ∧ a < n ∧ 0 ≤ b ∧ b < n) ∧
    (Basis.new lx ly n).lamdak.length = n * n := by
  have hk : (Basis.new lx ly n).k = Basis.numbers n := rfl
  have hlen : (Basis.numbers n).length = n * n := by rw [numbers_eq]; simp
  refine ⟨by rw [hk, hlen], ?_, ?_, ?_⟩
  · rw [hk, numbers_eq]
    refine List.Nodup.map_on ?_ List.nodup_range
    intro a ha b hb hab
    simp only [Prod.mk.injEq, Nat.cast_inj] at hab
    have e1 := Nat.div_add_mod a n
    have e2 := Nat.div_add_mod b n
    rw [hab.1, hab.2] at e1
    omega
  · intro a b
    rw [hk, Basis.numbers]
    simp only [List.mem_flatMap, List.mem_map, List.mem_range, Prod.mk.injEq]
    constructor
    · rintro ⟨i, hi, j, hj, rfl, rfl⟩; omega
    · rintro ⟨h1, h2, h3, h4⟩
      exact ⟨b.toNat, by omega, a.toNat, by omega, by omega, by omega⟩
  · simp [Basis.new, hlen]

example : (1 : Nat) < 3 ∧ (2 : Nat) < 3 := by decide

/-! ## C40 the basis functions and their gradient -/

theorem fk_eq (b : Basis ℝ) (x : V2 ℝ) (k1 k2 : ℕ) :
    b.fk x ((k1 : Int), (k2 : Int)) = cosBasis b.lx b.ly k1 k2 x.c0 x.c1 := by
  simp only [Basis.fk, cosBasis, real_mul, real_cos, real_ofInt, real_div, real_pi]
  push_cast
  congr 2 <;> ring

theorem abs_fk_le (b : Basis ℝ) (x : V2 ℝ) (k : Int × Int) : |b.fk x k| ≤ 1 := by
  simp only [Basis.fk, real_mul, real_cos]
  rw [abs_mul]
  exact mul_le_one₀ (Real.abs_cos_le_one _) (abs_nonneg _) (Real.abs_cos_le_one _)

/-- C40: entry `i*n + j` is the cosine basis function with frequencies `(j, i)`. -/
theorem C40_values (lx ly : ℝ) (n i j : Nat) (hi : i < n) (hj : j < n) (x : V2 ℝ) :
    ((Basis.new lx ly n).fourierBasis x)[i * n + j]? = some (cosBasis lx ly j i x.c0 x.c1) := by
  unfold Basis.fourierBasis
  rw [List.getElem?_map, C39_column ℝ lx ly n i j hi hj, Option.map_some, fk_eq]; rfl

/-- C40: every basis value is in `[-1, 1]`. -/
theorem C40_bounded (lx ly : ℝ) (n : Nat) (x : V2 ℝ) :
    ∀ v ∈ (Basis.new lx ly n).fourierBasis x, -1 ≤ v ∧ v ≤ 1 := by
  intro v hv
  obtain ⟨k, _, rfl⟩ := List.mem_map.mp hv
  exact abs_le.mp (abs_fk_le _ _ _)

/-- C40: the first basis value is 1. -/
theorem C40_first (lx ly : ℝ) (n : Nat) (hn : 0 < n) (x : V2 ℝ) :
    ((Basis.new lx ly n).fourierBasis x)[0]? = some 1 := by
  have := C40_values lx ly n 0 0 hn hn x
  simpa [cosBasis] using this

/-- C40: the gradient has one column per basis function, and column `i*n + j` is the vector of
partial derivatives of the basis function with frequencies `(j, i)`. -/
theorem C40_gradient (lx ly : ℝ) (n i j : Nat) (hi : i < n) (hj : j < n) (x y : ℝ) :
    ∃ d : V2 ℝ, ((Basis.new lx ly n).gradFourierBasis ⟨x, y⟩)[i * n + j]? = some d ∧
      HasDerivAt (fun x => cosBasis lx ly j i x y) d.c0 x ∧
      HasDerivAt (fun y => cosBasis lx ly j i x y) d.c1 y := by
  refine ⟨(Basis.new lx ly n).dfk ⟨x, y⟩ ((j : Int), (i : Int)), ?_, ?_, ?_⟩
  · unfold Basis.gradFourierBasis
    rw [List.getElem?_map, C39_column ℝ lx ly n i j hi hj, Option.map_some]
  · have h1 : HasDerivAt (fun x : ℝ => (j : ℝ) * Real.pi * x / lx) ((j : ℝ) * Real.pi * 1 / lx) x :=
      ((hasDerivAt_id x).const_mul _).div_const _
    have h2 := (h1.cos).mul_const (Real.cos (i * Real.pi * y / ly))
    refine h2.congr_deriv ?_
    simp only [Basis.dfk, Basis.new, real_mul, real_cos, real_sin, real_neg, real_ofInt, real_div,
      real_pi]
    push_cast
    rw [show (j : ℝ) * Real.pi * x / lx = j * (Real.pi / lx) * x by ring,
      show (i : ℝ) * Real.pi * y / ly = i * (Real.pi / ly) * y by ring]
    ring
  · have h1 : HasDerivAt (fun y : ℝ => (i : ℝ) * Real.pi * y / ly) ((i : ℝ) * Real.pi * 1 / ly) y :=
      ((hasDerivAt_id y).const_mul _).div_const _
    have h2 := (h1.cos).const_mul (Real.cos (j * Real.pi * x / lx))
    refine h2.congr_deriv ?_
    simp only [Basis.dfk, Basis.new, real_mul, real_cos, real_sin, real_neg, real_ofInt, real_div,
      real_pi]
    push_cast
    rw [show (j : ℝ) * Real.pi * x / lx = j * (Real.pi / lx) * x by ring,
      show (i : ℝ) * Real.pi * y / ly = i * (Real.pi / ly) * y by ring]
    ring

/-! ## C41 trajectory coefficients -/

theorem trajCoeff_entry (lx ly : ℝ) (n i j : Nat) (hi : i < n) (hj : j < n) (xt : List (V3 ℝ)) :
    ((Basis.new lx ly n).trajCoeff xt)[i * n + j]? =
      some ((xt.map fun p => cosBasis lx ly j i p.c0 p.c1).sum / xt.length) := by
  unfold Basis.trajCoeff
  rw [List.getElem?_map, C39_column ℝ lx ly n i j hi hj, Option.map_some]
  simp only [real_mul, real_div, real_ofInt, real_lit, fsum_real, fk_eq]
  congr 1
  push_cast
  simp only [V3.xy, Basis.new]
  ring

/-- C41: coefficient `i*n + j` is the mean of the basis function over the trajectory. -/
theorem C41_time_average (lx ly : ℝ) (n i j : Nat) (hi : i < n) (hj : j < n) (xt : List (V3 ℝ)) :
    ((Basis.new lx ly n).trajCoeff xt)[i * n + j]? =
      some ((xt.map fun p => cosBasis lx ly j i p.c0 p.c1).sum / xt.length) :=
  trajCoeff_entry lx ly n i j hi hj xt

/-- C41: coefficients are in `[-1, 1]`. -/
theorem C41_bounded (lx ly : ℝ) (n : Nat) (xt : List (V3 ℝ)) :
    ∀ v ∈ (Basis.new lx ly n).trajCoeff xt, -1 ≤ v ∧ v ≤ 1 := by
  intro v hv
  obtain ⟨k, _, rfl⟩ := List.mem_map.mp hv
  simp only [real_mul, real_div, real_ofInt, real_lit, fsum_real]
  have hs := abs_sum_le (xt.map fun x => (Basis.new lx ly n).fk x.xy k) 1 (by
    intro x hx
    obtain ⟨p, _, rfl⟩ := List.mem_map.mp hx
    exact abs_fk_le _ _ _)
  rw [List.length_map, mul_one] at hs
  apply abs_le.mp
  rcases Nat.eq_zero_or_pos xt.length with h0 | h0
  · rw [List.length_eq_zero_iff] at h0; subst h0; simp
  · have hpos : (0:ℝ) < xt.length := by exact_mod_cast h0
    rw [abs_mul]
    push_cast
    rw [abs_of_pos (by norm_num; exact h0), pow_zero, div_one, div_mul_eq_mul_div, one_mul,
      div_le_one hpos]
    exact hs

/-- C41: the first coefficient of a non-empty trajectory is 1. -/
theorem C41_first (lx ly : ℝ) (n : Nat) (hn : 0 < n) (xt : List (V3 ℝ)) (h : xt ≠ []) :
    ((Basis.new lx ly n).trajCoeff xt)[0]? = some 1 := by
  have := trajCoeff_entry lx ly n 0 0 hn hn xt
  simp only [Nat.zero_mul, Nat.add_zero] at this
  rw [this]
  have hpos : (0:ℝ) < xt.length := by exact_mod_cast List.length_pos_iff.mpr h
  simp [cosBasis, hpos.ne']

/-- C41: the order of the columns does not matter. -/
theorem C41_permutation (lx ly : ℝ) (n : Nat) (xt xt' : List (V3 ℝ)) (h : xt.Perm xt') :
    (Basis.new lx ly n).trajCoeff xt = (Basis.new lx ly n).trajCoeff xt' := by
  unfold Basis.trajCoeff
  apply List.map_congr_left
  intro k _
  rw [fsum_real, fsum_real, (h.map _).sum_eq, h.length_eq]

/-- C41: the coefficient of a concatenation is the length-weighted mean. -/
theorem C41_concatenation (lx ly : ℝ) (n i j : Nat) (hi : i < n) (hj : j < n)
    (xt xt' : List (V3 ℝ)) (h : xt ≠ []) (h' : xt' ≠ []) :
    ∃ a b c, ((Basis.new lx ly n).trajCoeff xt)[i * n + j]? = some a ∧
      ((Basis.new lx ly n).trajCoeff xt')[i * n + j]? = some b ∧
      ((Basis.new lx ly n).trajCoeff (xt ++ xt'))[i * n + j]? = some c ∧
      c = (xt.length * a + xt'.length * b) / (xt.length + xt'.length) := by
  refine ⟨_, _, _, trajCoeff_entry lx ly n i j hi hj xt, trajCoeff_entry lx ly n i j hi hj xt',
    trajCoeff_entry lx ly n i j hi hj _, ?_⟩
  have h1 : (0:ℝ) < xt.length := by exact_mod_cast List.length_pos_iff.mpr h
  have h2 : (0:ℝ) < xt'.length := by exact_mod_cast List.length_pos_iff.mpr h'
  rw [List.map_append, List.sum_append, List.length_append]
  push_cast
  rw [mul_div_cancel₀ _ h1.ne', mul_div_cancel₀ _ h2.ne']

/-- C41: without columns the average is not a number. -/
theorem C41_empty_is_nan (lx ly : Dbl) (n : Nat) :
    ∀ v ∈ (Basis.new lx ly n).trajCoeff [], v = .nan := by
  intro v hv
  obtain ⟨k, _, rfl⟩ := List.mem_map.mp hv
  simp only [List.length_nil, List.map_nil, fsum, List.foldl_nil, Dbl.ofInt_eq, Dbl.lit_eq]
  norm_num
  rw [Dbl.div_zero_pos (by norm_num)]
  show Dbl.mul _ _ = _
  simp [Dbl.mul]

example : ([⟨1, 2, 0⟩, ⟨0.5, 1, 3⟩] : List (V3 ℝ)) ≠ [] ∧ (0 : Nat) < 2 := by simp

/-! ## C42 spatial coefficients -/

theorem spatialCoeff_ok (lx ly : ℝ) (n : Nat) (vals : List ℝ) (grid : List (V2 ℝ))
    (h : vals.length = grid.length) :
    (Basis.new lx ly n).spatialCoeff vals grid = .ok ((Basis.numbers n).map fun k =>
      (List.zipWith (fun p v => (Basis.new lx ly n).fk p k * v) grid vals).sum) := by
  unfold Basis.spatialCoeff
  rw [if_neg (by omega)]
  simp only [fsum_real, real_mul]
  rfl

/-- C42: coefficient `i*n + j` is the sum of basis function times target value. -/
theorem C42_entry (lx ly : ℝ) (n i j : Nat) (hi : i < n) (hj : j < n) (vals : List ℝ)
    (grid : List (V2 ℝ)) (h : vals.length = grid.length) :
    ∃ c, (Basis.new lx ly n).spatialCoeff vals grid = .ok c ∧ c.length = n * n ∧
      c[i * n + j]? =
        some (List.zipWith (fun p v => cosBasis lx ly j i p.c0 p.c1 * v) grid vals).sum := by
  refine ⟨_, spatialCoeff_ok lx ly n vals grid h, ?_, ?_⟩
  · rw [List.length_map]; exact (C39_enumeration ℝ lx ly n).1
  · rw [List.getElem?_map]
    have := C39_column ℝ lx ly n i j hi hj
    have hk : (Basis.numbers n)[i * n + j]? = some ((j : Int), (i : Int)) := this
    rw [hk, Option.map_some]
    simp only [fk_eq]
    rfl

theorem zipWith_linear (f : V2 ℝ → ℝ) (a b : ℝ) : ∀ (grid : List (V2 ℝ)) (v w : List ℝ),
    v.length = grid.length → w.length = grid.length →
    (List.zipWith (fun p x => f p * x) grid (List.zipWith (fun x y => a * x + b * y) v w)).sum =
      a * (List.zipWith (fun p x => f p * x) grid v).sum +
      b * (List.zipWith (fun p x => f p * x) grid w).sum
  | [], _, _, _, _ => by simp
  | p :: t, [], _, h, _ => by simp at h
  | p :: t, _, [], _, h => by simp at h
  | p :: t, x :: v, y :: w, h, h' => by
    have := zipWith_linear f a b t v w (by simpa using h) (by simpa using h')
    simp only [List.zipWith_cons_cons, List.sum_cons, this]
    ring

/-- C42: the coefficients are linear in the target values. -/
theorem C42_linear (lx ly : ℝ) (n : Nat) (grid : List (V2 ℝ)) (v w : List ℝ) (a b : ℝ)
    (hv : v.length = grid.length) (hw : w.length = grid.length) :
    ∃ cv cw, (Basis.new lx ly n).spatialCoeff v grid = .ok cv ∧
      (Basis.new lx ly n).spatialCoeff w grid = .ok cw ∧
      (Basis.new lx ly n).spatialCoeff (List.zipWith (fun x y => a * x + b * y) v w) grid =
        .ok (List.zipWith (fun x y => a * x + b * y) cv cw) := by
  refine ⟨_, _, spatialCoeff_ok lx ly n v grid hv, spatialCoeff_ok lx ly n w grid hw, ?_⟩
  rw [spatialCoeff_ok lx ly n _ grid (by simp [hv, hw]), List.zipWith_map, List.zipWith_self]
  congr 1
  apply List.map_congr_left
  intro k _
  exact zipWith_linear _ a b grid v w hv hw

theorem zipWith_abs_le (f : V2 ℝ → ℝ) (hf : ∀ p, |f p| ≤ 1) : ∀ (grid : List (V2 ℝ)) (v : List ℝ),
    v.length = grid.length → (∀ x ∈ v, 0 ≤ x) →
    |(List.zipWith (fun p x => f p * x) grid v).sum| ≤ v.sum
  | [], [], _, _ => by simp
  | [], _ :: _, h, _ => by simp at h
  | _ :: _, [], h, _ => by simp at h
  | p :: t, x :: v, h, h' => by
    have ih := zipWith_abs_le f hf t v (by simpa using h) (fun y hy => h' y (by simp [hy]))
    have hx := h' x (by simp)
    simp only [List.zipWith_cons_cons, List.sum_cons]
    calc |f p * x + _| ≤ |f p * x| + |(List.zipWith (fun p x => f p * x) t v).sum| := abs_add_le _ _
      _ ≤ x + v.sum := by
        rw [abs_mul, abs_of_nonneg hx]
        have := mul_le_mul_of_nonneg_right (hf p) hx
        linarith

/-- C42: for a normalised non-negative target all coefficients are in `[-1, 1]` and the first
one is 1. -/
theorem C42_normalised (lx ly : ℝ) (n : Nat) (hn : 0 < n) (grid : List (V2 ℝ)) (v : List ℝ)
    (hv : v.length = grid.length) (h0 : ∀ x ∈ v, 0 ≤ x) (h1 : v.sum = 1) :
    ∃ c, (Basis.new lx ly n).spatialCoeff v grid = .ok c ∧ c[0]? = some 1 ∧
      ∀ x ∈ c, -1 ≤ x ∧ x ≤ 1 := by
  obtain ⟨c, hc, _, he⟩ := C42_entry lx ly n 0 0 hn hn v grid hv
  refine ⟨c, hc, ?_, ?_⟩
  · simp only [Nat.zero_mul, Nat.add_zero] at he
    rw [he]
    congr 1
    rw [← h1]
    have : ∀ (grid : List (V2 ℝ)) (v : List ℝ), v.length = grid.length →
        (List.zipWith (fun p x => cosBasis lx ly 0 0 p.c0 p.c1 * x) grid v) = v := by
      intro grid
      induction grid with
      | nil => intro v h; rw [List.length_nil, List.length_eq_zero_iff] at h; simp [h]
      | cons p t ih =>
        intro v h
        cases v with
        | nil => simp at h
        | cons x v =>
          rw [List.zipWith_cons_cons, ih v (by simpa using h)]
          simp [cosBasis]
    rw [this grid v hv]
  · intro x hx
    rw [spatialCoeff_ok lx ly n v grid hv, Res.ok.injEq] at hc
    subst hc
    obtain ⟨k, _, rfl⟩ := List.mem_map.mp hx
    rw [← abs_le, ← h1]
    exact zipWith_abs_le (fun p => (Basis.new lx ly n).fk p k) (fun p => abs_fk_le _ _ _) grid v hv h0

/-- C42: too few target values are rejected. -/
theorem C42_too_few {F : Type} [Flt F] (b : Basis F) (v : List F) (grid : List (V2 F))
    (h : v.length < grid.length) : b.spatialCoeff v grid = .throw .logicError := by
  unfold Basis.spatialCoeff; rw [if_pos h]

example : (([0.25, 0.75] : List ℝ)).length = ([⟨0, 0⟩, ⟨1, 1⟩] : List (V2 ℝ)).length ∧
    (∀ x ∈ ([0.25, 0.75] : List ℝ), 0 ≤ x) ∧ ([0.25, 0.75] : List ℝ).sum = 1 := by
  refine ⟨rfl, ?_, ?_⟩
  · intro x hx; simp only [List.mem_cons, List.not_mem_nil, or_false] at hx
    rcases hx with rfl | rfl <;> norm_num
  · norm_num

/-! ## C74 frequency weights -/

/-- C74: the weight of column `i*n + j`, up to exact arithmetic, is `(1 + |(j, i)|)^(-3/2)`. -/
theorem C74_weights (lx ly : ℝ) (n i j : Nat) (hi : i < n) (hj : j < n) :
    (Basis.new lx ly n).lamdak[i * n + j]? =
      some ((1 + Real.sqrt ((j : ℝ) ^ 2 + (i : ℝ) ^ 2)) ^ (-(3 / 2) : ℝ)) := by
  have hk : (Basis.numbers n)[i * n + j]? = some ((j : Int), (i : Int)) :=
    C39_column ℝ lx ly n i j hi hj
  show ((Basis.numbers n).map Basis.weight)[i * n + j]? = _
  rw [List.getElem?_map, hk, Option.map_some, Basis.weight]
  simp only [real_div, real_lit, real_pow, real_add, real_sqrt, real_ofInt]
  have : (0:ℝ) ≤ 1 + Real.sqrt ((j : ℝ) ^ 2 + (i : ℝ) ^ 2) := by positivity
  rw [Real.rpow_neg this]
  push_cast
  norm_num [sq]

/-- C74: weights are in `(0, 1]` and the first one is 1. -/
theorem C74_range (lx ly : ℝ) (n : Nat) (hn : 0 < n) :
    (Basis.new lx ly n).lamdak[0]? = some 1 ∧
    ∀ w ∈ (Basis.new lx ly n).lamdak, 0 < w ∧ w ≤ 1 := by
  constructor
  · have := C74_weights lx ly n 0 0 hn hn
    simpa using this
  · intro w hw
    obtain ⟨k, _, rfl⟩ := List.mem_map.mp hw
    simp only [Basis.weight, real_div, real_lit, real_pow, real_add, real_sqrt, real_ofInt]
    norm_num
    have h1 : (1:ℝ) ≤ 1 + Real.sqrt ((k.1 : ℝ) * k.1 + (k.2 : ℝ) * k.2) := by
      linarith [Real.sqrt_nonneg ((k.1 : ℝ) * k.1 + (k.2 : ℝ) * k.2)]
    refine ⟨by positivity, ?_⟩
    apply inv_le_one_of_one_le₀
    exact Real.one_le_rpow h1 (by norm_num)

/-- C74: a higher frequency has a smaller weight. -/
theorem C74_decreasing (lx ly : ℝ) (n i j i' j' : Nat) (hi : i < n) (hj : j < n) (hi' : i' < n)
    (hj' : j' < n) (h : j ^ 2 + i ^ 2 < j' ^ 2 + i' ^ 2) :
    ∃ w w', (Basis.new lx ly n).lamdak[i * n + j]? = some w ∧
      (Basis.new lx ly n).lamdak[i' * n + j']? = some w' ∧ w' < w := by
  refine ⟨_, _, C74_weights lx ly n i j hi hj, C74_weights lx ly n i' j' hi' hj', ?_⟩
  have hc : (j : ℝ) ^ 2 + (i : ℝ) ^ 2 < (j' : ℝ) ^ 2 + (i' : ℝ) ^ 2 := by exact_mod_cast h
  apply Real.rpow_lt_rpow_of_neg
  · positivity
  · have := Real.sqrt_lt_sqrt (by positivity) hc
    linarith
  · norm_num

example : (1:Nat) < 3 ∧ (2:Nat) < 3 ∧ (1:Nat) ^ 2 + 0 ^ 2 < 1 ^ 2 + 2 ^ 2 := by decide

end Ergodic
