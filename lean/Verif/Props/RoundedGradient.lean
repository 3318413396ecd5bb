import Verif.Props.RoundedSums
import Verif.Model.ErgodicControl

/-!
# Property C123, continued: the gradient of the metric with rounding

The rows of `gradFourierBasis * fourier_diff` (ergodic_control.hpp:418-436) with every operation
rounded and added in any order, against the derivatives of the cosine basis.
-/

namespace Ergodic
open Real
variable {M : Machine}

/-- One partial derivative: `-k1 sin(k1 x) cos(k2 y)` as the code computes it. -/
theorem slope_error (hT : AccurateTrig M) {L L' x y c : ℝ} {k k' : ℕ} (hL : 0 < L) (hL1 : L ≤ 2 ^ 100)
    (hL' : 0 < L') (hL1' : L' ≤ 2 ^ 100) (hc : 1 ≤ c) (hx : |x| ≤ c * L) (hy : |y| ≤ c * L') {s κ : ℝ}
    (hs : s = M.sin (M.rnd (M.rnd (k * M.rnd (M.rnd π / L)) * x)))
    (hκ : κ = M.cos (M.rnd (M.rnd (k' * M.rnd (M.rnd π / L')) * y))) (Q : ℝ)
    (hQ : Q = M.rnd (M.rnd (-M.rnd (k * M.rnd (M.rnd π / L)) * s) * κ) ∨
      Q = M.rnd (M.rnd (-M.rnd (k * M.rnd (M.rnd π / L)) * κ) * s)) :
    M.rnd Q = Q ∧ |Q| ≤ 8 * (k * (1 / L)) ∧
    |Q - -(k * π * (1 / L)) * sin (k * π * x / L) * cos (k' * π * y / L')| ≤
      k * (1 / L) * ((1 + 2 * (k + k') * c) / 2 ^ 46) := by
  have hidem : M.rnd Q = Q := by rcases hQ with rfl | rfl <;> exact M.idem _
  refine ⟨hidem, ?_⟩
  obtain ⟨f1, f2⟩ := basis_freq (M := M) (k := k) hL hL1
  have cx := basis_arg (M := M) (k := k) hL hL1 hc hx
  have cy := basis_arg (M := M) (k := k') hL' hL1' hc hy
  have iL : 0 < 1 / L := by positivity
  have w : (1 : ℝ) / 2 ^ 100 ≤ 1 / L := one_div_le_one_div_of_le hL hL1
  have hs1 : |s| ≤ 1 := by rw [hs]; exact M.sin_le _
  have hκ1 : |κ| ≤ 1 := by rw [hκ]; exact M.cos_le _
  rcases Nat.eq_zero_or_pos k with rfl | hk
  · have : Q = 0 := by rcases hQ with rfl | rfl <;> simp
    subst this
    simp
  have hk1 : (1 : ℝ) ≤ k := by exact_mod_cast hk
  have es : |s - sin (k * π * x / L)| ≤ (19 * (k * c) + 2) / 2 ^ 52 := by
    generalize M.rnd (M.rnd (k * M.rnd (M.rnd π / L)) * x) = p at *
    rw [hs, show M.sin p - sin (k * π * x / L) =
      (M.sin p - sin p) + (sin p - sin (k * π * x / L)) by ring]
    refine (abs_add_le _ _).trans ?_
    have h1 := hT.sin p
    have h2 := (abs_sin_sub_sin_le p (k * π * x / L)).trans cx
    have h3 : |sin p| / 2 ^ 52 ≤ 1 / 2 ^ 52 := by gcongr; exact abs_sin_le_one p
    have h4 := tiny_le 52 (by norm_num)
    calc _ ≤ (1 / 2 ^ 52 + 1 / 2 ^ 52) + k * c * (19 / 2 ^ 52) := by linarith
      _ = _ := by ring
  have eκ : |κ - cos (k' * π * y / L')| ≤ (19 * (k' * c) + 1) / 2 ^ 52 := by
    generalize M.rnd (M.rnd (k' * M.rnd (M.rnd π / L')) * y) = p at *
    rw [hκ, show M.cos p - cos (k' * π * y / L') =
      (M.cos p - cos p) + (cos p - cos (k' * π * y / L')) by ring]
    refine (abs_add_le _ _).trans ?_
    have h1 := hT.cos p
    have h2 := (abs_cos_sub_cos_le p (k' * π * y / L')).trans cy
    calc _ ≤ 1 / 2 ^ 52 + k' * c * (19 / 2 ^ 52) := by linarith
      _ = _ := by ring
  clear hs hκ cx cy
  have S1 := abs_sin_le_one (k * π * x / L)
  have K1 := abs_cos_le_one (k' * π * y / L')
  generalize sin (k * π * x / L) = S at *
  generalize cos (k' * π * y / L') = K at *
  generalize M.rnd (k * M.rnd (M.rnd π / L)) = a at *
  set i := 1 / L with hi
  have ki0 : 0 ≤ k * i := by positivity
  have ki1 : i ≤ k * i := by nlinarith
  have hmin : ∀ n : ℝ, 1 ≤ n → minNormal ≤ n * (k * i) := fun n hn => by
    refine minNormal_small ?_
    refine le_trans ?_ (by nlinarith : i ≤ n * (k * i))
    refine le_trans ?_ w
    norm_num
  have hW : |k * π * i| ≤ 4 * (k * i) := by
    rw [abs_of_pos (by positivity)]
    nlinarith [pi_lt_four]
  -- both orders of multiplication are one case: `u` first, then `v`
  have main : ∀ u v U V eu ev : ℝ, |u| ≤ 1 → |v| ≤ 1 → |U| ≤ 1 → |V| ≤ 1 → |u - U| ≤ eu / 2 ^ 52 →
      |v - V| ≤ ev / 2 ^ 52 →
      |M.rnd (M.rnd (-a * u) * v)| ≤ 8 * (k * i) ∧
      |M.rnd (M.rnd (-a * u) * v) - -(k * π * i) * U * V| ≤ k * i * ((26 + 4 * (eu + ev)) / 2 ^ 52) := by
    intro u v U V eu ev hu hv hU hV hue hve
    have a1 : |-a * u| ≤ 6 * (k * i) := by
      rw [abs_mul, abs_neg]
      exact (mul_le_of_le_one_right (abs_nonneg _) hu).trans f2
    have r1 := M.err (hmin 6 (by norm_num)) a1
    have p1 : |M.rnd (-a * u)| ≤ 7 * (k * i) := by
      have := abs_add_le (M.rnd (-a * u) - -a * u) (-a * u)
      rw [sub_add_cancel] at this
      have : 6 * (k * i) / 2 ^ 52 ≤ k * i := by norm_num; linarith
      linarith
    have d1 : |-a * u - -(k * π * i) * U| ≤ 13 * (k * i) / 2 ^ 52 + 4 * (k * i) * (eu / 2 ^ 52) := by
      rw [show -a * u - -(k * π * i) * U = -((a - k * π * i) * u) + -((k * π * i) * (u - U)) by ring]
      refine (abs_add_le _ _).trans ?_
      rw [abs_neg, abs_neg, abs_mul, abs_mul]
      refine add_le_add ((mul_le_of_le_one_right (abs_nonneg _) hu).trans f1) ?_
      exact mul_le_mul hW hue (abs_nonneg _) (by positivity)
    have d2 : |M.rnd (-a * u) - -(k * π * i) * U| ≤
        6 * (k * i) / 2 ^ 52 + (13 * (k * i) / 2 ^ 52 + 4 * (k * i) * (eu / 2 ^ 52)) := by
      rw [show M.rnd (-a * u) - -(k * π * i) * U =
        (M.rnd (-a * u) - -a * u) + (-a * u - -(k * π * i) * U) by ring]
      exact (abs_add_le _ _).trans (add_le_add r1 d1)
    generalize M.rnd (-a * u) = p at *
    have b1 : |p * v| ≤ 7 * (k * i) := by
      rw [abs_mul]
      exact (mul_le_of_le_one_right (abs_nonneg _) hv).trans p1
    have r2 := M.err (hmin 7 (by norm_num)) b1
    constructor
    · have := abs_add_le (M.rnd (p * v) - p * v) (p * v)
      rw [sub_add_cancel] at this
      have : 7 * (k * i) / 2 ^ 52 ≤ k * i := by norm_num; linarith
      linarith
    · rw [show M.rnd (p * v) - -(k * π * i) * U * V = (M.rnd (p * v) - p * v) +
        ((p - -(k * π * i) * U) * v + -(k * π * i) * U * (v - V)) by ring]
      have t1 := abs_add_le (M.rnd (p * v) - p * v)
        ((p - -(k * π * i) * U) * v + -(k * π * i) * U * (v - V))
      have t2 := abs_add_le ((p - -(k * π * i) * U) * v) (-(k * π * i) * U * (v - V))
      rw [abs_mul, abs_mul _ (v - V)] at t2
      have t3 := (mul_le_of_le_one_right (abs_nonneg (p - -(k * π * i) * U)) hv).trans d2
      have t4 : |-(k * π * i) * U| ≤ 4 * (k * i) := by
        rw [abs_mul, abs_neg]
        exact (mul_le_of_le_one_right (abs_nonneg _) hU).trans hW
      have t5 := mul_le_mul t4 hve (abs_nonneg _) (by positivity)
      calc _ ≤ 7 * (k * i) / 2 ^ 52 + ((6 * (k * i) / 2 ^ 52 + (13 * (k * i) / 2 ^ 52
            + 4 * (k * i) * (eu / 2 ^ 52))) + 4 * (k * i) * (ev / 2 ^ 52)) := by linarith
        _ = _ := by ring
  have hfin : k * i * ((26 + 4 * ((19 * (k * c) + 2) + (19 * (k' * c) + 1))) / 2 ^ 52) ≤
      k * i * ((1 + 2 * (k + k') * c) / 2 ^ 46) := by
    refine mul_le_mul_of_nonneg_left ?_ ki0
    have : (1 + 2 * (k + k') * c) / 2 ^ 46 = (64 + 128 * (k * c) + 128 * (k' * c)) / 2 ^ 52 := by ring
    rw [this]
    have n1 : 0 ≤ k * c := by positivity
    have n2 : 0 ≤ k' * c := by positivity
    refine (div_le_div_iff_of_pos_right (by positivity)).mpr ?_
    linarith
  rcases hQ with rfl | rfl
  · obtain ⟨m1, m2⟩ := main s κ S K _ _ hs1 hκ1 S1 K1 es eκ
    exact ⟨m1, m2.trans hfin⟩
  · obtain ⟨m1, m2⟩ := main κ s K S _ _ hκ1 hs1 K1 S1 eκ es
    refine ⟨m1, ?_⟩
    rw [mul_right_comm, add_comm (19 * (k' * c) + 1)] at m2
    exact m2.trans hfin

theorem cosBasis_dx (Lx Ly : ℝ) (k1 k2 : ℕ) (x y : ℝ) :
    deriv (fun s => cosBasis Lx Ly k1 k2 s y) x =
      -(k1 * π * (1 / Lx)) * sin (k1 * π * x / Lx) * cos (k2 * π * y / Ly) := by
  have h1 : HasDerivAt (fun x : ℝ => (k1 : ℝ) * π * x / Lx) ((k1 : ℝ) * π * 1 / Lx) x :=
    ((hasDerivAt_id x).const_mul _).div_const _
  have h2 := ((h1.cos).mul_const (cos (k2 * π * y / Ly))).deriv
  unfold cosBasis
  rw [h2]
  ring

theorem cosBasis_dy (Lx Ly : ℝ) (k1 k2 : ℕ) (x y : ℝ) :
    deriv (fun s => cosBasis Lx Ly k1 k2 x s) y =
      -(k2 * π * (1 / Ly)) * sin (k2 * π * y / Ly) * cos (k1 * π * x / Lx) := by
  have h1 : HasDerivAt (fun y : ℝ => (k2 : ℝ) * π * y / Ly) ((k2 : ℝ) * π * 1 / Ly) y :=
    ((hasDerivAt_id y).const_mul _).div_const _
  have h2 := ((h1.cos).const_mul (cos (k1 * π * x / Lx))).deriv
  unfold cosBasis
  rw [h2]
  ring

/-- The partial derivatives of a basis function with rounding. -/
theorem C123_slopes (hT : AccurateTrig M) {b : Basis (RDbl M)} {p : V2 (RDbl M)} {c : ℝ} {k1 k2 : ℕ}
    (h : InScale b.lx b.ly c p.c0 p.c1) (h1 : k1 ≤ 2 ^ 53) (h2 : k2 ≤ 2 ^ 53) (hc : 1 ≤ c) :
    ∃ u v, b.dfk p (k1, k2) = ⟨.fin u, .fin v⟩ ∧ |u| ≤ 8 * (k1 * (1 / b.lx.val)) ∧
      |v| ≤ 8 * (k2 * (1 / b.ly.val)) ∧
      |u - deriv (fun s => cosBasis b.lx.val b.ly.val k1 k2 s p.c1.val) p.c0.val| ≤
        slopeError k1 k2 b.lx.val c ∧
      |v - deriv (fun s => cosBasis b.lx.val b.ly.val k1 k2 p.c0.val s) p.c1.val| ≤
        slopeError k2 k1 b.ly.val c := by
  obtain ⟨hbx, hby, ex, ey, hx0, hx1, hy0, hy1, hx, hy⟩ := h
  obtain ⟨p0, p1⟩ := p
  dsimp only at *
  rw [cosBasis_dx, cosBasis_dy]
  generalize b.lx.val = Lx at *
  generalize b.ly.val = Ly at *
  generalize p0.val = x at *
  generalize p1.val = y at *
  subst ex ey
  have r1 : M.rnd (k1 : ℝ) = k1 := M.rnd_nat h1
  have r2 : M.rnd (k2 : ℝ) = k2 := M.rnd_nat h2
  obtain ⟨-, q1, q2⟩ := slope_error hT (k := k1) (k' := k2) hx0 hx1 hy0 hy1 hc hx hy rfl rfl _ (.inl rfl)
  obtain ⟨-, q3, q4⟩ := slope_error hT (k := k2) (k' := k1) hy0 hy1 hx0 hx1 hc hy hx rfl rfl _ (.inr rfl)
  refine ⟨_, _, ?_, q1, q3, q2, q4⟩
  simp [Basis.dfk, hbx, hby, RDbl.div_fin _ hx0.ne', RDbl.div_fin _ hy0.ne', r1, r2]

/-- Products added in any order: factors `f` with errors `e` and sizes `B`, times exact `φ`. -/
theorem C123_products {α : Type} {l : List α} {f E φ e B : α → ℝ} (hn : l.length ≤ 2 ^ 50)
    (hf : ∀ a ∈ l, |f a - E a| ≤ e a) (hB : ∀ a ∈ l, |f a| ≤ B a) {s : RDbl M}
    (h : IsSum (l.map fun a => RDbl.fin (f a) *. .fin (φ a)) s) :
    ∃ v, s = .fin v ∧ |v - (l.map fun a => E a * φ a).sum| ≤
      (l.map fun a => |φ a| * (e a + B a * ((l.length + 1) / 2 ^ 51))).sum + 4 * l.length * tiny := by
  have pt := tiny_pos
  have hterms : (l.map fun a => RDbl.fin (f a) *. .fin (φ a)) =
      (l.map fun a => M.rnd (f a * φ a)).map (RDbl.fin (M := M)) := by
    rw [List.map_map]; rfl
  rw [hterms] at h
  obtain ⟨s, rfl, es⟩ := C123_any_order _ (by
    intro v hv
    obtain ⟨p, -, rfl⟩ := List.mem_map.mp hv
    exact M.idem _) (by rw [List.length_map]; exact hn) s h
  refine ⟨s, rfl, ?_⟩
  rw [List.length_map] at es
  set T := fun a => M.rnd (f a * φ a) with hT
  have a2 : ∀ a ∈ l, |f a * φ a| ≤ |φ a| * B a := fun a ha => by
    rw [abs_mul, mul_comm]
    exact mul_le_mul_of_nonneg_left (hB a ha) (abs_nonneg _)
  have t1 : ∀ a ∈ l, |T a - E a * φ a| ≤ |φ a| * (e a + B a / 2 ^ 53) + tiny := by
    intro a ha
    have a1 := M.near (f a * φ a)
    rw [show T a - E a * φ a = (M.rnd (f a * φ a) - f a * φ a) + (f a - E a) * φ a by simp only [hT]; ring]
    refine (abs_add_le _ _).trans ?_
    rw [abs_mul (f a - E a)]
    have a3 := mul_le_mul_of_nonneg_right (hf a ha) (abs_nonneg (φ a))
    have a4 : |f a * φ a| / 2 ^ 53 ≤ |φ a| * B a / 2 ^ 53 := by gcongr; exact a2 a ha
    calc _ ≤ (|φ a| * B a / 2 ^ 53 + tiny) + e a * |φ a| := by linarith
      _ = _ := by ring
  have t2 : ∀ a ∈ l, |T a| ≤ 2 * (|φ a| * B a) + tiny := by
    intro a ha
    have a1 := M.near (f a * φ a)
    have a3 := abs_add_le (M.rnd (f a * φ a) - f a * φ a) (f a * φ a)
    rw [sub_add_cancel] at a3
    have a4 : |f a * φ a| / 2 ^ 53 ≤ |f a * φ a| := div_le_self (abs_nonneg _) (by norm_num)
    have := a2 a ha
    show |M.rnd (f a * φ a)| ≤ _
    linarith
  have u0 := sum_const_le (fun _ : α => tiny) tiny l fun _ _ => le_rfl
  have u1 : |(l.map T).sum - (l.map fun a => E a * φ a).sum| ≤
      (l.map fun a => |φ a| * (e a + B a / 2 ^ 53)).sum + l.length * tiny := by
    refine (sum_diff_le _ _ _ _ t1).trans ?_
    rw [List.sum_map_add]
    linarith
  have u2 : absSum (l.map T) ≤ 2 * (l.map fun a => |φ a| * B a).sum + l.length * tiny := by
    have : absSum (l.map T) ≤ (l.map fun a => 2 * (|φ a| * B a) + tiny).sum := by
      rw [absSum, List.map_map]
      exact List.sum_le_sum fun a ha => t2 a ha
    refine this.trans ?_
    rw [List.sum_map_add, List.sum_map_mul_left]
    linarith
  have hN : ((l.length - 1 : ℕ) : ℝ) ≤ l.length := by exact_mod_cast Nat.sub_le _ _
  have hn2 : (l.length : ℝ) ≤ 2 ^ 50 := by exact_mod_cast hn
  have n0 : (0 : ℝ) ≤ l.length := by positivity
  have m0 : (0 : ℝ) ≤ (l.length - 1 : ℕ) := by positivity
  have A0 := absSum_nonneg (l.map T)
  have W0 : 0 ≤ (l.map fun a => |φ a| * B a).sum := List.sum_nonneg (by
    intro x hx
    obtain ⟨a, ha, rfl⟩ := List.mem_map.mp hx
    exact (abs_nonneg _).trans (a2 a ha))
  have v1 : (l.map fun a => |φ a| * (e a + B a / 2 ^ 53)).sum =
      (l.map fun a => |φ a| * e a).sum + (l.map fun a => |φ a| * B a).sum * (1 / 2 ^ 53) := by
    rw [← List.sum_map_mul_right, ← List.sum_map_add]
    congr 1
    exact List.map_congr_left fun a _ => by ring
  have v2 : (l.map fun a => |φ a| * (e a + B a * ((l.length + 1) / 2 ^ 51))).sum =
      (l.map fun a => |φ a| * e a).sum +
        (l.map fun a => |φ a| * B a).sum * ((l.length + 1) / 2 ^ 51) := by
    rw [← List.sum_map_mul_right, ← List.sum_map_add]
    congr 1
    exact List.map_congr_left fun a _ => by ring
  rw [v1] at u1
  rw [v2]
  generalize (l.map fun a => |φ a| * e a).sum = X at *
  generalize (l.map fun a => |φ a| * B a).sum = W at *
  generalize (l.map fun a => E a * φ a).sum = Q at *
  generalize (l.map T).sum = V at *
  generalize absSum (l.map T) = A at *
  generalize ((l.length - 1 : ℕ) : ℝ) = m at *
  generalize (l.length : ℝ) = n at *
  have u3 : |s - V| ≤ n * ((2 * W + n * tiny) / 2 ^ 52 + 2 * tiny) := by
    refine es.trans (mul_le_mul hN ?_ (by positivity) n0)
    have : A / 2 ^ 52 ≤ (2 * W + n * tiny) / 2 ^ 52 := by gcongr
    linarith
  rw [show s - Q = (s - V) + (V - Q) by ring]
  refine (abs_add_le _ _).trans ?_
  calc _ ≤ n * ((2 * W + n * tiny) / 2 ^ 52 + 2 * tiny) + (X + W * (1 / 2 ^ 53) + n * tiny) :=
        add_le_add u3 u1
    _ = X + W * (n / 2 ^ 51 + 1 / 2 ^ 53) + n * (n * tiny) / 2 ^ 52 + 3 * n * tiny := by ring
    _ ≤ X + W * (n / 2 ^ 51 + 1 / 2 ^ 53) + n * (2 ^ 50 * tiny) / 2 ^ 52 + 3 * n * tiny := by gcongr
    _ ≤ _ := by
      have : 0 ≤ n * tiny := by positivity
      have : X + W * ((n + 1) / 2 ^ 51) + 4 * n * tiny -
        (X + W * (n / 2 ^ 51 + 1 / 2 ^ 53) + n * (2 ^ 50 * tiny) / 2 ^ 52 + 3 * n * tiny) =
        W * (3 / 2 ^ 53) + 3 / 4 * (n * tiny) := by ring
      have : 0 ≤ W * (3 / 2 ^ 53) := by positivity
      linarith

/-- The frequencies of the columns, as integers. -/
def freqs (ks : List (ℕ × ℕ)) : List (Int × Int) := ks.map fun k => ((k.1 : Int), (k.2 : Int))

/-- The gradient with rounding, added in any order: `gradFourierBasis(x) * w` is the gradient of the
combination of basis functions with weights `w`, up to `slopeError` and eight units in the last
place per term. -/
theorem C123_gradient (hT : AccurateTrig M) {b : Basis (RDbl M)} {p : V2 (RDbl M)} {c : ℝ}
    {ks : List (ℕ × ℕ)} (hk : b.k = freqs ks) (hks : ∀ k ∈ ks, k.1 ≤ 2 ^ 53 ∧ k.2 ≤ 2 ^ 53)
    (hn : ks.length ≤ 2 ^ 50) (h : InScale b.lx b.ly c p.c0 p.c1) (hc : 1 ≤ c) (w : ℕ × ℕ → ℝ)
    {gx gy : RDbl M}
    (hx : IsSum (List.zipWith (fun d w => d.c0 *. w) (b.gradFourierBasis p)
      (ks.map fun k => .fin (w k))) gx)
    (hy : IsSum (List.zipWith (fun d w => d.c1 *. w) (b.gradFourierBasis p)
      (ks.map fun k => .fin (w k))) gy) :
    ∃ u v, gx = .fin u ∧ gy = .fin v ∧
      |u - deriv (fun s => (ks.map fun k =>
          cosBasis b.lx.val b.ly.val k.1 k.2 s p.c1.val * w k).sum) p.c0.val| ≤
        (ks.map fun k => |w k| * (slopeError k.1 k.2 b.lx.val c +
          8 * (k.1 * (1 / b.lx.val)) * ((ks.length + 1) / 2 ^ 51))).sum + 4 * ks.length * tiny ∧
      |v - deriv (fun s => (ks.map fun k =>
          cosBasis b.lx.val b.ly.val k.1 k.2 p.c0.val s * w k).sum) p.c1.val| ≤
        (ks.map fun k => |w k| * (slopeError k.2 k.1 b.ly.val c +
          8 * (k.2 * (1 / b.ly.val)) * ((ks.length + 1) / 2 ^ 51))).sum + 4 * ks.length * tiny := by
  have hd : ∀ k ∈ ks, ∃ u v, b.dfk p ((k.1 : Int), (k.2 : Int)) = ⟨.fin u, .fin v⟩ ∧
      |u| ≤ 8 * (k.1 * (1 / b.lx.val)) ∧ |v| ≤ 8 * (k.2 * (1 / b.ly.val)) ∧
      |u - deriv (fun s => cosBasis b.lx.val b.ly.val k.1 k.2 s p.c1.val) p.c0.val| ≤
        slopeError k.1 k.2 b.lx.val c ∧
      |v - deriv (fun s => cosBasis b.lx.val b.ly.val k.1 k.2 p.c0.val s) p.c1.val| ≤
        slopeError k.2 k.1 b.ly.val c :=
    fun k hk' => C123_slopes hT h (hks k hk').1 (hks k hk').2 hc
  have ex : List.zipWith (fun d w => d.c0 *. w) (b.gradFourierBasis p) (ks.map fun k => .fin (w k)) =
      ks.map fun k => RDbl.fin (b.dfk p ((k.1 : Int), (k.2 : Int))).c0.val *. RDbl.fin (w k) := by
    unfold Basis.gradFourierBasis
    rw [hk, freqs, List.map_map, List.zipWith_map, List.zipWith_self]
    refine List.map_congr_left fun k hk' => ?_
    obtain ⟨u, v, e, -⟩ := hd k hk'
    simp only [Function.comp, e, val_fin]
  have ey : List.zipWith (fun d w => d.c1 *. w) (b.gradFourierBasis p) (ks.map fun k => .fin (w k)) =
      ks.map fun k => RDbl.fin (b.dfk p ((k.1 : Int), (k.2 : Int))).c1.val *. RDbl.fin (w k) := by
    unfold Basis.gradFourierBasis
    rw [hk, freqs, List.map_map, List.zipWith_map, List.zipWith_self]
    refine List.map_congr_left fun k hk' => ?_
    obtain ⟨u, v, e, -⟩ := hd k hk'
    simp only [Function.comp, e, val_fin]
  rw [ex] at hx
  rw [ey] at hy
  have dsum : ∀ (f : ℕ × ℕ → ℝ → ℝ) (z : ℝ), (∀ k, DifferentiableAt ℝ (f k) z) →
      deriv (fun s => (ks.map fun k => f k s * w k).sum) z =
        (ks.map fun k => deriv (f k) z * w k).sum := by
    intro f z hf
    refine HasDerivAt.deriv ?_
    clear hks hn hd ex ey hx hy hk
    induction ks with
    | nil => simpa using hasDerivAt_const z (0 : ℝ)
    | cons k ks ih =>
      simp only [List.map_cons, List.sum_cons]
      exact ((hf k).hasDerivAt.mul_const (w k)).add ih
  obtain ⟨u, hu, eu⟩ := C123_products (M := M) hn
    (E := fun k => deriv (fun s => cosBasis b.lx.val b.ly.val k.1 k.2 s p.c1.val) p.c0.val)
    (e := fun k => slopeError k.1 k.2 b.lx.val c) (B := fun k => 8 * (k.1 * (1 / b.lx.val)))
    (fun k hk' => by obtain ⟨u, v, e, -, -, q, -⟩ := hd k hk'; rw [e]; exact q)
    (fun k hk' => by obtain ⟨u, v, e, q, -⟩ := hd k hk'; rw [e]; exact q) hx
  obtain ⟨v, hv, ev⟩ := C123_products (M := M) hn
    (E := fun k => deriv (fun s => cosBasis b.lx.val b.ly.val k.1 k.2 p.c0.val s) p.c1.val)
    (e := fun k => slopeError k.2 k.1 b.ly.val c) (B := fun k => 8 * (k.2 * (1 / b.ly.val)))
    (fun k hk' => by obtain ⟨u, v, e, -, -, -, q⟩ := hd k hk'; rw [e]; exact q)
    (fun k hk' => by obtain ⟨u, v, e, -, q, -⟩ := hd k hk'; rw [e]; exact q) hy
  refine ⟨u, v, hu, hv, ?_, ?_⟩
  · rw [dsum (fun k s => cosBasis b.lx.val b.ly.val k.1 k.2 s p.c1.val) p.c0.val
      (fun k => by unfold cosBasis; fun_prop)]
    exact eu
  · rw [dsum (fun k s => cosBasis b.lx.val b.ly.val k.1 k.2 p.c0.val s) p.c1.val
      (fun k => by unfold cosBasis; fun_prop)]
    exact ev

/-- The order of the model is one of the orders. -/
theorem C123_model_gradient {F : Type} [Flt F] (b : Basis F) (p : V2 F) (diff : List F) :
    IsSum (List.zipWith (fun d w => d.c0 *. w) (b.gradFourierBasis p) diff)
        (ErgodicControl.gradTimes b p diff).c0 ∧
      IsSum (List.zipWith (fun d w => d.c1 *. w) (b.gradFourierBasis p) diff)
        (ErgodicControl.gradTimes b p diff).c1 :=
  ⟨C123_fsum _, C123_fsum _⟩

/-- The frequencies of ten by ten basis functions. -/
def tenFreqs : List (ℕ × ℕ) :=
  (List.range 10).flatMap fun i => (List.range 10).map fun j => (j, i)

theorem unit_freqs : unitBasis.k = freqs tenFreqs := by
  show Basis.numbers 10 = _
  decide

/-- Not vacuous: the gradient of the sum of all basis functions of the unit square, in binary64 and
in the order of the model; the allowance is below one in ten million. -/
example : ∃ u v : ℝ, ErgodicControl.gradTimes unitBasis ⟨.fin (1 / 3), .fin (1 / 2)⟩
      (tenFreqs.map fun _ => .fin 1) = ⟨.fin u, .fin v⟩ ∧
    |u - deriv (fun s => (tenFreqs.map fun k => cosBasis 1 1 k.1 k.2 s (1 / 2) * 1).sum) (1 / 3)| ≤
      1 / 10 ^ 7 := by
  obtain ⟨u, v, hu, hv, e, -⟩ := C123_gradient ieee_trig unit_freqs (by decide) (by decide)
    (unit_scale (x := 1 / 3) (y := 1 / 2) (by rw [abs_le]; norm_num) (by rw [abs_le]; norm_num))
    (p := ⟨.fin (1 / 3), .fin (1 / 2)⟩) (by norm_num) (fun _ => 1)
    (C123_model_gradient _ _ _).1 (C123_model_gradient _ _ _).2
  have h1 : unitBasis.lx.val = 1 := rfl
  have h2 : unitBasis.ly.val = 1 := rfl
  simp only [h1, h2, val_fin] at e
  refine ⟨u, v, ?_, e.trans ?_⟩
  · rw [← hu, ← hv]
  · have hlen : tenFreqs.length = 100 := by decide
    have hb : ∀ k ∈ tenFreqs, k.1 ≤ 9 ∧ k.2 ≤ 9 := by decide
    have := sum_const_le (fun k : ℕ × ℕ => |(1 : ℝ)| * (slopeError k.1 k.2 1 2 +
      8 * (k.1 * (1 / 1)) * ((tenFreqs.length + 1) / 2 ^ 51))) (1 / 10 ^ 10) tenFreqs (by
        intro k hk
        have a1 : (k.1 : ℝ) ≤ 9 := by exact_mod_cast (hb k hk).1
        have a2 : (k.2 : ℝ) ≤ 9 := by exact_mod_cast (hb k hk).2
        have a0 : (0 : ℝ) ≤ k.1 := by positivity
        have b0 : (0 : ℝ) ≤ k.2 := by positivity
        rw [hlen]
        unfold slopeError
        rw [abs_one]
        have : (k.1 : ℝ) * (k.1 + k.2) ≤ 9 * 18 := by nlinarith
        norm_num
        nlinarith)
    refine (add_le_add_left this _).trans ?_
    have ht := tiny_le 60 (by norm_num)
    rw [hlen]
    norm_num at ht ⊢
    linarith

end Ergodic
