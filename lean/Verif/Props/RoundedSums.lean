import Verif.Model.Summation
import Verif.Props.RoundedMotion
import Verif.Spec.RoundedSums

/-!
# Property C123: coefficients with rounding, in any order of summation

The exact results C41, C42 and C44 with every operation rounded, and with the sums taken in an
order the code does not control.
-/

namespace Ergodic
open Real
variable {M : Machine}

/-! ## the order of the model is one of the orders -/

section order
variable {F : Type} [Flt F]

theorem isSum_foldl (l : List F) : ∀ t : SumTree F,
    ∃ t' : SumTree F, t'.terms = t.terms ++ l ∧ t'.eval = l.foldl (fun s x => s +. x) t.eval := by
  induction l with
  | nil => exact fun t => ⟨t, by simp, rfl⟩
  | cons a l ih =>
    intro t
    obtain ⟨t', h1, h2⟩ := ih (.add t (.term a))
    exact ⟨t', by rw [h1]; simp [SumTree.terms], by rw [h2]; rfl⟩

/-- Adding left to right from zero is one of the orders. -/
theorem C123_fsum (l : List F) : IsSum l (fsum l) := by
  obtain ⟨t, h1, h2⟩ := isSum_foldl l .zero
  exact ⟨t, by rw [h1]; rfl, h2⟩

theorem C123_model_traj (b : Basis F) (xt : List (V3 F)) (i : Nat) (k : Int × Int)
    (hk : b.k[i]? = some k) : ∃ c, (b.trajCoeff xt)[i]? = some c ∧ b.IsTrajCoeff xt k c :=
  ⟨_, by simp only [Basis.trajCoeff, List.getElem?_map, hk]; rfl, _, C123_fsum _, rfl⟩

theorem C123_model_spatial (b : Basis F) (vals : List F) (pts : List (V2 F)) (l : List F)
    (h : b.spatialCoeff vals pts = .ok l) (i : Nat) (k : Int × Int) (hk : b.k[i]? = some k) :
    ∃ c, l[i]? = some c ∧ b.IsSpatialCoeff vals pts k c := by
  unfold Basis.spatialCoeff at h
  split at h
  · cases h
  · obtain rfl := Res.ok.inj h
    exact ⟨_, by simp only [List.getElem?_map, hk]; rfl, C123_fsum _⟩

theorem C123_model_fill (t : Target F) (trans : V2 F) (pts : List (V2 F)) :
    t.IsFill trans pts (t.fill trans pts) :=
  ⟨_, C123_fsum _, by simp [Target.fill]⟩

end order

/-! ## sums -/

theorem absSum_nonneg (l : List ℝ) : 0 ≤ absSum l :=
  List.sum_nonneg (by simp only [List.mem_map]; rintro _ ⟨x, _, rfl⟩; exact abs_nonneg x)

theorem absSum_append (l m : List ℝ) : absSum (l ++ m) = absSum l + absSum m := by
  simp [absSum]

theorem abs_sum_le_absSum (l : List ℝ) : |l.sum| ≤ absSum l := by
  induction l with
  | nil => simp [absSum]
  | cons a l ih =>
    rw [List.sum_cons]
    refine (abs_add_le _ _).trans ?_
    simp only [absSum, List.map_cons, List.sum_cons] at ih ⊢
    linarith

theorem sum_tree_error (t : SumTree (RDbl M)) : ∀ l : List ℝ, t.terms = l.map RDbl.fin →
    (∀ x ∈ l, M.rnd x = x) → l.length ≤ 2 ^ 50 →
    ∃ s, t.eval = .fin s ∧ M.rnd s = s ∧
      ((l = [] ∧ s = 0) ∨
        (l ≠ [] ∧ |s - l.sum| ≤ (l.length - 1) * (absSum l / 2 ^ 52 + 2 * tiny))) := by
  induction t with
  | zero =>
    intro l hl _ _
    have : l = [] := by simpa [SumTree.terms] using hl.symm
    exact ⟨0, by simp [SumTree.eval], M.rnd_zero, .inl ⟨this, rfl⟩⟩
  | term x =>
    intro l hl hm _
    obtain ⟨y, rfl⟩ : ∃ y, l = [y] := by
      have := congrArg List.length hl
      simp only [SumTree.terms, List.length_map, List.length_singleton] at this
      exact List.length_eq_one_iff.mp this.symm
    refine ⟨y, by simpa [SumTree.terms, SumTree.eval] using hl, hm y (by simp), .inr ⟨by simp, ?_⟩⟩
    simp
  | add a b iha ihb =>
    intro l hl hm hn
    simp only [SumTree.terms] at hl
    obtain ⟨la, lb, rfl, ha, hb⟩ := List.append_eq_map_iff.mp hl
    rw [List.length_append] at hn
    obtain ⟨s, hs, ms, ds⟩ := iha la ha.symm (fun x hx => hm x (by simp [hx])) (by omega)
    obtain ⟨r, hr, mr, dr⟩ := ihb lb hb.symm (fun x hx => hm x (by simp [hx])) (by omega)
    refine ⟨M.rnd (s + r), by simp [SumTree.eval, hs, hr], M.idem _, ?_⟩
    rcases ds with ⟨rfl, rfl⟩ | ⟨na, ea⟩
    · rw [zero_add, mr, List.nil_append]
      exact dr
    rcases dr with ⟨rfl, rfl⟩ | ⟨nb, eb⟩
    · rw [add_zero, ms, List.append_nil]
      exact .inr ⟨na, ea⟩
    refine .inr ⟨by simp [na], ?_⟩
    have ka : (1 : ℝ) ≤ la.length := by exact_mod_cast List.length_pos_iff.mpr na
    have kb : (1 : ℝ) ≤ lb.length := by exact_mod_cast List.length_pos_iff.mpr nb
    have kn : (la.length : ℝ) + lb.length ≤ 2 ^ 50 := by exact_mod_cast hn
    rw [List.length_append, List.sum_append, absSum_append]
    have Aa := abs_sum_le_absSum la
    have Ab := abs_sum_le_absSum lb
    have pa := absSum_nonneg la
    have pb := absSum_nonneg lb
    have pt := tiny_pos
    have h := M.near (s + r)
    push_cast
    generalize (la.length : ℝ) = p at *
    generalize (lb.length : ℝ) = q at *
    generalize absSum la = A at *
    generalize absSum lb = B at *
    generalize tiny = t at *
    have sa : |s| ≤ 2 * A + 2 * p * t := by
      have : |s| ≤ |s - la.sum| + |la.sum| := by
        have := abs_add_le (s - la.sum) la.sum; rwa [sub_add_cancel] at this
      have h3 : (p - 1) * (A / 2 ^ 52) ≤ A := by
        have : p * A ≤ 2 ^ 50 * A := mul_le_mul_of_nonneg_right (by linarith) pa
        norm_num at this ⊢
        nlinarith
      nlinarith
    have sb : |r| ≤ 2 * B + 2 * q * t := by
      have : |r| ≤ |r - lb.sum| + |lb.sum| := by
        have := abs_add_le (r - lb.sum) lb.sum; rwa [sub_add_cancel] at this
      have h3 : (q - 1) * (B / 2 ^ 52) ≤ B := by
        have : q * B ≤ 2 ^ 50 * B := mul_le_mul_of_nonneg_right (by linarith) pb
        norm_num at this ⊢
        nlinarith
      nlinarith
    have h1 : |M.rnd (s + r) - (la.sum + lb.sum)| ≤
        |M.rnd (s + r) - (s + r)| + (|s - la.sum| + |r - lb.sum|) := by
      rw [show M.rnd (s + r) - (la.sum + lb.sum) =
        (M.rnd (s + r) - (s + r)) + ((s - la.sum) + (r - lb.sum)) by ring]
      exact (abs_add_le _ _).trans (by linarith [abs_add_le (s - la.sum) (r - lb.sum)])
    have h2 := abs_add_le s r
    have h4 : |s + r| / 2 ^ 53 ≤ (A + B) / 2 ^ 52 + t / 4 := by
      have : (p + q) * t ≤ 2 ^ 50 * t := mul_le_mul_of_nonneg_right kn pt.le
      norm_num at this ⊢
      linarith
    have h5 : 0 ≤ (q - 1) * A := mul_nonneg (by linarith) pa
    have h6 : 0 ≤ (p - 1) * B := mul_nonneg (by linarith) pb
    refine h1.trans ?_
    calc _ ≤ ((A + B) / 2 ^ 52 + t / 4 + t) + ((p - 1) * (A / 2 ^ 52 + 2 * t)
          + (q - 1) * (B / 2 ^ 52 + 2 * t)) := by linarith
      _ ≤ _ := by
        have : (p + q - 1) * ((A + B) / 2 ^ 52 + 2 * t) -
          (((A + B) / 2 ^ 52 + t / 4 + t) + ((p - 1) * (A / 2 ^ 52 + 2 * t)
          + (q - 1) * (B / 2 ^ 52 + 2 * t))) =
          ((q - 1) * A + (p - 1) * B) / 2 ^ 52 + (3 / 4) * t := by ring
        have : 0 ≤ ((q - 1) * A + (p - 1) * B) / 2 ^ 52 := by positivity
        linarith

/-- Machine numbers added in any order: the result is finite, and off by at most one unit in the
last place of the sum of the absolute values for each addition. -/
theorem C123_any_order (l : List ℝ) (hm : ∀ x ∈ l, M.rnd x = x) (hn : l.length ≤ 2 ^ 50)
    (s : RDbl M) (hs : IsSum (l.map RDbl.fin) s) :
    ∃ r, s = .fin r ∧ |r - l.sum| ≤ (l.length - 1 : ℕ) * (absSum l / 2 ^ 52 + 2 * tiny) := by
  obtain ⟨t, hp, rfl⟩ := hs
  obtain ⟨l', hl', hp'⟩ : ∃ l' : List ℝ, t.terms = l'.map RDbl.fin ∧ l'.Perm l := by
    have : ∀ m : List (RDbl M), m.Perm (l.map RDbl.fin) → ∃ l' : List ℝ, m = l'.map RDbl.fin ∧ l'.Perm l := by
      intro m hm
      let f : RDbl M → ℝ := fun x => match x with | Dbl.fin r => r | _ => 0
      have hf : ∀ k : List ℝ, (k.map (RDbl.fin (M := M))).map f = k := fun k => by
        rw [List.map_map]; exact List.map_id k
      refine ⟨m.map f, ?_, ?_⟩
      · rw [List.map_map]
        conv_lhs => rw [← List.map_id m]
        refine List.map_congr_left fun x hx => ?_
        obtain ⟨r, _, rfl⟩ := List.mem_map.mp (hm.mem_iff.mp hx)
        rfl
      · have := hm.map f
        rwa [hf] at this
    exact this _ hp
  obtain ⟨r, hr, _, h⟩ := sum_tree_error t l' hl' (fun x hx => hm x (hp'.mem_iff.mp hx))
    (by rw [hp'.length_eq]; exact hn)
  refine ⟨r, hr, ?_⟩
  have e1 : l'.sum = l.sum := hp'.sum_eq
  have e2 : absSum l' = absSum l := (hp'.map _).sum_eq
  rcases h with ⟨rfl, rfl⟩ | ⟨ne, h⟩
  · have : l = [] := by simpa using hp'.symm
    subst this
    simp [absSum]
  · rw [e1, e2, hp'.length_eq] at h
    have : 1 ≤ l.length := by
      rw [← hp'.length_eq]; exact List.length_pos_iff.mpr ne
    push_cast [Nat.cast_sub this]
    exact h

/-! ## basis functions -/

/-- The angular frequency. -/
theorem basis_freq {L : ℝ} {k : ℕ} (hL : 0 < L) (hL' : L ≤ 2 ^ 100) :
    |M.rnd (k * M.rnd (M.rnd π / L)) - k * π * (1 / L)| ≤ 13 * (k * (1 / L)) / 2 ^ 52 ∧
      |M.rnd (k * M.rnd (M.rnd π / L))| ≤ 6 * (k * (1 / L)) := by
  rcases Nat.eq_zero_or_pos k with rfl | hk
  · simp
  have hk1 : (1 : ℝ) ≤ k := by exact_mod_cast hk
  have pi3 := pi_gt_three
  have pi4 := pi_lt_four
  have q0 : |M.rnd π - π| ≤ 4 / 2 ^ 52 :=
    M.err (minNormal_small (by norm_num)) (by rw [abs_of_pos pi_pos]; exact pi4.le)
  have w : (1 : ℝ) / 2 ^ 100 ≤ 1 / L := one_div_le_one_div_of_le hL hL'
  have iL : 0 < 1 / L := by positivity
  set i := 1 / L with hi
  have hiL : i * L = 1 := by rw [hi]; field_simp
  have p4 : M.rnd π ≤ 4 := by
    have := M.rnd_le_int (n := 4) (by norm_num) (by norm_num; exact pi4.le : π ≤ ((4 : ℤ) : ℝ))
    simpa using this
  have p0 : 0 ≤ M.rnd π := M.rnd_nonneg pi_pos.le
  have e1 : |M.rnd (M.rnd π / L) - M.rnd π / L| ≤ (4 * i) / 2 ^ 52 := by
    refine M.err (minNormal_small ?_) ?_
    · refine le_trans ?_ (by linarith : i ≤ 4 * i)
      refine le_trans ?_ w
      norm_num
    · rw [abs_of_nonneg (by positivity), div_eq_mul_one_div]
      exact mul_le_mul_of_nonneg_right p4 iL.le
  have d1 : |M.rnd (M.rnd π / L) - π * i| ≤ 8 * i / 2 ^ 52 := by
    have : |M.rnd π / L - π * i| ≤ 4 / 2 ^ 52 * i := by
      rw [div_eq_mul_one_div, ← sub_mul, abs_mul, abs_of_pos iL]
      exact mul_le_mul_of_nonneg_right q0 iL.le
    rw [show M.rnd (M.rnd π / L) - π * i = (M.rnd (M.rnd π / L) - M.rnd π / L) +
      (M.rnd π / L - π * i) by ring]
    refine (abs_add_le _ _).trans ?_
    linarith
  generalize M.rnd (M.rnd π / L) = a at *
  have a5 : |a| ≤ 5 * i := by
    have := abs_add_le (a - π * i) (π * i)
    rw [sub_add_cancel, abs_of_pos (by positivity : 0 < π * i)] at this
    have : π * i ≤ 4 * i := mul_le_mul_of_nonneg_right pi4.le iL.le
    have : 8 * i / 2 ^ 52 ≤ i := by norm_num; linarith
    linarith
  have ki : i ≤ k * i := by nlinarith
  have e2 : |M.rnd (k * a) - k * a| ≤ (5 * (k * i)) / 2 ^ 52 := by
    refine M.err (minNormal_small ?_) ?_
    · refine le_trans ?_ (by linarith : i ≤ 5 * (k * i))
      refine le_trans ?_ w
      norm_num
    · rw [abs_mul, Nat.abs_cast]
      nlinarith
  have d2 : |M.rnd (k * a) - k * π * i| ≤ 13 * (k * i) / 2 ^ 52 := by
    have : |k * a - k * π * i| ≤ k * (8 * i / 2 ^ 52) := by
      rw [mul_assoc, ← mul_sub, abs_mul, Nat.abs_cast]
      exact mul_le_mul_of_nonneg_left d1 (by positivity)
    rw [show M.rnd (k * a) - k * π * i = (M.rnd (k * a) - k * a) + (k * a - k * π * i) by ring]
    refine (abs_add_le _ _).trans ?_
    linarith
  refine ⟨d2, ?_⟩
  generalize M.rnd (k * a) = b at *
  have b6 : |b| ≤ 6 * (k * i) := by
    have := abs_add_le (b - k * π * i) (k * π * i)
    rw [sub_add_cancel, abs_of_pos (by positivity : 0 < k * π * i)] at this
    have : k * i * π ≤ k * i * 4 := mul_le_mul_of_nonneg_left pi4.le (by positivity)
    have : 13 * (k * i) / 2 ^ 52 ≤ k * i := by
      have : 0 ≤ k * i := by positivity
      norm_num; linarith
    linarith
  exact b6

/-- The argument of the cosine. -/
theorem basis_arg {L x c : ℝ} {k : ℕ} (hL : 0 < L) (hL' : L ≤ 2 ^ 100) (hc : 1 ≤ c)
    (hx : |x| ≤ c * L) :
    |M.rnd (M.rnd (k * M.rnd (M.rnd π / L)) * x) - k * π * x / L| ≤ k * c * (19 / 2 ^ 52) := by
  rcases Nat.eq_zero_or_pos k with rfl | hk
  · simp
  have hk1 : (1 : ℝ) ≤ k := by exact_mod_cast hk
  obtain ⟨d2, b6⟩ := basis_freq (M := M) (k := k) hL hL'
  have iL : 0 < 1 / L := by positivity
  set i := 1 / L with hi
  have hiL : i * L = 1 := by rw [hi]; field_simp
  generalize M.rnd (k * M.rnd (M.rnd π / L)) = b at *
  have e3 : |M.rnd (b * x) - b * x| ≤ (6 * (k * c)) / 2 ^ 52 := by
    refine M.err (minNormal_small ?_) ?_
    · have : 1 ≤ k * c := by nlinarith
      have : (1 : ℝ) / 2 ^ 110 ≤ 1 := by norm_num
      linarith
    · rw [abs_mul]
      calc |b| * |x| ≤ 6 * (k * i) * (c * L) := mul_le_mul b6 hx (abs_nonneg _) (by positivity)
        _ = 6 * (k * c) * (i * L) := by ring
        _ = _ := by rw [hiL, mul_one]
  have d3 : |b * x - k * π * x / L| ≤ 13 * (k * c) / 2 ^ 52 := by
    rw [show b * x - k * π * x / L = (b - k * π * i) * x by rw [hi]; ring, abs_mul]
    calc _ ≤ 13 * (k * i) / 2 ^ 52 * (c * L) := mul_le_mul d2 hx (abs_nonneg _) (by positivity)
      _ = 13 * (k * c) / 2 ^ 52 * (i * L) := by ring
      _ = _ := by rw [hiL, mul_one]
  rw [show M.rnd (b * x) - k * π * x / L = (M.rnd (b * x) - b * x) + (b * x - k * π * x / L) by ring]
  refine (abs_add_le _ _).trans ?_
  calc _ ≤ (6 * (k * c)) / 2 ^ 52 + 13 * (k * c) / 2 ^ 52 := add_le_add e3 d3
    _ = _ := by ring

/-- A basis function with rounding: a machine number of size at most one, as close to the cosine
basis as `basisError` says. -/
theorem C123_basis (hT : AccurateTrig M) {b : Basis (RDbl M)} {p : V2 (RDbl M)} {c : ℝ} {k1 k2 : ℕ}
    (h : InScale b.lx b.ly c p.c0 p.c1) (h1 : k1 ≤ 2 ^ 53) (h2 : k2 ≤ 2 ^ 53) (hc : 1 ≤ c) :
    ∃ v, b.fk p (k1, k2) = .fin v ∧ M.rnd v = v ∧ |v| ≤ 1 ∧
      |v - cosBasis b.lx.val b.ly.val k1 k2 p.c0.val p.c1.val| ≤ basisError k1 k2 c := by
  obtain ⟨hbx, hby, ex, ey, hx0, hx1, hy0, hy1, hx, hy⟩ := h
  obtain ⟨p0, p1⟩ := p
  dsimp only at *
  generalize b.lx.val = Lx at *
  generalize b.ly.val = Ly at *
  generalize p0.val = x at *
  generalize p1.val = y at *
  subst ex ey
  have r1 : M.rnd (k1 : ℝ) = k1 := M.rnd_nat h1
  have r2 : M.rnd (k2 : ℝ) = k2 := M.rnd_nat h2
  have cx := basis_arg (M := M) (k := k1) hx0 hx1 hc hx
  have cy := basis_arg (M := M) (k := k2) hy0 hy1 hc hy
  refine ⟨M.rnd (M.cos (M.rnd (M.rnd (k1 * M.rnd (M.rnd π / Lx)) * x)) *
    M.cos (M.rnd (M.rnd (k2 * M.rnd (M.rnd π / Ly)) * y))), ?_, M.idem _, ?_, ?_⟩
  · simp [Basis.fk, hbx, hby, RDbl.div_fin _ hx0.ne', RDbl.div_fin _ hy0.ne', r1, r2]
  · have h := M.cos_le (M.rnd (M.rnd (k1 * M.rnd (M.rnd π / Lx)) * x))
    have h' := M.cos_le (M.rnd (M.rnd (k2 * M.rnd (M.rnd π / Ly)) * y))
    have : |M.cos (M.rnd (M.rnd (k1 * M.rnd (M.rnd π / Lx)) * x)) *
        M.cos (M.rnd (M.rnd (k2 * M.rnd (M.rnd π / Ly)) * y))| ≤ 1 := by
      rw [abs_mul]; exact mul_le_one₀ h (abs_nonneg _) h'
    rw [abs_le] at this ⊢
    constructor
    · have := M.int_le_rnd (n := -1) (by norm_num) (by push_cast; exact this.1)
      simpa using this
    · have := M.rnd_le_int (n := 1) (by norm_num) (by push_cast; exact this.2)
      simpa using this
  · generalize M.rnd (M.rnd (k1 * M.rnd (M.rnd π / Lx)) * x) = p at *
    generalize M.rnd (M.rnd (k2 * M.rnd (M.rnd π / Ly)) * y) = q at *
    have a1 : |M.cos p - cos (k1 * π * x / Lx)| ≤ k1 * c * (19 / 2 ^ 52) + 1 / 2 ^ 52 := by
      rw [show M.cos p - cos (k1 * π * x / Lx) =
        (M.cos p - cos p) + (cos p - cos (k1 * π * x / Lx)) by ring]
      refine (abs_add_le _ _).trans ?_
      linarith [hT.cos p, (abs_cos_sub_cos_le p (k1 * π * x / Lx)).trans cx]
    have a2 : |M.cos q - cos (k2 * π * y / Ly)| ≤ k2 * c * (19 / 2 ^ 52) + 1 / 2 ^ 52 := by
      rw [show M.cos q - cos (k2 * π * y / Ly) =
        (M.cos q - cos q) + (cos q - cos (k2 * π * y / Ly)) by ring]
      refine (abs_add_le _ _).trans ?_
      linarith [hT.cos q, (abs_cos_sub_cos_le q (k2 * π * y / Ly)).trans cy]
    have b1 := M.cos_le p
    have b2 := abs_cos_le_one (k2 * π * y / Ly)
    have a3 : |M.rnd (M.cos p * M.cos q) - M.cos p * M.cos q| ≤ 1 / 2 ^ 52 := by
      refine M.err minNormal_le_one ?_
      rw [abs_mul]; exact mul_le_one₀ b1 (abs_nonneg _) (M.cos_le q)
    unfold cosBasis basisError
    rw [show M.rnd (M.cos p * M.cos q) - cos (k1 * π * x / Lx) * cos (k2 * π * y / Ly) =
      (M.rnd (M.cos p * M.cos q) - M.cos p * M.cos q) + (M.cos p * (M.cos q - cos (k2 * π * y / Ly))
        + (M.cos p - cos (k1 * π * x / Lx)) * cos (k2 * π * y / Ly)) by ring]
    refine (abs_add_le _ _).trans ?_
    have c1 := abs_add_le (M.cos p * (M.cos q - cos (k2 * π * y / Ly)))
      ((M.cos p - cos (k1 * π * x / Lx)) * cos (k2 * π * y / Ly))
    rw [abs_mul, abs_mul] at c1
    have c2 := mul_le_of_le_one_left (abs_nonneg (M.cos q - cos (k2 * π * y / Ly))) b1
    have c3 := mul_le_of_le_one_right (abs_nonneg (M.cos p - cos (k1 * π * x / Lx))) b2
    have n1 : 0 ≤ k1 * c := by positivity
    have n2 : 0 ≤ k2 * c := by positivity
    have : ((k1 : ℝ) + k2) * c / 2 ^ 47 = (k1 * c + k2 * c) * (32 / 2 ^ 52) := by ring
    rw [this]
    norm_num at *
    nlinarith

/-! ## coefficients of a trajectory -/

theorem val_fin (r : ℝ) : (RDbl.fin r : RDbl M).val = r := rfl

/-- a list of numbers that are all finite is the list of their values -/
theorem map_val {α : Type} (f : α → RDbl M) (l : List α) (h : ∀ a ∈ l, Num (f a)) :
    l.map f = (l.map fun a => (f a).val).map RDbl.fin := by
  rw [List.map_map]
  refine List.map_congr_left fun a ha => ?_
  obtain ⟨r, hr⟩ := h a ha
  simp [hr, val_fin]

theorem sum_diff_le {α : Type} (f g e : α → ℝ) (l : List α) (h : ∀ a ∈ l, |f a - g a| ≤ e a) :
    |(l.map f).sum - (l.map g).sum| ≤ (l.map e).sum := by
  induction l with
  | nil => simp
  | cons a l ih =>
    have h1 := h a List.mem_cons_self
    have h2 := ih fun b hb => h b (List.mem_cons_of_mem _ hb)
    simp only [List.map_cons, List.sum_cons]
    rw [show f a + (l.map f).sum - (g a + (l.map g).sum) =
      (f a - g a) + ((l.map f).sum - (l.map g).sum) by ring]
    exact (abs_add_le _ _).trans (add_le_add h1 h2)

theorem sum_const_le {α : Type} (f : α → ℝ) (C : ℝ) (l : List α) (h : ∀ a ∈ l, f a ≤ C) :
    (l.map f).sum ≤ l.length * C := by
  induction l with
  | nil => simp
  | cons a l ih =>
    have h1 := h a List.mem_cons_self
    have h2 := ih fun b hb => h b (List.mem_cons_of_mem _ hb)
    simp only [List.map_cons, List.sum_cons, List.length_cons]
    push_cast
    linarith

/-- The coefficients of a trajectory with rounding, the terms added in any order: as close to the
time averages of the basis functions as a basis function is to the cosine basis, and one unit in
the last place of one for every sample. -/
theorem C123_trajectory (hT : AccurateTrig M) {b : Basis (RDbl M)} {xt : List (V3 (RDbl M))} {c : ℝ}
    {k1 k2 : ℕ} (h1 : k1 ≤ 2 ^ 53) (h2 : k2 ≤ 2 ^ 53) (hc : 1 ≤ c)
    (hx : ∀ x ∈ xt, InScale b.lx b.ly c x.c0 x.c1) (hne : xt ≠ []) (hn : xt.length ≤ 2 ^ 50)
    {ck : RDbl M} (h : b.IsTrajCoeff xt (k1, k2) ck) :
    ∃ v, ck = .fin v ∧ M.rnd v = v ∧
      |v - (xt.map fun x => cosBasis b.lx.val b.ly.val k1 k2 x.c0.val x.c1.val).sum / xt.length| ≤
        basisError k1 k2 c + (xt.length + 6) / 2 ^ 52 := by
  have hb : ∀ x ∈ xt, ∃ v, b.fk x.xy (k1, k2) = .fin v ∧ M.rnd v = v ∧ |v| ≤ 1 ∧
      |v - cosBasis b.lx.val b.ly.val k1 k2 x.c0.val x.c1.val| ≤ basisError k1 k2 c :=
    fun x hx' => C123_basis hT (p := x.xy) (hx x hx') h1 h2 hc
  obtain ⟨S, hS, rfl⟩ := h
  rw [map_val _ _ fun x hx' => (hb x hx').imp fun v hv => hv.1] at hS
  set vs := xt.map fun x => (b.fk x.xy (k1, k2)).val with hvs
  have hlen : vs.length = xt.length := by simp [hvs]
  obtain ⟨s, rfl, es⟩ := C123_any_order vs (by
    intro v hv
    obtain ⟨x, hx', rfl⟩ := List.mem_map.mp hv
    obtain ⟨w, hw, hm, -⟩ := hb x hx'
    rw [hw]; exact hm) (by rw [hlen]; exact hn) S hS
  have e2 : |vs.sum - (xt.map fun x => cosBasis b.lx.val b.ly.val k1 k2 x.c0.val x.c1.val).sum| ≤
      xt.length * basisError k1 k2 c := by
    refine (sum_diff_le _ _ (fun _ => basisError k1 k2 c) _ fun x hx' => ?_).trans
      (sum_const_le _ _ _ fun _ _ => le_rfl)
    obtain ⟨w, hw, -, -, hd⟩ := hb x hx'
    rw [hw]; exact hd
  have e3 : absSum vs ≤ xt.length := by
    rw [absSum, hvs, List.map_map]
    refine (sum_const_le _ 1 _ fun x hx' => ?_).trans (by rw [mul_one])
    obtain ⟨w, hw, -, h1, -⟩ := hb x hx'
    simp only [Function.comp, hw]; exact h1
  have e4 := abs_sum_le_absSum vs
  rw [hlen] at es
  generalize (xt.map fun x => cosBasis b.lx.val b.ly.val k1 k2 x.c0.val x.c1.val).sum = T at *
  generalize basisError k1 k2 c = E at *
  have hpos : 1 ≤ xt.length := List.length_pos_iff.mpr hne
  have hn1 : (1 : ℝ) ≤ xt.length := by exact_mod_cast hpos
  have hn2 : (xt.length : ℝ) ≤ 2 ^ 50 := by exact_mod_cast hn
  have rn : M.rnd (xt.length : ℝ) = xt.length := M.rnd_nat (hn.trans (by norm_num))
  rw [Nat.cast_sub hpos, Nat.cast_one] at es
  have pt := tiny_pos
  have pt' := tiny_le 60 (by norm_num)
  generalize hN : (xt.length : ℝ) = n at *
  generalize absSum vs = A at *
  generalize vs.sum = V at *
  have n0 : 0 < n := by linarith
  refine ⟨M.rnd (M.rnd (1 / n) * s), ?_, M.idem _, ?_⟩
  · have : (Flt.ofInt (xt.length : ℤ) : RDbl M) = .fin n := by
      rw [RDbl.ofInt_fin]; push_cast; rw [hN, rn]
    rw [this, RDbl.lit_fin]
    norm_num
    rw [RDbl.div_fin _ n0.ne', RDbl.mul_fin]
    norm_num
  have f1 : |s - V| ≤ n * (n / 2 ^ 52 + 2 * tiny) := by
    refine es.trans ?_
    have : 0 ≤ n / 2 ^ 52 + 2 * tiny := by positivity
    refine le_trans (mul_le_mul_of_nonneg_left ?_ (by linarith : 0 ≤ n - 1))
      (mul_le_mul_of_nonneg_right (by linarith : n - 1 ≤ n) this)
    have : A / 2 ^ 52 ≤ n / 2 ^ 52 := by gcongr
    linarith
  have f2 : n / 2 ^ 52 + 2 * tiny ≤ 1 := by norm_num at *; linarith
  have f3 : |s| ≤ 2 * n := by
    have := abs_add_le (s - V) V
    rw [sub_add_cancel] at this
    nlinarith
  set i := 1 / n with hi
  have i0 : 0 < i := by positivity
  have hin : i * n = 1 := by rw [hi]; field_simp
  have f4 : |M.rnd i - i| ≤ i / 2 ^ 52 := by
    refine M.err (minNormal_small ?_) (by rw [abs_of_pos i0])
    have : (1 : ℝ) / 2 ^ 50 ≤ 1 / n := one_div_le_one_div_of_le n0 hn2
    rw [hi]
    refine le_trans ?_ this
    norm_num
  have f5 : |M.rnd i * s - i * s| ≤ 2 / 2 ^ 52 := by
    rw [← sub_mul, abs_mul]
    calc _ ≤ i / 2 ^ 52 * (2 * n) := mul_le_mul f4 f3 (abs_nonneg _) (by positivity)
      _ = 2 / 2 ^ 52 * (i * n) := by ring
      _ = _ := by rw [hin, mul_one]
  have f6 : |i * s| ≤ 2 := by
    rw [abs_mul, abs_of_pos i0]
    calc _ ≤ i * (2 * n) := mul_le_mul_of_nonneg_left f3 i0.le
      _ = 2 * (i * n) := by ring
      _ = _ := by rw [hin, mul_one]
  have f7 : |M.rnd (M.rnd i * s) - M.rnd i * s| ≤ 3 / 2 ^ 52 := by
    refine M.err (minNormal_small (by norm_num)) ?_
    have := abs_add_le (M.rnd i * s - i * s) (i * s)
    rw [sub_add_cancel] at this
    norm_num at *
    linarith
  have f8 : |i * s - i * V| ≤ n / 2 ^ 52 + 2 * tiny := by
    rw [← mul_sub, abs_mul, abs_of_pos i0]
    calc _ ≤ i * (n * (n / 2 ^ 52 + 2 * tiny)) := mul_le_mul_of_nonneg_left f1 i0.le
      _ = (n / 2 ^ 52 + 2 * tiny) * (i * n) := by ring
      _ = _ := by rw [hin, mul_one]
  have f9 : |i * V - T / n| ≤ E := by
    rw [show i * V - T / n = i * (V - T) by rw [hi]; ring, abs_mul, abs_of_pos i0]
    calc _ ≤ i * (n * E) := mul_le_mul_of_nonneg_left e2 i0.le
      _ = E * (i * n) := by ring
      _ = _ := by rw [hin, mul_one]
  rw [show M.rnd (M.rnd i * s) - T / n = (M.rnd (M.rnd i * s) - M.rnd i * s) +
    ((M.rnd i * s - i * s) + ((i * s - i * V) + (i * V - T / n))) by ring]
  have g1 := abs_add_le (M.rnd (M.rnd i * s) - M.rnd i * s)
    ((M.rnd i * s - i * s) + ((i * s - i * V) + (i * V - T / n)))
  have g2 := abs_add_le (M.rnd i * s - i * s) ((i * s - i * V) + (i * V - T / n))
  have g3 := abs_add_le (i * s - i * V) (i * V - T / n)
  have : 2 * tiny ≤ 1 / 2 ^ 52 := by norm_num at *; linarith
  calc _ ≤ 3 / 2 ^ 52 + (2 / 2 ^ 52 + ((n / 2 ^ 52 + 2 * tiny) + E)) := by linarith
    _ ≤ 3 / 2 ^ 52 + (2 / 2 ^ 52 + ((n / 2 ^ 52 + 1 / 2 ^ 52) + E)) := by linarith
    _ = _ := by ring

/-! ## coefficients of a distribution -/

/-- The spatial coefficients with rounding, the terms added in any order, for values `φ` at the
points of a grid. -/
theorem C123_spatial (hT : AccurateTrig M) {b : Basis (RDbl M)} {pts : List (V2 (RDbl M))}
    {φ : V2 (RDbl M) → ℝ} {c S : ℝ} {k1 k2 : ℕ} (h1 : k1 ≤ 2 ^ 53) (h2 : k2 ≤ 2 ^ 53) (hc : 1 ≤ c)
    (hp : ∀ p ∈ pts, InScale b.lx b.ly c p.c0 p.c1) (hn : pts.length ≤ 2 ^ 50)
    (hS : (pts.map fun p => |φ p|).sum ≤ S) {ck : RDbl M}
    (h : b.IsSpatialCoeff (pts.map fun p => .fin (φ p)) pts (k1, k2) ck) :
    ∃ v, ck = .fin v ∧
      |v - (pts.map fun p => cosBasis b.lx.val b.ly.val k1 k2 p.c0.val p.c1.val * φ p).sum| ≤
        S * (basisError k1 k2 c + (pts.length + 1) / 2 ^ 51) + 4 * pts.length * tiny := by
  have hb : ∀ p ∈ pts, ∃ v, b.fk p (k1, k2) = .fin v ∧ M.rnd v = v ∧ |v| ≤ 1 ∧
      |v - cosBasis b.lx.val b.ly.val k1 k2 p.c0.val p.c1.val| ≤ basisError k1 k2 c :=
    fun p hp' => C123_basis hT (hp p hp') h1 h2 hc
  have pt := tiny_pos
  have E0 : 0 ≤ basisError k1 k2 c := by unfold basisError; positivity
  set T : V2 (RDbl M) → ℝ := fun p => M.rnd ((b.fk p (k1, k2)).val * φ p) with hTdef
  have hterms : List.zipWith (fun p v => b.fk p (k1, k2) *. v) pts (pts.map fun p => .fin (φ p)) =
      (pts.map T).map (RDbl.fin (M := M)) := by
    rw [List.zipWith_map_right, List.zipWith_self, List.map_map]
    refine List.map_congr_left fun p hp' => ?_
    obtain ⟨v, hv, -⟩ := hb p hp'
    simp [hTdef, hv, val_fin]
  unfold Basis.IsSpatialCoeff at h
  rw [hterms] at h
  obtain ⟨s, rfl, es⟩ := C123_any_order (pts.map T) (by
    intro v hv
    obtain ⟨p, -, rfl⟩ := List.mem_map.mp hv
    exact M.idem _) (by rw [List.length_map]; exact hn) ck h
  refine ⟨s, rfl, ?_⟩
  have t1 : ∀ p ∈ pts, |T p - cosBasis b.lx.val b.ly.val k1 k2 p.c0.val p.c1.val * φ p| ≤
      |φ p| * (basisError k1 k2 c + 1 / 2 ^ 53) + tiny := by
    intro p hp'
    obtain ⟨v, hv, -, h1, hd⟩ := hb p hp'
    simp only [hTdef, hv, val_fin]
    have a1 := M.near (v * φ p)
    have a2 : |v * φ p| ≤ |φ p| := by
      rw [abs_mul]; exact mul_le_of_le_one_left (abs_nonneg _) h1
    generalize cosBasis b.lx.val b.ly.val k1 k2 p.c0.val p.c1.val = C at *
    rw [show M.rnd (v * φ p) - C * φ p = (M.rnd (v * φ p) - v * φ p) + (v - C) * φ p by ring]
    refine (abs_add_le _ _).trans ?_
    rw [abs_mul (v - C)]
    have a3 := mul_le_mul_of_nonneg_right hd (abs_nonneg (φ p))
    have a4 : |v * φ p| / 2 ^ 53 ≤ |φ p| / 2 ^ 53 := by gcongr
    calc _ ≤ (|φ p| / 2 ^ 53 + tiny) + basisError k1 k2 c * |φ p| := by linarith
      _ = _ := by ring
  have t2 : ∀ p ∈ pts, |T p| ≤ 2 * |φ p| + tiny := by
    intro p hp'
    obtain ⟨v, hv, -, h1, -⟩ := hb p hp'
    simp only [hTdef, hv, val_fin]
    have a1 := M.near (v * φ p)
    have a2 : |v * φ p| ≤ |φ p| := by
      rw [abs_mul]; exact mul_le_of_le_one_left (abs_nonneg _) h1
    have a3 := abs_add_le (M.rnd (v * φ p) - v * φ p) (v * φ p)
    rw [sub_add_cancel] at a3
    have a4 : |v * φ p| / 2 ^ 53 ≤ |v * φ p| := div_le_self (abs_nonneg _) (by norm_num)
    linarith
  have u1 : |(pts.map T).sum -
      (pts.map fun p => cosBasis b.lx.val b.ly.val k1 k2 p.c0.val p.c1.val * φ p).sum| ≤
      S * (basisError k1 k2 c + 1 / 2 ^ 53) + pts.length * tiny := by
    refine (sum_diff_le _ _ _ _ t1).trans ?_
    rw [List.sum_map_add, List.sum_map_mul_right]
    refine add_le_add (mul_le_mul_of_nonneg_right hS (by positivity)) ?_
    exact sum_const_le _ _ _ fun _ _ => le_rfl
  have u2 : absSum (pts.map T) ≤ 2 * S + pts.length * tiny := by
    have : absSum (pts.map T) ≤ (pts.map fun p => 2 * |φ p| + tiny).sum := by
      rw [absSum, List.map_map]
      exact List.sum_le_sum fun p hp' => t2 p hp'
    refine this.trans ?_
    rw [List.sum_map_add, List.sum_map_mul_left]
    have := sum_const_le (fun _ : V2 (RDbl M) => tiny) tiny pts fun _ _ => le_rfl
    linarith
  have S0 : 0 ≤ S := le_trans (List.sum_nonneg (by
    simp only [List.mem_map]; rintro _ ⟨p, -, rfl⟩; exact abs_nonneg _)) hS
  have A0 := absSum_nonneg (pts.map T)
  rw [List.length_map] at es
  have hN : ((pts.length - 1 : ℕ) : ℝ) ≤ pts.length := by exact_mod_cast Nat.sub_le _ _
  have hn2 : (pts.length : ℝ) ≤ 2 ^ 50 := by exact_mod_cast hn
  have n0 : (0 : ℝ) ≤ pts.length := by positivity
  have m0 : (0 : ℝ) ≤ (pts.length - 1 : ℕ) := by positivity
  generalize ((pts.length - 1 : ℕ) : ℝ) = m at *
  generalize (pts.length : ℝ) = n at *
  generalize (pts.map fun p => cosBasis b.lx.val b.ly.val k1 k2 p.c0.val p.c1.val * φ p).sum = Q at *
  generalize (pts.map T).sum = V at *
  generalize absSum (pts.map T) = A at *
  generalize basisError k1 k2 c = E at *
  have u3 : |s - V| ≤ n * ((2 * S + n * tiny) / 2 ^ 52 + 2 * tiny) := by
    refine es.trans (mul_le_mul hN ?_ ?_ n0)
    · have : A / 2 ^ 52 ≤ (2 * S + n * tiny) / 2 ^ 52 := by gcongr
      linarith
    · positivity
  rw [show s - Q = (s - V) + (V - Q) by ring]
  refine (abs_add_le _ _).trans ?_
  have u4 : n * (n * tiny) ≤ n * (2 ^ 50 * tiny) := by gcongr
  calc _ ≤ n * ((2 * S + n * tiny) / 2 ^ 52 + 2 * tiny) + (S * (E + 1 / 2 ^ 53) + n * tiny) :=
        add_le_add u3 u1
    _ = S * (E + n / 2 ^ 51 + 1 / 2 ^ 53) + n * (n * tiny) / 2 ^ 52 + 3 * n * tiny := by ring
    _ ≤ S * (E + n / 2 ^ 51 + 1 / 2 ^ 53) + n * (2 ^ 50 * tiny) / 2 ^ 52 + 3 * n * tiny := by gcongr
    _ ≤ _ := by
      have : 0 ≤ n * tiny := by positivity
      have : S * (E + (n + 1) / 2 ^ 51) + 4 * n * tiny -
        (S * (E + n / 2 ^ 51 + 1 / 2 ^ 53) + n * (2 ^ 50 * tiny) / 2 ^ 52 + 3 * n * tiny) =
        S * (3 / 2 ^ 53) + 3 / 4 * (n * tiny) := by ring
      have : 0 ≤ S * (3 / 2 ^ 53) := by positivity
      linarith

/-! ## the normalised target -/

/-- A rounded sum of nonnegative numbers, left to right: nonnegative, a machine number, and at
least every rounded term. -/
theorem foldl_ge {α : Type} (f : α → RDbl M) (l : List α)
    (h : ∀ a ∈ l, ∃ v : ℝ, f a = .fin v ∧ 0 ≤ v) :
    ∀ s : ℝ, 0 ≤ s → M.rnd s = s →
      ∃ t : ℝ, l.foldl (fun s x => s +. f x) (.fin s) = .fin t ∧ s ≤ t ∧ M.rnd t = t ∧
        ∀ a ∈ l, M.rnd (f a).val ≤ t := by
  induction l with
  | nil =>
    intro s _ hr
    exact ⟨s, rfl, le_rfl, hr, by simp⟩
  | cons a l ih =>
    intro s hs hr
    obtain ⟨v, hv, hv0⟩ := h a List.mem_cons_self
    rw [List.foldl_cons, hv, RDbl.add_fin]
    obtain ⟨t, h1, h2, h3, h4⟩ := ih (fun b hb => h b (List.mem_cons_of_mem _ hb))
      (M.rnd (s + v)) (M.rnd_nonneg (add_nonneg hs hv0)) (M.idem _)
    refine ⟨t, h1, le_trans ?_ h2, h3, ?_⟩
    · have := M.mono (show s ≤ s + v by linarith)
      rwa [hr] at this
    · intro b hb
      rcases List.mem_cons.mp hb with rfl | hb
      · rw [hv, val_fin]
        exact le_trans (M.mono (by linarith)) h2
      · exact h4 b hb

theorem sum_ge {α : Type} (f : α → ℝ) (l : List α) (h : ∀ a ∈ l, 0 ≤ f a) {a : α} (ha : a ∈ l) :
    f a ≤ (l.map f).sum :=
  List.single_le_sum (by
    intro x hx
    obtain ⟨b, hb, rfl⟩ := List.mem_map.mp hx
    exact h b hb) _ (List.mem_map_of_mem ha)

theorem tiny_scale {G : ℝ} (h : 1 / 2 ^ 1001 ≤ G) : tiny ≤ G / 2 ^ 74 := by
  have h1 := tiny_le 1075 le_rfl
  have h2 : (1 : ℝ) / 2 ^ 1075 = 1 / 2 ^ 1001 * (1 / 2 ^ 74) := by
    rw [one_div_mul_one_div, ← pow_add]
  rw [h2] at h1
  have := mul_le_mul_of_nonneg_right h (by positivity : (0 : ℝ) ≤ 1 / 2 ^ 74)
  rw [div_eq_mul_one_div]
  exact h1.trans this

theorem rnd_half {v : ℝ} (h : 1 / 2 ^ 1000 ≤ v) : 1 / 2 ^ 1001 ≤ M.rnd v := by
  have e' : ∀ n : ℕ, (1 : ℝ) / 2 ^ (n + 1) = 1 / 2 ^ n / 2 := fun n => by rw [pow_succ, div_div]
  have e : (1 : ℝ) / 2 ^ 1001 = 1 / 2 ^ 1000 / 2 := e' 1000
  have h0 : (0 : ℝ) < 1 / 2 ^ 1000 := by positivity
  have ht := tiny_scale (e.le.trans ((half_le_self h0.le).trans h))
  have h1 := (abs_le.mp (M.near v)).1
  rw [abs_of_pos (h0.trans_le h)] at h1
  rw [e]
  generalize (1 : ℝ) / 2 ^ 1000 = y at *
  norm_num at h1 ht
  linarith

/-- The normalised target with rounding, the values added in any order: nonnegative machine
numbers, together as close to the target's values divided by their exact sum as one unit in the
last place for every point.  Needs one point at which one Gaussian does not underflow. -/
theorem C123_normalised {t : Target (RDbl M)} {tr : V2 (RDbl M)} {pts : List (V2 (RDbl M))}
    (ht : ∀ G ∈ t.gaussians, GaussNum G) (htr : V2Num tr) (hp : ∀ p ∈ pts, V2Num p)
    (hn : pts.length ≤ 2 ^ 40)
    (hseen : ∃ p ∈ pts, ∃ G ∈ t.gaussians, 1 / 2 ^ 1000 ≤ (G.evalTrans p tr).val)
    {vals : List (RDbl M)} (h : t.IsFill tr pts vals) :
    ∃ g w : V2 (RDbl M) → ℝ, (∀ p ∈ pts, t.evaluate p tr = .fin (g p) ∧ 0 ≤ g p) ∧
      0 < (pts.map g).sum ∧ vals = (pts.map fun p => .fin (w p)) ∧
      (∀ p ∈ pts, 0 ≤ w p ∧ M.rnd (w p) = w p) ∧
      (pts.map fun p => |w p - g p / (pts.map g).sum|).sum ≤ (pts.length + 1) / 2 ^ 50 := by
  have hev : ∀ p ∈ pts, ∃ s : ℝ, t.evaluate p tr = .fin s ∧ 0 ≤ s ∧ M.rnd s = s ∧
      ∀ G ∈ t.gaussians, M.rnd (G.evalTrans p tr).val ≤ s := by
    intro p hp'
    obtain ⟨s, h1, h2, h3, h4⟩ := foldl_ge (fun G : Gaussian (RDbl M) => G.evalTrans p tr) t.gaussians
      (fun G hG => by
        obtain ⟨v, hv⟩ := evalTrans_num (ht G hG) (hp p hp') htr
        exact ⟨v, hv, evalTrans_nonneg _ _ _ _ hv⟩) 0 le_rfl M.rnd_zero
    refine ⟨s, ?_, h2, h3, h4⟩
    unfold Target.evaluate
    rw [show (lit 0 0 : RDbl M) = .fin 0 by simp]
    exact h1
  obtain ⟨S, hS, rfl⟩ := h
  set g : V2 (RDbl M) → ℝ := fun p => (t.evaluate p tr).val with hg
  have hg' : ∀ p ∈ pts, t.evaluate p tr = .fin (g p) ∧ 0 ≤ g p ∧ M.rnd (g p) = g p := by
    intro p hp'
    obtain ⟨s, h1, h2, h3, -⟩ := hev p hp'
    simp only [hg, h1, val_fin]
    exact ⟨trivial, h2, h3⟩
  rw [map_val _ _ fun p hp' => ⟨_, (hg' p hp').1⟩] at hS
  obtain ⟨s, rfl, es⟩ := C123_any_order (pts.map g) (by
    intro v hv
    obtain ⟨p, hp', rfl⟩ := List.mem_map.mp hv
    exact (hg' p hp').2.2) (by rw [List.length_map]; exact hn.trans (by norm_num)) S hS
  have habs : absSum (pts.map g) = (pts.map g).sum := by
    rw [absSum, List.map_map]
    congr 1
    exact List.map_congr_left fun p hp' => abs_of_nonneg (hg' p hp').2.1
  rw [habs, List.length_map] at es
  obtain ⟨p0, hp0, G0, hG0, hv0⟩ := hseen
  have hsum : 1 / 2 ^ 1001 ≤ (pts.map g).sum := by
    refine le_trans ?_ (sum_ge g pts (fun p hp' => (hg' p hp').2.1) hp0)
    obtain ⟨r, h1, -, -, h4⟩ := hev p0 hp0
    simp only [hg, h1, val_fin]
    exact (rnd_half hv0).trans (h4 G0 hG0)
  have tG := tiny_scale hsum
  have hpos : 0 < (pts.map g).sum := lt_of_lt_of_le (by positivity) hsum
  clear hsum
  have hN : ((pts.length - 1 : ℕ) : ℝ) ≤ pts.length := by exact_mod_cast Nat.sub_le _ _
  have hn2 : (pts.length : ℝ) ≤ 2 ^ 40 := by exact_mod_cast hn
  have n0 : (0 : ℝ) ≤ pts.length := by positivity
  have pt := tiny_pos
  have es' : |s - (pts.map g).sum| ≤ pts.length * ((pts.map g).sum * (5 / 2 ^ 54)) := by
    refine es.trans (mul_le_mul hN ?_ (by positivity) n0)
    norm_num at tG ⊢
    linarith
  have hs : (pts.map g).sum / 2 ≤ s := by
    have h1 := (abs_le.mp es').1
    have : pts.length * ((pts.map g).sum * (5 / 2 ^ 54)) ≤ 2 ^ 40 * ((pts.map g).sum * (5 / 2 ^ 54)) :=
      mul_le_mul_of_nonneg_right hn2 (by positivity)
    norm_num at this h1
    linarith
  have s0 : 0 < s := by linarith
  refine ⟨g, fun p => M.rnd (g p / s), fun p hp' => ⟨(hg' p hp').1, (hg' p hp').2.1⟩, hpos, ?_, ?_, ?_⟩
  · refine List.map_congr_left fun p hp' => ?_
    rw [(hg' p hp').1, RDbl.div_fin _ s0.ne']
  · exact fun p hp' => ⟨M.rnd_nonneg (div_nonneg (hg' p hp').2.1 s0.le), M.idem _⟩
  set A := (pts.map g).sum with hA
  have h1 : ∀ p ∈ pts, |M.rnd (g p / s) - g p / A| ≤
      g p * (1 / s / 2 ^ 53 + |1 / s - 1 / A|) + tiny := by
    intro p hp'
    have a0 := (hg' p hp').2.1
    have a1 := M.near (g p / s)
    rw [abs_of_nonneg (div_nonneg a0 s0.le)] at a1
    have a2 : |g p / s - g p / A| = g p * |1 / s - 1 / A| := by
      rw [show g p / s - g p / A = g p * (1 / s - 1 / A) by ring, abs_mul, abs_of_nonneg a0]
    rw [show M.rnd (g p / s) - g p / A = (M.rnd (g p / s) - g p / s) + (g p / s - g p / A) by ring]
    refine (abs_add_le _ _).trans ?_
    rw [a2]
    calc _ ≤ g p / s / 2 ^ 53 + tiny + g p * |1 / s - 1 / A| := by linarith
      _ = _ := by ring
  refine (List.sum_le_sum h1).trans ?_
  rw [List.sum_map_add, List.sum_map_mul_right, ← hA]
  have h2 := sum_const_le (fun _ : V2 (RDbl M) => tiny) tiny pts fun _ _ => le_rfl
  have h3 : A * (1 / s) ≤ 2 := by
    rw [mul_one_div, div_le_iff₀ s0]; linarith
  have h4 : A * |1 / s - 1 / A| ≤ pts.length * (10 / 2 ^ 54) := by
    rw [show 1 / s - 1 / A = -(s - A) * (1 / s) / A by field_simp; ring, abs_div, abs_mul, abs_neg,
      abs_of_pos hpos, abs_of_pos (by positivity : 0 < 1 / s)]
    rw [mul_div_cancel₀ _ hpos.ne']
    calc _ ≤ pts.length * (A * (5 / 2 ^ 54)) * (1 / s) :=
          mul_le_mul_of_nonneg_right es' (by positivity)
      _ = pts.length * (5 / 2 ^ 54) * (A * (1 / s)) := by ring
      _ ≤ pts.length * (5 / 2 ^ 54) * 2 := mul_le_mul_of_nonneg_left h3 (by positivity)
      _ = _ := by ring
  have h5 : (pts.length : ℝ) * tiny ≤ pts.length * (1 / 2 ^ 54) :=
    mul_le_mul_of_nonneg_left (tiny_le 54 (by norm_num)) n0
  calc _ ≤ A * (1 / s / 2 ^ 53 + |1 / s - 1 / A|) + pts.length * tiny := by linarith
    _ = A * (1 / s) / 2 ^ 53 + A * |1 / s - 1 / A| + pts.length * tiny := by ring
    _ ≤ 2 / 2 ^ 53 + pts.length * (10 / 2 ^ 54) + pts.length * (1 / 2 ^ 54) := by gcongr
    _ ≤ _ := by norm_num; linarith

/-- So the values sum to one up to a unit in the last place for every point. -/
theorem C123_sum_one {t : Target (RDbl M)} {tr : V2 (RDbl M)} {pts : List (V2 (RDbl M))}
    (ht : ∀ G ∈ t.gaussians, GaussNum G) (htr : V2Num tr) (hp : ∀ p ∈ pts, V2Num p)
    (hn : pts.length ≤ 2 ^ 40)
    (hseen : ∃ p ∈ pts, ∃ G ∈ t.gaussians, 1 / 2 ^ 1000 ≤ (G.evalTrans p tr).val)
    {vals : List (RDbl M)} (h : t.IsFill tr pts vals) :
    (∀ v ∈ vals, Num v ∧ 0 ≤ v.val) ∧
      |(vals.map RDbl.val).sum - 1| ≤ (pts.length + 1) / 2 ^ 50 := by
  obtain ⟨g, w, hg, hs, rfl, hw, he⟩ := C123_normalised ht htr hp hn hseen h
  constructor
  · intro v hv
    obtain ⟨p, hp', rfl⟩ := List.mem_map.mp hv
    exact ⟨⟨_, rfl⟩, (hw p hp').1⟩
  · refine le_trans ?_ he
    have h1 : (pts.map fun p => g p / (pts.map g).sum).sum = 1 := by
      simp only [div_eq_mul_inv]
      rw [List.sum_map_mul_right]
      exact mul_inv_cancel₀ hs.ne'
    rw [← h1, List.map_map]
    exact sum_diff_le _ _ _ _ fun p _ => le_rfl

/-- From the target to the coefficients: with rounding, and sums in any order, the spatial
coefficients are those of the target's values divided by their exact sum. -/
theorem C123_target (hT : AccurateTrig M) {b : Basis (RDbl M)} {t : Target (RDbl M)}
    {tr : V2 (RDbl M)} {pts : List (V2 (RDbl M))} {c : ℝ} {k1 k2 : ℕ} (h1 : k1 ≤ 2 ^ 53)
    (h2 : k2 ≤ 2 ^ 53) (hc : 1 ≤ c) (ht : ∀ G ∈ t.gaussians, GaussNum G) (htr : V2Num tr)
    (hp : ∀ p ∈ pts, InScale b.lx b.ly c p.c0 p.c1) (hn : pts.length ≤ 2 ^ 40)
    (hseen : ∃ p ∈ pts, ∃ G ∈ t.gaussians, 1 / 2 ^ 1000 ≤ (G.evalTrans p tr).val)
    {vals : List (RDbl M)} (hv : t.IsFill tr pts vals) {ck : RDbl M}
    (h : b.IsSpatialCoeff vals pts (k1, k2) ck) :
    ∃ v, ck = .fin v ∧
      |v - (pts.map fun p => cosBasis b.lx.val b.ly.val k1 k2 p.c0.val p.c1.val *
          (t.evaluate p tr).val).sum / (pts.map fun p => (t.evaluate p tr).val).sum| ≤
        2 * basisError k1 k2 c + (pts.length + 1) / 2 ^ 48 := by
  have hp' : ∀ p ∈ pts, V2Num p := fun p h => ⟨⟨_, (hp p h).x_num⟩, ⟨_, (hp p h).y_num⟩⟩
  obtain ⟨g, w, hg, hs, rfl, hw, he⟩ := C123_normalised ht htr hp' hn hseen hv
  have hn2 : (pts.length : ℝ) ≤ 2 ^ 40 := by exact_mod_cast hn
  have n0 : (0 : ℝ) ≤ pts.length := by positivity
  have hgv : ∀ p ∈ pts, (t.evaluate p tr).val = g p := fun p hp' => by rw [(hg p hp').1, val_fin]
  have e1 : (pts.map fun p => (t.evaluate p tr).val) = pts.map g := List.map_congr_left hgv
  have e2 : (pts.map fun p => cosBasis b.lx.val b.ly.val k1 k2 p.c0.val p.c1.val *
      (t.evaluate p tr).val) =
      pts.map fun p => cosBasis b.lx.val b.ly.val k1 k2 p.c0.val p.c1.val * g p :=
    List.map_congr_left fun p hp' => by rw [hgv p hp']
  rw [e1, e2]
  have hS : (pts.map fun p => |w p|).sum ≤ 2 := by
    have a1 : (pts.map fun p => |w p|).sum ≤
        (pts.map fun p => |w p - g p / (pts.map g).sum| + g p / (pts.map g).sum).sum := by
      refine List.sum_le_sum fun p hp' => ?_
      have := abs_add_le (w p - g p / (pts.map g).sum) (g p / (pts.map g).sum)
      rw [sub_add_cancel, abs_of_nonneg (div_nonneg (hg p hp').2 hs.le)] at this
      exact this
    rw [List.sum_map_add] at a1
    have a2 : (pts.map fun p => g p / (pts.map g).sum).sum = 1 := by
      simp only [div_eq_mul_inv]
      rw [List.sum_map_mul_right]
      exact mul_inv_cancel₀ hs.ne'
    rw [a2] at a1
    have : ((pts.length : ℝ) + 1) / 2 ^ 50 ≤ 1 := by
      rw [div_le_one (by positivity)]
      linarith [show (2 : ℝ) ^ 40 + 1 ≤ 2 ^ 50 by norm_num]
    linarith
  obtain ⟨v, rfl, ev⟩ := C123_spatial hT h1 h2 hc hp (hn.trans (by norm_num)) hS h
  refine ⟨v, rfl, ?_⟩
  have d : |(pts.map fun p => cosBasis b.lx.val b.ly.val k1 k2 p.c0.val p.c1.val * w p).sum -
      (pts.map fun p => cosBasis b.lx.val b.ly.val k1 k2 p.c0.val p.c1.val * g p).sum /
        (pts.map g).sum| ≤ (pts.length + 1) / 2 ^ 50 := by
    refine le_trans ?_ he
    rw [div_eq_mul_inv, ← List.sum_map_mul_right]
    refine sum_diff_le _ _ _ _ fun p _ => ?_
    have hc1 : |cosBasis b.lx.val b.ly.val k1 k2 p.c0.val p.c1.val| ≤ 1 := by
      unfold cosBasis
      rw [abs_mul]
      exact mul_le_one₀ (abs_cos_le_one _) (abs_nonneg _) (abs_cos_le_one _)
    rw [mul_assoc, ← mul_sub, abs_mul, ← div_eq_mul_inv]
    exact mul_le_of_le_one_left (abs_nonneg _) hc1
  generalize (pts.map fun p => cosBasis b.lx.val b.ly.val k1 k2 p.c0.val p.c1.val * w p).sum = X at *
  generalize (pts.map fun p => cosBasis b.lx.val b.ly.val k1 k2 p.c0.val p.c1.val * g p).sum /
    (pts.map g).sum = Y at *
  rw [show v - Y = (v - X) + (X - Y) by ring]
  refine (abs_add_le _ _).trans ?_
  have h5 : (pts.length : ℝ) * tiny ≤ pts.length * (1 / 2 ^ 54) :=
    mul_le_mul_of_nonneg_left (tiny_le 54 (by norm_num)) n0
  generalize (pts.length : ℝ) = n at *
  generalize basisError k1 k2 c = E at *
  norm_num at h5 ev d ⊢
  linarith

/-! ## the shipped sizes -/

/-- Ten by ten basis functions and a thousand samples, none further from the lower edges than twice
the size of the map: the coefficients of the trajectory are right to twelve decimals. -/
theorem C123_shipped (hT : AccurateTrig M) {b : Basis (RDbl M)} {xt : List (V3 (RDbl M))}
    {k1 k2 : ℕ} (h1 : k1 < 10) (h2 : k2 < 10)
    (hx : ∀ x ∈ xt, InScale b.lx b.ly 2 x.c0 x.c1) (hne : xt ≠ []) (hn : xt.length ≤ 1000)
    {ck : RDbl M} (h : b.IsTrajCoeff xt (k1, k2) ck) :
    ∃ v, ck = .fin v ∧
      |v - (xt.map fun x => cosBasis b.lx.val b.ly.val k1 k2 x.c0.val x.c1.val).sum / xt.length| <
        1 / 10 ^ 12 := by
  obtain ⟨v, hv, -, he⟩ := C123_trajectory hT (by omega) (by omega) (by norm_num) hx hne (by omega) h
  refine ⟨v, hv, he.trans_lt ?_⟩
  have a1 : (k1 : ℝ) ≤ 9 := by exact_mod_cast Nat.lt_succ_iff.mp h1
  have a2 : (k2 : ℝ) ≤ 9 := by exact_mod_cast Nat.lt_succ_iff.mp h2
  have a3 : (xt.length : ℝ) ≤ 1000 := by exact_mod_cast hn
  unfold basisError
  generalize (xt.length : ℝ) = n at *
  norm_num
  linarith

/-! ## the order does matter -/

theorem ieee_half_ulp : Ieee.rnd (1 + 1 / 2 ^ 53) = 1 := by
  rw [Ieee.rnd_tie (2 ^ 52) (-52) (by decide) (by norm_num) (by norm_num) (by norm_num)
    (.inl (by norm_num))]
  norm_num

theorem ieee_pow_rep (e : ℤ) (he : -1074 ≤ e) : Ieee.rnd (2 ^ e) = 2 ^ e :=
  Ieee.rnd_rep 1 e he (by norm_num) (by simp)

/-- In binary64 the order of the additions changes the result. -/
theorem C123_order_matters : ∃ (l : List (RDbl ieee)) (s s' : RDbl ieee),
    IsSum l s ∧ IsSum l s' ∧ s ≠ s' := by
  refine ⟨[.fin 1, .fin (1 / 2 ^ 53), .fin (1 / 2 ^ 53)], _, _,
    ⟨.add (.add (.term (.fin 1)) (.term (.fin (1 / 2 ^ 53)))) (.term (.fin (1 / 2 ^ 53))), .refl _, rfl⟩,
    ⟨.add (.term (.fin 1)) (.add (.term (.fin (1 / 2 ^ 53))) (.term (.fin (1 / 2 ^ 53)))), .refl _, rfl⟩, ?_⟩
  have h1 : ieee.rnd (1 + 1 / 2 ^ 53) = 1 := ieee_half_ulp
  have h2 : ieee.rnd (1 / 2 ^ 53 + 1 / 2 ^ 53) = 1 / 2 ^ 52 := by
    have := ieee_pow_rep (-52) (by norm_num)
    norm_num at this ⊢
    exact this
  have h3 : ieee.rnd (1 + 1 / 2 ^ 52) = 1 + 1 / 2 ^ 52 :=
    Ieee.rnd_rep (2 ^ 52 + 1) (-52) (by norm_num) (by norm_num) (by norm_num)
  simp only [SumTree.eval, RDbl.add_fin, h1, h2, h3]
  rw [Ne, RDbl.fin_inj]
  norm_num

/-! ## examples -/

/-- The basis of the unit square. -/
noncomputable def unitBasis : Basis (RDbl ieee) := Basis.new (.fin 1) (.fin 1) 10

theorem unit_scale {x y : ℝ} (hx : |x| ≤ 2) (hy : |y| ≤ 2) :
    InScale unitBasis.lx unitBasis.ly 2 (.fin x) (.fin y) := by
  have h1 : unitBasis.lx.val = 1 := rfl
  have h2 : unitBasis.ly.val = 1 := rfl
  refine ⟨rfl, rfl, rfl, rfl, ?_, ?_, ?_, ?_, ?_, ?_⟩ <;> simp only [h1, h2, val_fin, mul_one] <;>
    first | assumption | norm_num

/-- Not vacuous: a trajectory of two poses, the second outside the unit square. -/
example : ∃ v, (Basis.trajCoeff unitBasis [⟨.fin (1 / 3), .fin (1 / 2), .fin 0⟩,
      ⟨.fin (-3 / 2), .fin (1 / 10), .fin 1⟩])[12]? = some (.fin v) ∧
    |v - (cosBasis 1 1 2 1 (1 / 3) (1 / 2) + cosBasis 1 1 2 1 (-3 / 2) (1 / 10)) / 2| < 1 / 10 ^ 12 := by
  obtain ⟨c, hc, hi⟩ := C123_model_traj unitBasis [⟨.fin (1 / 3), .fin (1 / 2), .fin 0⟩,
      ⟨.fin (-3 / 2), .fin (1 / 10), .fin 1⟩] 12 ((2 : ℕ), (1 : ℕ)) (by
        simp only [unitBasis, Basis.new]; decide)
  obtain ⟨v, rfl, hv⟩ := C123_shipped (k1 := 2) (k2 := 1) ieee_trig (by norm_num) (by norm_num) (by
      intro x hx
      simp only [List.mem_cons, List.not_mem_nil, or_false] at hx
      rcases hx with rfl | rfl
      · exact unit_scale (by rw [abs_le]; norm_num) (by rw [abs_le]; norm_num)
      · exact unit_scale (by rw [abs_le]; norm_num) (by rw [abs_le]; norm_num))
    (by simp) (by simp) hi
  refine ⟨v, hc, ?_⟩
  have h1 : unitBasis.lx.val = 1 := rfl
  have h2 : unitBasis.ly.val = 1 := rfl
  simpa [val_fin, h1, h2] using hv

theorem corner_value : (1 : ℝ) / 2 ^ 1000 ≤
    (Gaussian.evalTrans ⟨⟨.fin 0, .fin 0⟩, ⟨⟨.fin 1, .fin 0⟩, ⟨.fin 0, .fin 1⟩⟩,
      ⟨⟨.fin 1, .fin 0⟩, ⟨.fin 0, .fin 1⟩⟩⟩ (⟨.fin 0, .fin 0⟩ : V2 (RDbl ieee))
      ⟨.fin 0, .fin 0⟩).val := by
  have h : Gaussian.evalTrans ⟨⟨.fin 0, .fin 0⟩, ⟨⟨.fin 1, .fin 0⟩, ⟨.fin 0, .fin 1⟩⟩,
      ⟨⟨.fin 1, .fin 0⟩, ⟨.fin 0, .fin 1⟩⟩⟩ (⟨.fin 0, .fin 0⟩ : V2 (RDbl ieee))
      ⟨.fin 0, .fin 0⟩ = .fin 1 := by
    simp only [Gaussian.evalTrans, Gaussian.expForm, V2.sub, V2.dot, RDbl.sub_fin,
      RDbl.mul_fin, RDbl.add_fin, RDbl.lit_fin, RDbl.exp_fin, sub_zero, mul_zero, zero_mul, add_zero,
      ieee.rnd_zero]
    show RDbl.fin (Ieee.rnd (Real.exp 0)) = _
    rw [Real.exp_zero]
    exact congrArg _ ieee.rnd_one
  rw [h, val_fin, div_le_iff₀ (by positivity), one_mul]
  exact one_le_pow₀ (by norm_num)

/-- Not vacuous: the target at the corner of the unit square, on a grid of three points. -/
example : |((cornerTarget.fill ⟨.fin 0, .fin 0⟩ [⟨.fin 0, .fin 0⟩, ⟨.fin 1, .fin 0⟩,
      ⟨.fin 1, .fin (1 / 2)⟩]).map RDbl.val).sum - 1| ≤ 1 / 2 ^ 48 := by
  have := (C123_sum_one (t := cornerTarget) (by
      intro G hG
      rw [List.mem_singleton.mp hG]
      exact ⟨⟨⟨_, rfl⟩, _, rfl⟩, ⟨⟨_, rfl⟩, _, rfl⟩, ⟨_, rfl⟩, _, rfl⟩)
    (tr := ⟨.fin 0, .fin 0⟩) ⟨⟨_, rfl⟩, _, rfl⟩
    (pts := [⟨.fin 0, .fin 0⟩, ⟨.fin 1, .fin 0⟩, ⟨.fin 1, .fin (1 / 2)⟩]) (by
      intro p hp
      simp only [List.mem_cons, List.not_mem_nil, or_false] at hp
      rcases hp with rfl | rfl | rfl <;> exact ⟨⟨_, rfl⟩, _, rfl⟩) (by simp)
    ⟨_, List.mem_cons_self, _, List.mem_singleton.mpr rfl, corner_value⟩
    (C123_model_fill _ _ _)).2
  refine this.trans ?_
  simp only [List.length_cons, List.length_nil]
  norm_num

/-- Not vacuous: its coefficient of frequency (2, 1) on two points, in the order of the model. -/
example : ∃ l v g0 g1, unitBasis.spatialCoeff (cornerTarget.fill ⟨.fin 0, .fin 0⟩
      [⟨.fin 0, .fin 0⟩, ⟨.fin 1, .fin (1 / 2)⟩]) [⟨.fin 0, .fin 0⟩, ⟨.fin 1, .fin (1 / 2)⟩] = .ok l ∧
    l[12]? = some (.fin v) ∧
    g0 = (cornerTarget.evaluate ⟨.fin 0, .fin 0⟩ ⟨.fin 0, .fin 0⟩).val ∧
    g1 = (cornerTarget.evaluate ⟨.fin 1, .fin (1 / 2)⟩ ⟨.fin 0, .fin 0⟩).val ∧
    |v - (cosBasis 1 1 2 1 0 0 * g0 + cosBasis 1 1 2 1 1 (1 / 2) * g1) / (g0 + g1)| ≤
      2 * basisError 2 1 2 + 3 / 2 ^ 48 := by
  obtain ⟨c, hc, hi⟩ := C123_model_spatial unitBasis (cornerTarget.fill ⟨.fin 0, .fin 0⟩
      [⟨.fin 0, .fin 0⟩, ⟨.fin 1, .fin (1 / 2)⟩]) [⟨.fin 0, .fin 0⟩, ⟨.fin 1, .fin (1 / 2)⟩] _ rfl
      12 ((2 : ℕ), (1 : ℕ)) (by simp only [unitBasis, Basis.new]; decide)
  obtain ⟨v, rfl, hv⟩ := C123_target (t := cornerTarget) (k1 := 2) (k2 := 1) (c := 2) ieee_trig (by norm_num)
    (by norm_num) (by norm_num) (by
      intro G hG
      rw [List.mem_singleton.mp hG]
      exact ⟨⟨⟨_, rfl⟩, _, rfl⟩, ⟨⟨_, rfl⟩, _, rfl⟩, ⟨_, rfl⟩, _, rfl⟩)
    ⟨⟨_, rfl⟩, _, rfl⟩ (by
      intro x hx
      simp only [List.mem_cons, List.not_mem_nil, or_false] at hx
      rcases hx with rfl | rfl
      · exact unit_scale (by rw [abs_le]; norm_num) (by rw [abs_le]; norm_num)
      · exact unit_scale (by rw [abs_le]; norm_num) (by rw [abs_le]; norm_num)) (by simp)
    ⟨_, List.mem_cons_self, _, List.mem_singleton.mpr rfl, corner_value⟩
    (C123_model_fill _ _ _) hi
  have h1 : unitBasis.lx.val = 1 := rfl
  have h2 : unitBasis.ly.val = 1 := rfl
  refine ⟨_, v, _, _, rfl, hc, rfl, rfl, le_trans (le_of_eq ?_) (hv.trans (le_of_eq ?_))⟩
  · simp only [List.map_cons, List.map_nil, List.sum_cons, List.sum_nil, add_zero, val_fin, h1, h2]
  · simp only [List.length_cons, List.length_nil]
    norm_num

end Ergodic
