import Verif.Props.Basis
import Mathlib.Data.List.InsertIdx

/-!
# Properties C43–C46: Gaussian targets
-/

namespace Ergodic

/-! ## C43 one Gaussian -/

/-- The object built by the constructor. -/
noncomputable def mkGauss (mx my sx sy : ℝ) : Gaussian ℝ :=
  { mu := ⟨mx, my⟩
    cov := ⟨⟨sx * sx, 0⟩, ⟨0, sy * sy⟩⟩
    cov_inv := ⟨⟨1 / (sx * sx), 0⟩, ⟨0, 1 / (sy * sy)⟩⟩ }

theorem gaussian_new (mu s : V2 ℝ) (h0 : s.c0 ≠ 0) (h1 : s.c1 ≠ 0) :
    Gaussian.new mu s = .ok (mkGauss mu.c0 mu.c1 s.c0 s.c1) := by
  have a : 0 < s.c0 * s.c0 := mul_self_pos.mpr h0
  have b : 0 < s.c1 * s.c1 := mul_self_pos.mpr h1
  unfold Gaussian.new
  simp [a, b, mkGauss]

theorem mkGauss_evalTrans (mx my sx sy : ℝ) (p t : V2 ℝ) :
    (mkGauss mx my sx sy).evalTrans p t = gauss mx my sx sy (p.c0 + t.c0) (p.c1 + t.c1) := by
  simp only [Gaussian.evalTrans, Gaussian.expForm, mkGauss, V2.sub, V2.dot, gauss, real_exp, real_mul,
    real_add, real_sub, real_lit, div_pow]
  congr 1
  push_cast
  ring

theorem mkGauss_eval (mx my sx sy : ℝ) (p : V2 ℝ) :
    (mkGauss mx my sx sy).eval p = gauss mx my sx sy p.c0 p.c1 := by
  simp only [Gaussian.eval, Gaussian.expForm, mkGauss, V2.sub, V2.dot, gauss, real_exp, real_mul,
    real_add, real_sub, real_lit, div_pow]
  congr 1
  push_cast
  ring

/-- C43: the constructor accepts exactly non-zero standard deviations. -/
theorem C43_constructor (mu s : V2 ℝ) :
    (∃ g, Gaussian.new mu s = .ok g) ↔ s.c0 ≠ 0 ∧ s.c1 ≠ 0 := by
  constructor
  · rintro ⟨g, hg⟩
    by_contra hc
    have : s.c0 = 0 ∨ s.c1 = 0 := by tauto
    unfold Gaussian.new at hg
    rcases this with h | h <;> simp [h] at hg
  · rintro ⟨h0, h1⟩; exact ⟨_, gaussian_new mu s h0 h1⟩

/-- C43: the value is that of an axis-aligned Gaussian with the given mean and deviations. -/
theorem C43_value (mu s : V2 ℝ) (g : Gaussian ℝ) (h : Gaussian.new mu s = .ok g) (p : V2 ℝ) :
    g.eval p = gauss mu.c0 mu.c1 s.c0 s.c1 p.c0 p.c1 := by
  obtain ⟨h0, h1⟩ := (C43_constructor mu s).mp ⟨g, h⟩
  rw [gaussian_new mu s h0 h1, Res.ok.injEq] at h
  rw [← h, mkGauss_eval]

/-- C43: the value is in `(0, 1]`. -/
theorem C43_range (mu s : V2 ℝ) (g : Gaussian ℝ) (h : Gaussian.new mu s = .ok g) (p : V2 ℝ) :
    0 < g.eval p ∧ g.eval p ≤ 1 := by
  rw [C43_value mu s g h p, gauss]
  refine ⟨Real.exp_pos _, ?_⟩
  rw [Real.exp_le_one_iff]
  have := sq_nonneg ((p.c0 - mu.c0) / s.c0)
  have := sq_nonneg ((p.c1 - mu.c1) / s.c1)
  linarith

/-- C43: the maximum 1 is attained exactly at the mean. -/
theorem C43_peak (mu s : V2 ℝ) (g : Gaussian ℝ) (h : Gaussian.new mu s = .ok g) (p : V2 ℝ) :
    g.eval p = 1 ↔ p = mu := by
  obtain ⟨h0, h1⟩ := (C43_constructor mu s).mp ⟨g, h⟩
  rw [C43_value mu s g h p, gauss, Real.exp_eq_one_iff]
  constructor
  · intro he
    have a := sq_nonneg ((p.c0 - mu.c0) / s.c0)
    have b := sq_nonneg ((p.c1 - mu.c1) / s.c1)
    have a0 : ((p.c0 - mu.c0) / s.c0) ^ 2 = 0 := by linarith
    have b0 : ((p.c1 - mu.c1) / s.c1) ^ 2 = 0 := by linarith
    rw [sq_eq_zero_iff, div_eq_zero_iff] at a0 b0
    have e0 : p.c0 = mu.c0 := by rcases a0 with a0 | a0 <;> [linarith; exact absurd a0 h0]
    have e1 : p.c1 = mu.c1 := by rcases b0 with b0 | b0 <;> [linarith; exact absurd b0 h1]
    cases p; cases mu; simp_all
  · rintro rfl; simp

/-- C43: the value is symmetric about the mean. -/
theorem C43_symmetric (mu s : V2 ℝ) (g : Gaussian ℝ) (h : Gaussian.new mu s = .ok g) (dx dy : ℝ) :
    g.eval ⟨mu.c0 + dx, mu.c1 + dy⟩ = g.eval ⟨mu.c0 - dx, mu.c1 - dy⟩ := by
  rw [C43_value mu s g h, C43_value mu s g h, gauss, gauss]
  congr 1
  ring

/-- C43: the value decreases strictly along every ray away from the mean. -/
theorem C43_decreasing (mu s : V2 ℝ) (g : Gaussian ℝ) (h : Gaussian.new mu s = .ok g)
    (dx dy a b : ℝ) (hd : dx ≠ 0 ∨ dy ≠ 0) (ha : 0 ≤ a) (hab : a < b) :
    g.eval ⟨mu.c0 + b * dx, mu.c1 + b * dy⟩ < g.eval ⟨mu.c0 + a * dx, mu.c1 + a * dy⟩ := by
  obtain ⟨h0, h1⟩ := (C43_constructor mu s).mp ⟨g, h⟩
  rw [C43_value mu s g h, C43_value mu s g h, gauss, gauss, Real.exp_lt_exp]
  have e : ∀ c : ℝ, ((mu.c0 + c * dx - mu.c0) / s.c0) ^ 2 + ((mu.c1 + c * dy - mu.c1) / s.c1) ^ 2 =
      c ^ 2 * ((dx / s.c0) ^ 2 + (dy / s.c1) ^ 2) := by intro c; ring
  simp only [e]
  have hq : 0 < (dx / s.c0) ^ 2 + (dy / s.c1) ^ 2 := by
    rcases hd with hd | hd
    · have := sq_pos_of_ne_zero (div_ne_zero hd h0); positivity
    · have := sq_pos_of_ne_zero (div_ne_zero hd h1); positivity
  have : a ^ 2 < b ^ 2 := by nlinarith
  nlinarith

/-- C43: evaluating with a translation is evaluating at the translated point. -/
theorem C43_translation (g : Gaussian ℝ) (p t : V2 ℝ) :
    g.evalTrans p t = g.eval ⟨p.c0 + t.c0, p.c1 + t.c1⟩ := by
  simp only [Gaussian.evalTrans, Gaussian.eval, V2.sub, real_sub]
  congr 2 <;> ring

example : ∃ g, Gaussian.new (⟨1, 2⟩ : V2 ℝ) ⟨0.5, 3⟩ = .ok g :=
  (C43_constructor _ _).mpr ⟨by norm_num, by norm_num⟩

/-! ## C44 filling a grid -/

/-- Every Gaussian of the target comes from the constructor. -/
def Target.WellFormed (t : Target ℝ) : Prop :=
  ∀ g ∈ t.gaussians, ∃ mu s, Gaussian.new mu s = .ok g

theorem evaluate_eq (t : Target ℝ) (p tr : V2 ℝ) :
    t.evaluate p tr = (t.gaussians.map fun g => g.evalTrans p tr).sum := by
  unfold Target.evaluate
  have : ∀ (l : List (Gaussian ℝ)) (a : ℝ),
      l.foldl (fun val g => val +. g.evalTrans p tr) a = a + (l.map fun g => g.evalTrans p tr).sum := by
    intro l
    induction l with
    | nil => intro a; simp
    | cons g l ih => intro a; rw [List.foldl_cons, ih, List.map_cons, List.sum_cons, real_add]; ring
  rw [this]
  simp

/-- C45 (used by C44): the target value is the sum of the component Gaussians at the translated
point. -/
theorem C45_evaluate_sum (t : Target ℝ) (p tr : V2 ℝ) :
    t.evaluate p tr = (t.gaussians.map fun g => g.eval ⟨p.c0 + tr.c0, p.c1 + tr.c1⟩).sum := by
  rw [evaluate_eq]
  simp only [C43_translation]

theorem sum_pos_of {l : List ℝ} (h : ∀ x ∈ l, 0 < x) (hl : l ≠ []) : 0 < l.sum :=
  List.sum_pos l h hl

theorem evaluate_pos (t : Target ℝ) (ht : t.WellFormed) (hn : t.gaussians ≠ []) (p tr : V2 ℝ) :
    0 < t.evaluate p tr := by
  rw [C45_evaluate_sum]
  apply sum_pos_of
  · intro x hx
    obtain ⟨g, hg, rfl⟩ := List.mem_map.mp hx
    obtain ⟨mu, s, h⟩ := ht g hg
    exact (C43_range mu s g h _).1
  · simpa using hn

theorem sum_map_div (l : List ℝ) (s : ℝ) : (l.map fun v => v / s).sum = l.sum / s := by
  induction l with
  | nil => simp
  | cons x l ih => simp only [List.map_cons, List.sum_cons, ih]; ring

/-- Full statement of C44: one non-negative value per grid point, summing to 1. -/
def C44_statement : Prop :=
  ∀ (t : Target ℝ) (tr : V2 ℝ) (grid : List (V2 ℝ)), t.WellFormed → grid ≠ [] →
    (t.fill tr grid).length = grid.length ∧ (∀ v ∈ t.fill tr grid, 0 ≤ v) ∧
      (t.fill tr grid).sum = 1

/-- C44 for targets with at least one Gaussian.  Missing: the empty target. -/
theorem C44_normalised_partial (t : Target ℝ) (tr : V2 ℝ) (grid : List (V2 ℝ)) (ht : t.WellFormed)
    (hn : t.gaussians ≠ []) (hg : grid ≠ []) :
    (t.fill tr grid).length = grid.length ∧ (∀ v ∈ t.fill tr grid, 0 < v) ∧
      (t.fill tr grid).sum = 1 := by
  have hpos : 0 < (grid.map fun p => t.evaluate p tr).sum := by
    apply sum_pos_of
    · intro x hx
      obtain ⟨p, _, rfl⟩ := List.mem_map.mp hx
      exact evaluate_pos t ht hn p tr
    · simpa using hg
  unfold Target.fill
  simp only [fsum_real, real_div]
  refine ⟨by simp, ?_, ?_⟩
  · intro v hv
    obtain ⟨x, hx, rfl⟩ := List.mem_map.mp hv
    obtain ⟨p, _, rfl⟩ := List.mem_map.mp hx
    exact div_pos (evaluate_pos t ht hn p tr) hpos
  · rw [sum_map_div, div_self hpos.ne']

/-- C44: the values are proportional to the target. -/
theorem C44_proportional (t : Target ℝ) (tr : V2 ℝ) (grid : List (V2 ℝ)) (ht : t.WellFormed)
    (hn : t.gaussians ≠ []) (hg : grid ≠ []) :
    ∃ s, 0 < s ∧ ∀ (i : Nat) (p : V2 ℝ), grid[i]? = some p →
      (t.fill tr grid)[i]? = some (t.evaluate p tr / s) := by
  refine ⟨(grid.map fun p => t.evaluate p tr).sum, ?_, ?_⟩
  · apply sum_pos_of
    · intro x hx
      obtain ⟨p, _, rfl⟩ := List.mem_map.mp hx
      exact evaluate_pos t ht hn p tr
    · simpa using hg
  · intro i p hp
    unfold Target.fill
    simp only [fsum_real, real_div, List.getElem?_map, hp, Option.map_some]

/-- C44: when every value is zero (no Gaussian, or all of them underflow), all the results are
NaN. -/
theorem C44_zero_mass (t : Target Dbl) (tr : V2 Dbl) (grid : List (V2 Dbl))
    (h : ∀ p ∈ grid, t.evaluate p tr = .fin 0) : ∀ v ∈ t.fill tr grid, v = .nan := by
  have hs : ∀ l : List Dbl, (∀ x ∈ l, x = .fin 0) → fsum l = .fin 0 := by
    intro l hl
    unfold fsum
    have : ∀ l : List Dbl, (∀ x ∈ l, x = .fin 0) →
        l.foldl (fun s x => s +. x) (.fin 0 : Dbl) = .fin 0 := by
      intro l
      induction l with
      | nil => intro _; rfl
      | cons x l ih =>
        intro hl
        rw [List.foldl_cons, hl x (by simp), Dbl.add_fin, add_zero]
        exact ih fun y hy => hl y (by simp [hy])
    have h0 : (lit 0 0 : Dbl) = .fin 0 := by rw [Dbl.lit_eq]; norm_num
    rw [h0]; exact this l hl
  have hall : ∀ x ∈ grid.map (fun p => t.evaluate p tr), x = .fin 0 := by
    intro x hx
    obtain ⟨p, hp, rfl⟩ := List.mem_map.mp hx
    exact h p hp
  intro v hv
  unfold Target.fill at hv
  simp only [hs _ hall] at hv
  obtain ⟨x, hx, rfl⟩ := List.mem_map.mp hv
  rw [hall x hx, Dbl.zero_div_zero]

/-- C44: with no Gaussian every value is NaN. -/
theorem C44_refuted_empty (tr : V2 Dbl) (grid : List (V2 Dbl)) :
    ∀ v ∈ (⟨[]⟩ : Target Dbl).fill tr grid, v = .nan := by
  apply C44_zero_mass
  intro p _
  simp only [Target.evaluate, List.foldl_nil, Dbl.lit_eq]
  norm_num

/-- C44 is false: the empty target does not give a distribution. -/
theorem C44_refuted : ¬ C44_statement := by
  intro h
  have := (h ⟨[]⟩ ⟨0, 0⟩ [⟨0, 0⟩] (by intro g hg; simp at hg) (by simp)).2.2
  simp [Target.fill, Target.evaluate] at this

example : (⟨[mkGauss 1 2 1 1]⟩ : Target ℝ).WellFormed ∧
    (⟨[mkGauss 1 2 1 1]⟩ : Target ℝ).gaussians ≠ [] := by
  refine ⟨?_, by simp⟩
  intro g hg
  simp only [List.mem_singleton] at hg
  exact ⟨⟨1, 2⟩, ⟨1, 1⟩, by rw [hg]; exact gaussian_new _ _ one_ne_zero one_ne_zero⟩

/-! ## C45 the list of Gaussians -/

variable {F : Type} [Flt F]

omit [Flt F] in
/-- C45: `addGaussian` appends: all earlier entries stay where they are. -/
theorem C45_add (t : Target F) (g : Gaussian F) :
    (t.addGaussian g).gaussians.length = t.gaussians.length + 1 ∧
    (t.addGaussian g).gaussians[t.gaussians.length]? = some g ∧
    ∀ i, i < t.gaussians.length → (t.addGaussian g).gaussians[i]? = t.gaussians[i]? := by
  refine ⟨by simp [Target.addGaussian], by simp [Target.addGaussian], ?_⟩
  intro i hi
  simp [Target.addGaussian, List.getElem?_append_left hi]

omit [Flt F] in
/-- C45: `deleteGaussian` removes the entry at the index: earlier entries stay, later ones move
down by one. -/
theorem C45_delete (t : Target F) (idx : Nat) (h : idx < t.gaussians.length) :
    ∃ t', t.deleteGaussian idx = .ok t' ∧ t'.gaussians.length + 1 = t.gaussians.length ∧
      (∀ i, i < idx → t'.gaussians[i]? = t.gaussians[i]?) ∧
      (∀ i, idx ≤ i → t'.gaussians[i]? = t.gaussians[i + 1]?) := by
  refine ⟨{ t with gaussians := t.gaussians.eraseIdx idx }, by simp [Target.deleteGaussian, h], ?_,
    ?_, ?_⟩
  · simp only [List.length_eraseIdx, h, if_true]; omega
  · intro i hi; simp [List.getElem?_eraseIdx, hi]
  · intro i hi; simp [List.getElem?_eraseIdx, Nat.not_lt.mpr hi]

omit [Flt F] in
/-- C45: an index that is not in the list is undefined behaviour. -/
theorem C45_delete_out_of_range (t : Target F) (idx : Nat) :
    t.deleteGaussian idx = .ub ↔ t.gaussians.length ≤ idx := by
  unfold Target.deleteGaussian
  split <;> simp <;> omega

omit [Flt F] in
/-- C45: deleting what was just added gives the target back. -/
theorem C45_add_delete (t : Target F) (g : Gaussian F) :
    (t.addGaussian g).deleteGaussian t.gaussians.length = .ok t := by
  simp [Target.addGaussian, Target.deleteGaussian, List.eraseIdx_append_of_length_le]

/-- C45: the value does not depend on the order of the Gaussians. -/
theorem C45_order (t t' : Target ℝ) (h : t.gaussians.Perm t'.gaussians) (p tr : V2 ℝ) :
    t.evaluate p tr = t'.evaluate p tr := by
  rw [evaluate_eq, evaluate_eq, (h.map _).sum_eq]

/-- C45: adding a Gaussian adds its value. -/
theorem C45_add_value (t : Target F) (g : Gaussian F) (p tr : V2 F) :
    (t.addGaussian g).evaluate p tr = t.evaluate p tr +. g.evalTrans p tr := by
  simp [Target.addGaussian, Target.evaluate, List.foldl_append]

/-- C45: deleting a Gaussian removes its value. -/
theorem C45_delete_value (t t' : Target ℝ) (idx : Nat) (g : Gaussian ℝ)
    (hg : t.gaussians[idx]? = some g) (h : t.deleteGaussian idx = .ok t') (p tr : V2 ℝ) :
    t'.evaluate p tr = t.evaluate p tr - g.evalTrans p tr := by
  have hi : idx < t.gaussians.length := by
    rw [List.getElem?_eq_some_iff] at hg; exact hg.1
  simp only [Target.deleteGaussian, hi, if_true, Res.ok.injEq] at h
  subst h
  rw [evaluate_eq, evaluate_eq]
  have hp : (g :: t.gaussians.eraseIdx idx).Perm t.gaussians := by
    rw [List.getElem?_eq_some_iff] at hg
    obtain ⟨hlt, he⟩ := hg
    rw [← he]
    exact List.getElem_cons_eraseIdx_perm hlt
  have := (hp.map fun g => g.evalTrans p tr).sum_eq
  rw [List.map_cons, List.sum_cons] at this
  linarith

example : (1 : Nat) < (⟨[mkGauss 1 2 1 1, mkGauss 0 0 2 1]⟩ : Target ℝ).gaussians.length := by simp

/-! ## C46 markers -/

/-- C46: one marker per Gaussian, in order, with its index as id, in the requested frame and
centred at its mean. -/
theorem C46_markers (t : Target F) (frame : String) :
    (t.markers frame).length = t.gaussians.length ∧
    ∀ (i : Nat) (g : Gaussian F), t.gaussians[i]? = some g →
      ∃ m, (t.markers frame)[i]? = some m ∧ m.id = i ∧ m.frame_id = frame ∧
        m.px = g.mu.c0 ∧ m.py = g.mu.c1 := by
  refine ⟨by simp [Target.markers], ?_⟩
  intro i g hg
  refine ⟨_, by rw [Target.markers, List.getElem?_mapIdx, hg, Option.map_some], rfl, rfl, rfl, rfl⟩

/-- C46: the ids are pairwise different. -/
theorem C46_ids (t : Target F) (frame : String) :
    ((t.markers frame).map Marker.id).Nodup := by
  have : (t.markers frame).map Marker.id = List.range t.gaussians.length := by
    apply List.ext_getElem
    · simp [Target.markers]
    · intro i h1 h2; simp [Target.markers]
  rw [this]; exact List.nodup_range

/-- Full statement about the extents: the marker reaches further along the axis with the larger
deviation. -/
def C46_statement : Prop :=
  ∀ (t : Target ℝ) (frame : String) (i : Nat) (mu s : V2 ℝ) (g : Gaussian ℝ),
    t.gaussians[i]? = some g → Gaussian.new mu s = .ok g →
    ∀ m, (t.markers frame)[i]? = some m → m.sx = 2 * (s.c0 * s.c0) ∧ m.sy = 2 * (s.c1 * s.c1)

theorem mkGauss_marker (t : Target ℝ) (frame : String) (i : Nat) (mu s : V2 ℝ) (g : Gaussian ℝ)
    (hg : t.gaussians[i]? = some g) (h : Gaussian.new mu s = .ok g) (m : Marker ℝ)
    (hm : (t.markers frame)[i]? = some m) :
    m.sx = 2 * min (s.c0 * s.c0) (s.c1 * s.c1) ∧ m.sy = 2 * max (s.c0 * s.c0) (s.c1 * s.c1) := by
  obtain ⟨h0, h1⟩ := (C43_constructor mu s).mp ⟨g, h⟩
  rw [gaussian_new mu s h0 h1, Res.ok.injEq] at h
  subst h
  simp only [Target.markers, List.getElem?_mapIdx, hg, Option.map_some, Option.some.injEq] at hm
  subst hm
  simp only [Target.eigSym, mkGauss, fmin, fmax, real_mul, real_lit, real_lt]
  constructor
  · split_ifs with hc
    · rw [min_eq_right hc.le]; norm_num
    · rw [min_eq_left (not_lt.mp hc)]; norm_num
  · split_ifs with hc
    · rw [max_eq_right hc.le]; norm_num
    · rw [max_eq_left (not_lt.mp hc)]; norm_num

/-- C46 when the deviation along x is not the larger one.  Missing: the other case, in which the
extents are exchanged. -/
theorem C46_extent_partial (t : Target ℝ) (frame : String) (i : Nat) (mu s : V2 ℝ)
    (g : Gaussian ℝ) (hg : t.gaussians[i]? = some g) (h : Gaussian.new mu s = .ok g)
    (hs : |s.c0| ≤ |s.c1|) :
    ∀ m, (t.markers frame)[i]? = some m → m.sx = 2 * (s.c0 * s.c0) ∧ m.sy = 2 * (s.c1 * s.c1) := by
  intro m hm
  obtain ⟨a, b⟩ := mkGauss_marker t frame i mu s g hg h m hm
  have : s.c0 * s.c0 ≤ s.c1 * s.c1 := by
    rw [← abs_mul_abs_self s.c0, ← abs_mul_abs_self s.c1]
    exact mul_self_le_mul_self (abs_nonneg _) hs
  rw [min_eq_left this] at a
  rw [max_eq_right this] at b
  exact ⟨a, b⟩

/-- C46: in the other case the two extents are exchanged. -/
theorem C46_refuted_swapped (t : Target ℝ) (frame : String) (i : Nat) (mu s : V2 ℝ)
    (g : Gaussian ℝ) (hg : t.gaussians[i]? = some g) (h : Gaussian.new mu s = .ok g)
    (hs : |s.c1| < |s.c0|) :
    ∀ m, (t.markers frame)[i]? = some m →
      m.sx = 2 * (s.c1 * s.c1) ∧ m.sy = 2 * (s.c0 * s.c0) ∧ m.sx < m.sy := by
  intro m hm
  obtain ⟨a, b⟩ := mkGauss_marker t frame i mu s g hg h m hm
  have : s.c1 * s.c1 < s.c0 * s.c0 := by
    rw [← abs_mul_abs_self s.c0, ← abs_mul_abs_self s.c1]
    exact mul_self_lt_mul_self (abs_nonneg _) hs
  rw [min_eq_right this.le] at a
  rw [max_eq_left this.le] at b
  exact ⟨a, b, by linarith⟩

/-- C46 is false. -/
theorem C46_refuted : ¬ C46_statement := by
  intro h
  have hg := gaussian_new ⟨0, 0⟩ ⟨2, 1⟩ two_ne_zero one_ne_zero
  have h1 := h (⟨[mkGauss 0 0 2 1]⟩ : Target ℝ) "map" 0 _ _ _ rfl hg _ rfl
  have h2 := C46_refuted_swapped ⟨[mkGauss 0 0 2 1]⟩ "map" 0 _ _ _ rfl hg (by norm_num) _ rfl
  linarith [h1.1, h1.2, h2.2.2]

end Ergodic
