import Verif.Props.ErgodicUpdate
import Verif.Spec.Images
import Mathlib.Analysis.SpecialFunctions.Integrals.Basic

/-!
# Property C107: what the ergodic metric can and cannot see
-/

namespace Ergodic
open Real

/-! ## Positions and their images -/

/-- Reflecting in the edge `0` is one reflection, and so is reflecting in the edge `L`. -/
example (L x : ℝ) : Mirrored L (-x) x ∧ Mirrored L (2 * L - x) x :=
  ⟨⟨0, by push_cast; ring⟩, ⟨1, by push_cast; ring⟩⟩

theorem image_cases {L x y : ℝ} : Image L x y ↔ Shifted L x y ∨ Mirrored L x y := by
  constructor
  · rintro ⟨m, h | h⟩
    · exact Or.inl ⟨m, h⟩
    · exact Or.inr ⟨m, h⟩
  · rintro (⟨m, h⟩ | ⟨m, h⟩)
    · exact ⟨m, Or.inl h⟩
    · exact ⟨m, Or.inr h⟩

theorem cos_shifted {L x y : ℝ} (hL : L ≠ 0) (k : ℕ) (h : Shifted L x y) :
    cos (k * π * x / L) = cos (k * π * y / L) ∧ sin (k * π * x / L) = sin (k * π * y / L) := by
  obtain ⟨m, rfl⟩ := h
  have e : (k : ℝ) * π * (2 * m * L + y) / L = k * π * y / L + ((k * m : ℤ) : ℝ) * (2 * π) := by
    push_cast
    field_simp
    ring
  rw [e]
  exact ⟨Real.cos_add_int_mul_two_pi _ _, Real.sin_add_int_mul_two_pi _ _⟩

theorem cos_mirrored {L x y : ℝ} (hL : L ≠ 0) (k : ℕ) (h : Mirrored L x y) :
    cos (k * π * x / L) = cos (k * π * y / L) ∧ sin (k * π * x / L) = - sin (k * π * y / L) := by
  obtain ⟨m, rfl⟩ := h
  have := cos_shifted (x := 2 * m * L + -y) (y := -y) hL k ⟨m, rfl⟩
  rw [sub_eq_add_neg, this.1, this.2, show (k : ℝ) * π * -y / L = -(k * π * y / L) by ring, cos_neg, sin_neg]
  exact ⟨rfl, rfl⟩

theorem cos_image {L x y : ℝ} (hL : L ≠ 0) (k : ℕ) (h : Image L x y) :
    cos (k * π * x / L) = cos (k * π * y / L) := by
  rcases image_cases.mp h with h | h
  · exact (cos_shifted hL k h).1
  · exact (cos_mirrored hL k h).1

/-- Every coordinate has an image in the interval. -/
theorem image_inside {L : ℝ} (hL : 0 < L) (x : ℝ) : ∃ y, Image L x y ∧ 0 ≤ y ∧ y ≤ L := by
  have h2 : 0 < 2 * L := by linarith
  set m := ⌊x / (2 * L)⌋ with hm
  have h1 : (m : ℝ) * (2 * L) ≤ x := by
    rw [← le_div_iff₀ h2]; exact Int.floor_le _
  have h3 : x < (m + 1) * (2 * L) := by
    rw [← div_lt_iff₀ h2]; exact Int.lt_floor_add_one _
  by_cases hc : x - m * (2 * L) ≤ L
  · exact ⟨x - m * (2 * L), ⟨m, Or.inl (by ring)⟩, by linarith, hc⟩
  · exact ⟨(m + 1) * (2 * L) - x, ⟨m + 1, Or.inr (by push_cast; ring)⟩, by linarith, by linarith⟩

theorem mem_numbers {n : Nat} {k : Int × Int} (h : k ∈ Basis.numbers n) :
    ∃ i j : Nat, i < n ∧ j < n ∧ k = ((j : Int), (i : Int)) := by
  simp only [Basis.numbers, List.mem_flatMap, List.mem_map, List.mem_range] at h
  obtain ⟨i, hi, j, hj, rfl⟩ := h
  exact ⟨i, j, hi, hj, rfl⟩

/-- C107: positions that are images of each other have the same basis values. -/
theorem C107_images (lx ly : ℝ) (n : Nat) (hx : lx ≠ 0) (hy : ly ≠ 0) (p q : V2 ℝ)
    (h0 : Image lx p.c0 q.c0) (h1 : Image ly p.c1 q.c1) :
    (Basis.new lx ly n).fourierBasis p = (Basis.new lx ly n).fourierBasis q := by
  unfold Basis.fourierBasis
  apply List.map_congr_left
  intro k hk
  obtain ⟨i, j, -, -, rfl⟩ := mem_numbers hk
  rw [fk_eq, fk_eq]
  show cos (j * π * p.c0 / lx) * cos (i * π * p.c1 / ly) = cos (j * π * q.c0 / lx) * cos (i * π * q.c1 / ly)
  rw [cos_image hx j h0, cos_image hy i h1]

theorem abs_image_of_cos_eq {L x y : ℝ} (hL : 0 < L) (h : cos (π * x / L) = cos (π * y / L)) :
    Image L x y := by
  rw [Real.cos_eq_cos_iff] at h
  obtain ⟨m, h | h⟩ := h
  · refine ⟨-m, Or.inl ?_⟩
    field_simp at h
    push_cast
    linarith
  · refine ⟨m, Or.inr ?_⟩
    field_simp at h
    linarith

/-- C107: with two or more basis functions per axis, positions have the same basis values exactly when
they are images of each other. -/
theorem C107_same_iff (lx ly : ℝ) (n : Nat) (hx : 0 < lx) (hy : 0 < ly) (hn : 2 ≤ n) (p q : V2 ℝ) :
    (Basis.new lx ly n).fourierBasis p = (Basis.new lx ly n).fourierBasis q ↔
      Image lx p.c0 q.c0 ∧ Image ly p.c1 q.c1 := by
  constructor
  · intro h
    have a : ∀ i j : Nat, i < n → j < n → cosBasis lx ly j i p.c0 p.c1 = cosBasis lx ly j i q.c0 q.c1 := by
      intro i j hi hj
      have h1 := C40_values lx ly n i j hi hj p
      rw [h, C40_values lx ly n i j hi hj q, Option.some.injEq] at h1
      exact h1.symm
    have a1 := a 0 1 (by omega) (by omega)
    have a2 := a 1 0 (by omega) (by omega)
    simp only [cosBasis, Nat.cast_zero, Nat.cast_one, zero_mul, zero_div, cos_zero, one_mul, mul_one] at a1 a2
    exact ⟨abs_image_of_cos_eq hx a1, abs_image_of_cos_eq hy a2⟩
  · rintro ⟨h0, h1⟩
    exact C107_images lx ly n hx.ne' hy.ne' p q h0 h1

/-- C107: inside the map positions are told apart by their basis values. -/
theorem C107_inside (lx ly : ℝ) (n : Nat) (hx : 0 < lx) (hy : 0 < ly) (hn : 2 ≤ n) (p q : V2 ℝ)
    (p0 : 0 ≤ p.c0) (p0' : p.c0 ≤ lx) (p1 : 0 ≤ p.c1) (p1' : p.c1 ≤ ly)
    (q0 : 0 ≤ q.c0) (q0' : q.c0 ≤ lx) (q1 : 0 ≤ q.c1) (q1' : q.c1 ≤ ly)
    (h : (Basis.new lx ly n).fourierBasis p = (Basis.new lx ly n).fourierBasis q) : p = q := by
  obtain ⟨h0, h1⟩ := (C107_same_iff lx ly n hx hy hn p q).mp h
  have key : ∀ {L x y : ℝ}, 0 < L → 0 ≤ x → x ≤ L → 0 ≤ y → y ≤ L → Image L x y → x = y := by
    intro L x y hL x0 x1 y0 y1 hi
    have hc := cos_image hL.ne' 1 hi
    have hp := Real.pi_pos
    have inj := Real.injOn_cos (x₁ := (1 : ℕ) * π * x / L) (x₂ := (1 : ℕ) * π * y / L)
      ⟨by positivity, by rw [div_le_iff₀ hL]; push_cast; nlinarith⟩
      ⟨by positivity, by rw [div_le_iff₀ hL]; push_cast; nlinarith⟩ hc
    push_cast at inj
    field_simp at inj
    exact inj
  ext
  · exact key hx p0 p0' q0 q0' h0
  · exact key hy p1 p1' q1 q1' h1

example : (⟨-1, 3⟩ : V2 ℝ) ≠ ⟨1, 3⟩ ∧
    (Basis.new 4 5 10).fourierBasis (⟨-1, 3⟩ : V2 ℝ) = (Basis.new 4 5 10).fourierBasis ⟨1, 3⟩ := by
  refine ⟨fun h => by have := congrArg V2.c0 h; norm_num at this, ?_⟩
  exact C107_images _ _ _ (by norm_num) (by norm_num) _ _ ⟨0, Or.inr (by norm_num)⟩ ⟨0, Or.inl (by norm_num)⟩

/-- A basis of one function per axis cannot tell any positions apart. -/
theorem C107_one (lx ly : ℝ) (p q : V2 ℝ) :
    (Basis.new lx ly 1).fourierBasis p = (Basis.new lx ly 1).fourierBasis q := by
  unfold Basis.fourierBasis
  apply List.map_congr_left
  intro k hk
  obtain ⟨i, j, hi, hj, rfl⟩ := mem_numbers hk
  have h1 : i = 0 := by omega
  have h2 : j = 0 := by omega
  subst h1 h2
  rw [fk_eq, fk_eq]
  simp [cosBasis]

/-! ## Trajectories -/

/-- Two samples at images of each other; headings do not matter. -/
def SampleImage (lx ly : ℝ) (p q : V3 ℝ) : Prop := Image lx p.c0 q.c0 ∧ Image ly p.c1 q.c1

/-- C107: a trajectory and its sample-by-sample image have the same coefficients. -/
theorem C107_coefficients (lx ly : ℝ) (n : Nat) (hx : lx ≠ 0) (hy : ly ≠ 0) (ps qs : List (V3 ℝ))
    (h : List.Forall₂ (SampleImage lx ly) ps qs) :
    (Basis.new lx ly n).trajCoeff ps = (Basis.new lx ly n).trajCoeff qs := by
  unfold Basis.trajCoeff
  apply List.map_congr_left
  intro k hk
  obtain ⟨i, j, -, -, rfl⟩ := mem_numbers hk
  have e : (ps.map fun x => (Basis.new lx ly n).fk x.xy ((j : Int), (i : Int))) =
      qs.map fun x => (Basis.new lx ly n).fk x.xy ((j : Int), (i : Int)) := by
    induction h with
    | nil => rfl
    | cons hpq _ ih =>
      rw [List.map_cons, List.map_cons, ih, fk_eq, fk_eq]
      congr 1
      simp only [cosBasis, Basis.new, V3.xy]
      rw [cos_image hx j hpq.1, cos_image hy i hpq.2]
  rw [e, h.length_eq]

/-- C107: for every trajectory, however far outside the map, there is one inside the map with the same
coefficients and the same distance from every target; the headings agree. -/
theorem C107_outside (lx ly : ℝ) (n : Nat) (hx : 0 < lx) (hy : 0 < ly) (ps : List (V3 ℝ)) :
    ∃ qs : List (V3 ℝ), qs.length = ps.length ∧ qs.map V3.c2 = ps.map V3.c2 ∧
      (∀ q ∈ qs, 0 ≤ q.c0 ∧ q.c0 ≤ lx ∧ 0 ≤ q.c1 ∧ q.c1 ≤ ly) ∧
      (Basis.new lx ly n).trajCoeff ps = (Basis.new lx ly n).trajCoeff qs ∧
      ∀ phi, ergodicMetric lx ly n phi ps = ergodicMetric lx ly n phi qs := by
  have hex : ∃ qs : List (V3 ℝ), List.Forall₂ (SampleImage lx ly) ps qs ∧ qs.map V3.c2 = ps.map V3.c2 ∧
      ∀ q ∈ qs, 0 ≤ q.c0 ∧ q.c0 ≤ lx ∧ 0 ≤ q.c1 ∧ q.c1 ≤ ly := by
    induction ps with
    | nil => exact ⟨[], List.Forall₂.nil, rfl, by simp⟩
    | cons p ps ih =>
      obtain ⟨qs, h, ht, hi⟩ := ih
      obtain ⟨a, ha, a0, a1⟩ := image_inside hx p.c0
      obtain ⟨b, hb, b0, b1⟩ := image_inside hy p.c1
      refine ⟨⟨a, b, p.c2⟩ :: qs, List.Forall₂.cons ⟨ha, hb⟩ h, by simp [ht], ?_⟩
      intro q hq
      rcases List.mem_cons.mp hq with rfl | hq
      · exact ⟨a0, a1, b0, b1⟩
      · exact hi q hq
  obtain ⟨qs, h, ht, hi⟩ := hex
  refine ⟨qs, h.length_eq.symm, ht, hi, C107_coefficients lx ly n hx.ne' hy.ne' ps qs h, fun phi => ?_⟩
  unfold ergodicMetric
  apply Finset.sum_congr rfl
  intro c _
  have e : (ps.map fun p => cosBasis lx ly (c % n) (c / n) p.c0 p.c1) =
      qs.map fun p => cosBasis lx ly (c % n) (c / n) p.c0 p.c1 := by
    clear hi ht
    induction h with
    | nil => rfl
    | cons hpq _ ih =>
      rw [List.map_cons, List.map_cons, ih]
      congr 1
      unfold cosBasis
      rw [cos_image hx.ne' _ hpq.1, cos_image hy.ne' _ hpq.2]
  rw [e, h.length_eq]

/-! ## The gradient -/

theorem dfk_eq (lx ly : ℝ) (n : Nat) (x : V2 ℝ) (j i : Nat) :
    (Basis.new lx ly n).dfk x ((j : Int), (i : Int)) =
      ⟨-(j * π / lx) * sin (j * π * x.c0 / lx) * cos (i * π * x.c1 / ly),
       -(i * π / ly) * cos (j * π * x.c0 / lx) * sin (i * π * x.c1 / ly)⟩ := by
  have e1 : (j : ℝ) * (π / lx) * x.c0 = j * π * x.c0 / lx := by ring
  have e2 : (i : ℝ) * (π / ly) * x.c1 = i * π * x.c1 / ly := by ring
  ext <;> simp only [Basis.dfk, Basis.new, real_mul, real_cos, real_sin, real_neg, real_ofInt, real_div,
    real_pi] <;> push_cast <;> rw [e1, e2] <;> ring

theorem zipWith_neg {α : Type} (f g : α → ℝ) : ∀ (l : List α) (w : List ℝ), (∀ a ∈ l, f a = - g a) →
    (List.zipWith (fun a w => f a * w) l w).sum = - (List.zipWith (fun a w => g a * w) l w).sum
  | [], _, _ => by simp
  | _ :: _, [], _ => by simp
  | a :: l, w :: ws, h => by
    rw [List.zipWith_cons_cons, List.zipWith_cons_cons, List.sum_cons, List.sum_cons,
      zipWith_neg f g l ws (fun b hb => h b (List.mem_cons_of_mem _ hb)), h a (List.mem_cons_self ..)]
    ring

theorem zipWith_same {α : Type} (f g : α → ℝ) : ∀ (l : List α) (w : List ℝ), (∀ a ∈ l, f a = g a) →
    (List.zipWith (fun a w => f a * w) l w).sum = (List.zipWith (fun a w => g a * w) l w).sum
  | [], _, _ => by simp
  | _ :: _, [], _ => by simp
  | a :: l, w :: ws, h => by
    rw [List.zipWith_cons_cons, List.zipWith_cons_cons, List.sum_cons, List.sum_cons,
      zipWith_same f g l ws (fun b hb => h b (List.mem_cons_of_mem _ hb)), h a (List.mem_cons_self ..)]

/-- The gradient of the metric at one position, as computed for one sample of a trajectory. -/
theorem gradErgodicMetric_at (e : ErgodicControl ℝ) (ck : List ℝ) (x : V3 ℝ) :
    ∃ w : List ℝ, e.gradErgodicMetric ck [x] =
        [⟨(List.zipWith (fun k w => (e.basis.dfk x.xy k).c0 * w) e.basis.k w).sum * e.expl_weight,
          (List.zipWith (fun k w => (e.basis.dfk x.xy k).c1 * w) e.basis.k w).sum * e.expl_weight, 0⟩] ∧
      ∀ xs : List (V3 ℝ), e.gradErgodicMetric ck xs = xs.map fun x =>
        ⟨(List.zipWith (fun k w => (e.basis.dfk x.xy k).c0 * w) e.basis.k w).sum * e.expl_weight,
          (List.zipWith (fun k w => (e.basis.dfk x.xy k).c1 * w) e.basis.k w).sum * e.expl_weight, 0⟩ := by
  refine ⟨List.zipWith (fun l d => l *. d) e.basis.lamdak (List.zipWith (fun c p => c -. p) ck e.phik), ?_, ?_⟩
  all_goals
    intros
    simp [ErgodicControl.gradErgodicMetric, ErgodicControl.gradTimes, Basis.gradFourierBasis, fsum_real,
      List.zipWith_map_left]

/-- `d` is the gradient seen at the image: components along axes with an odd number of reflections are
reversed. -/
def GradImage (lx ly : ℝ) (p q d d' : V3 ℝ) : Prop :=
  (Shifted lx p.c0 q.c0 → Image ly p.c1 q.c1 → d.c0 = d'.c0) ∧
  (Mirrored lx p.c0 q.c0 → Image ly p.c1 q.c1 → d.c0 = - d'.c0) ∧
  (Shifted ly p.c1 q.c1 → Image lx p.c0 q.c0 → d.c1 = d'.c1) ∧
  (Mirrored ly p.c1 q.c1 → Image lx p.c0 q.c0 → d.c1 = - d'.c1) ∧ d.c2 = 0

/-- C107: the gradient of the metric at a position outside the map is that at its image, reversed along
the axes on which an odd number of reflections lead back: it pulls the robot as its image is pulled, seen
in a mirror. -/
theorem C107_gradient (e : ErgodicControl ℝ) (lx ly : ℝ) (n : Nat) (hb : e.basis = Basis.new lx ly n)
    (hx : lx ≠ 0) (hy : ly ≠ 0) (ck : List ℝ) (p q : V3 ℝ) :
    ∃ d d', e.gradErgodicMetric ck [p] = [d] ∧ e.gradErgodicMetric ck [q] = [d'] ∧
      GradImage lx ly p q d d' := by
  obtain ⟨w, -, hw⟩ := gradErgodicMetric_at e ck p
  refine ⟨_, _, by rw [hw]; rfl, by rw [hw]; rfl, ?_⟩
  rw [hb]
  refine ⟨fun h0 h1 => ?_, fun h0 h1 => ?_, fun h0 h1 => ?_, fun h0 h1 => ?_, rfl⟩ <;> dsimp only
  · congr 1
    refine zipWith_same _ _ _ _ fun k hk => ?_
    obtain ⟨i, j, -, -, rfl⟩ := mem_numbers hk
    rw [dfk_eq, dfk_eq]
    simp only [V3.xy]
    rw [(cos_shifted hx j h0).2, cos_image hy i h1]
  · rw [← neg_mul]
    congr 1
    refine zipWith_neg _ _ _ _ fun k hk => ?_
    obtain ⟨i, j, -, -, rfl⟩ := mem_numbers hk
    rw [dfk_eq, dfk_eq]
    simp only [V3.xy]
    rw [(cos_mirrored hx j h0).2, cos_image hy i h1]
    ring
  · congr 1
    refine zipWith_same _ _ _ _ fun k hk => ?_
    obtain ⟨i, j, -, -, rfl⟩ := mem_numbers hk
    rw [dfk_eq, dfk_eq]
    simp only [V3.xy]
    rw [(cos_shifted hy i h0).2, cos_image hx j h1]
  · rw [← neg_mul]
    congr 1
    refine zipWith_neg _ _ _ _ fun k hk => ?_
    obtain ⟨i, j, -, -, rfl⟩ := mem_numbers hk
    rw [dfk_eq, dfk_eq]
    simp only [V3.xy]
    rw [(cos_mirrored hy i h0).2, cos_image hx j h1]
    ring

/-- C107: at the edges of the map the gradient has no component across the edge, whatever the target and
the trajectory; only the barrier keeps the robot inside. -/
theorem C107_edge (e : ErgodicControl ℝ) (lx ly : ℝ) (n : Nat) (hb : e.basis = Basis.new lx ly n)
    (hx : lx ≠ 0) (hy : ly ≠ 0) (ck : List ℝ) (p : V3 ℝ) :
    ∃ d, e.gradErgodicMetric ck [p] = [d] ∧ (p.c0 = 0 ∨ p.c0 = lx → d.c0 = 0) ∧
      (p.c1 = 0 ∨ p.c1 = ly → d.c1 = 0) := by
  obtain ⟨d, d', h1, h2, -, g1, -, g2, -⟩ := C107_gradient e lx ly n hb hx hy ck p p
  have hd : d = d' := by
    rw [h1] at h2
    exact (List.cons.inj h2).1
  subst hd
  have im : ∀ L x : ℝ, Image L x x := fun L x => ⟨0, Or.inl (by push_cast; ring)⟩
  have mi : ∀ L x : ℝ, x = 0 ∨ x = L → Mirrored L x x := by
    rintro L x (rfl | rfl)
    · exact ⟨0, by push_cast; ring⟩
    · exact ⟨1, by push_cast; ring⟩
  refine ⟨d, h1, fun h => ?_, fun h => ?_⟩
  · have := g1 (mi _ _ h) (im _ _)
    linarith
  · have := g2 (mi _ _ h) (im _ _)
    linarith

/-! ## Orthogonality -/

/-- The integral of the product of two cosines with whole numbers of half waves. -/
theorem integral_cos_cos {L : ℝ} (hL : 0 < L) (a b : ℕ) :
    ∫ x in (0:ℝ)..L, cos (a * π * x / L) * cos (b * π * x / L) =
      if a = b then (if a = 0 then L else L / 2) else 0 := by
  have hp := Real.pi_pos
  have single : ∀ c : ℤ, ∫ x in (0:ℝ)..L, cos ((c * π / L) * x) = if c = 0 then L else 0 := by
    intro c
    split_ifs with hc
    · simp [hc]
    · have hne : (c : ℝ) * π / L ≠ 0 := by
        have : (c : ℝ) ≠ 0 := by exact_mod_cast hc
        positivity
      rw [intervalIntegral.integral_comp_mul_left (fun x => cos x) hne, integral_cos]
      rw [show (c : ℝ) * π / L * L = c * π by field_simp, Real.sin_int_mul_pi]
      simp
  have e : ∀ x : ℝ, cos (a * π * x / L) * cos (b * π * x / L) =
      (1 / 2) * cos ((((a : ℤ) - b : ℤ) : ℝ) * π / L * x) + (1 / 2) * cos ((((a : ℤ) + b : ℤ) : ℝ) * π / L * x) := by
    intro x
    have h1 : (((a : ℤ) - b : ℤ) : ℝ) * π / L * x = a * π * x / L - b * π * x / L := by push_cast; ring
    have h2 : (((a : ℤ) + b : ℤ) : ℝ) * π / L * x = a * π * x / L + b * π * x / L := by push_cast; ring
    rw [h1, h2, cos_sub, cos_add]
    ring
  simp only [e]
  have ci : ∀ c : ℝ, IntervalIntegrable (fun x => (1 / 2 : ℝ) * cos (c * x)) MeasureTheory.volume 0 L := fun c =>
    (by fun_prop : Continuous fun x => (1 / 2 : ℝ) * cos (c * x)).intervalIntegrable _ _
  rw [intervalIntegral.integral_add (ci _) (ci _), intervalIntegral.integral_const_mul,
    intervalIntegral.integral_const_mul, single, single]
  by_cases hab : a = b
  · subst hab
    by_cases h0 : a = 0
    · subst h0; simp; ring
    · have : (a : ℤ) + a ≠ 0 := by omega
      simp [h0]; ring
  · have h1 : (a : ℤ) - b ≠ 0 := by omega
    have h2 : (a : ℤ) + b ≠ 0 := by omega
    simp [h1, h2, hab]

/-- C107: over the map the basis functions are orthogonal; their mean squares are 1, 1/2 and 1/4 for no,
one and two non-zero frequencies: they are not scaled to unit norm, so that low frequencies count up to
four times more than the weights say. -/
theorem C107_orthogonal (lx ly : ℝ) (n i j i' j' : Nat) (hx : 0 < lx) (hy : 0 < ly) (hi : i < n) (hj : j < n)
    (hi' : i' < n) (hj' : j' < n) :
    ∃ f g : ℝ → ℝ → ℝ,
      (∀ x y, ((Basis.new lx ly n).fourierBasis ⟨x, y⟩)[i * n + j]? = some (f x y)) ∧
      (∀ x y, ((Basis.new lx ly n).fourierBasis ⟨x, y⟩)[i' * n + j']? = some (g x y)) ∧
      ∫ x in (0:ℝ)..lx, ∫ y in (0:ℝ)..ly, f x y * g x y =
        if (i, j) = (i', j') then lx * ly * ((if j = 0 then 1 else 1 / 2) * (if i = 0 then 1 else 1 / 2)) else 0 := by
  refine ⟨cosBasis lx ly j i, cosBasis lx ly j' i', fun x y => C40_values lx ly n i j hi hj ⟨x, y⟩,
    fun x y => C40_values lx ly n i' j' hi' hj' ⟨x, y⟩, ?_⟩
  have e : ∀ x y : ℝ, cosBasis lx ly j i x y * cosBasis lx ly j' i' x y =
      (cos (j * π * x / lx) * cos (j' * π * x / lx)) * (cos (i * π * y / ly) * cos (i' * π * y / ly)) := by
    intro x y; unfold cosBasis; ring
  simp only [e, intervalIntegral.integral_const_mul, intervalIntegral.integral_mul_const, integral_cos_cos hx,
    integral_cos_cos hy, Prod.mk.injEq]
  by_cases h1 : i = i' <;> by_cases h2 : j = j' <;> simp [h1, h2]
  split_ifs <;> ring

end Ergodic
