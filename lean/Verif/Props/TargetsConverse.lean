import Verif.Props.Targets

/-!
# Property C113: which targets are the same distribution

Exact arithmetic.
-/

namespace Ergodic

theorem fill_pair (t : Target ℝ) (tr p q : V2 ℝ) : t.fill tr [p, q] =
    [t.evaluate p tr / (t.evaluate p tr + t.evaluate q tr), t.evaluate q tr / (t.evaluate p tr + t.evaluate q tr)] := by
  simp [Target.fill, fsum_real, real_div]

theorem evaluate_shift (t : Target ℝ) (p tr : V2 ℝ) :
    t.evaluate p tr = t.evaluate ⟨p.c0 + tr.c0, p.c1 + tr.c1⟩ ⟨0, 0⟩ := by
  rw [C45_evaluate_sum, C45_evaluate_sum]
  simp

/-- C113: proportional densities are the only ones that give the same values on every grid; grids of two points tell
all others apart. -/
theorem C113_fill_iff {t t' : Target ℝ} (ht : t.WellFormed) (ht' : t'.WellFormed) (hn : t.gaussians ≠ [])
    (hn' : t'.gaussians ≠ []) :
    Proportional t t' ↔ ∀ p q : V2 ℝ, t'.fill ⟨0, 0⟩ [p, q] = t.fill ⟨0, 0⟩ [p, q] := by
  refine ⟨fun h p q => C113_fill h _ _, fun h => ?_⟩
  have a := evaluate_pos t ht hn
  have a' := evaluate_pos t' ht' hn'
  refine ⟨t'.evaluate ⟨0, 0⟩ ⟨0, 0⟩ / t.evaluate ⟨0, 0⟩ ⟨0, 0⟩, (div_pos (a' _ _) (a _ _)).ne', fun p tr => ?_⟩
  rw [evaluate_shift t p tr, evaluate_shift t' p tr]
  generalize (⟨p.c0 + tr.c0, p.c1 + tr.c1⟩ : V2 ℝ) = x
  have e := h x ⟨0, 0⟩
  rw [fill_pair, fill_pair, List.cons.injEq] at e
  have e1 := e.1
  have b1 := a x ⟨0, 0⟩
  have b2 := a ⟨0, 0⟩ ⟨0, 0⟩
  have b3 := a' x ⟨0, 0⟩
  have b4 := a' ⟨0, 0⟩ ⟨0, 0⟩
  rw [div_eq_div_iff (by positivity) (by positivity)] at e1
  rw [div_mul_eq_mul_div, eq_div_iff b2.ne']
  linarith

/-- C113: listing only one of two targets with different means a second time changes the distribution. -/
theorem C113_weight {mu nu s r : V2 ℝ} {A B : Gaussian ℝ} (hA : Gaussian.new mu s = .ok A)
    (hB : Gaussian.new nu r = .ok B) (hne : mu ≠ nu) :
    ∃ p q : V2 ℝ, (⟨[A, A, B]⟩ : Target ℝ).fill ⟨0, 0⟩ [p, q] ≠ (⟨[A, B]⟩ : Target ℝ).fill ⟨0, 0⟩ [p, q] := by
  have w : (⟨[A, B]⟩ : Target ℝ).WellFormed := by
    intro g hg
    simp only [List.mem_cons, List.not_mem_nil, or_false] at hg
    rcases hg with rfl | rfl
    · exact ⟨_, _, hA⟩
    · exact ⟨_, _, hB⟩
  have w' : (⟨[A, A, B]⟩ : Target ℝ).WellFormed := by
    intro g hg
    refine w g ?_
    simpa using hg
  by_contra hc
  push Not at hc
  obtain ⟨k, -, h⟩ := (C113_fill_iff w w' (by simp) (by simp)).mpr hc
  have v : ∀ p : V2 ℝ, A.eval p + (A.eval p + B.eval p) = k * (A.eval p + B.eval p) := by
    intro p
    have := h p ⟨0, 0⟩
    rw [C45_evaluate_sum, C45_evaluate_sum] at this
    simpa using this
  have a1 := (C43_peak mu s A hA mu).mpr rfl
  have b1 := (C43_peak nu r B hB nu).mpr rfl
  have a2 : A.eval nu < 1 := lt_of_le_of_ne (C43_range mu s A hA nu).2 fun h => hne ((C43_peak mu s A hA nu).mp h).symm
  have b2 : B.eval mu < 1 := lt_of_le_of_ne (C43_range nu r B hB mu).2 fun h => hne ((C43_peak nu r B hB mu).mp h)
  have a3 := (C43_range mu s A hA nu).1
  have b3 := (C43_range nu r B hB mu).1
  have v1 := v mu
  have v2 := v nu
  rw [a1] at v1
  rw [b1] at v2
  have e1 : (k - 1) * (1 + B.eval mu) = 1 := by linarith
  have e2 : (k - 1) * (A.eval nu + 1) = A.eval nu := by linarith
  have k1 : 0 < k - 1 := by
    by_contra hk
    nlinarith
  nlinarith

/-- The hypotheses of `C113_fill_iff` and `C113_weight` are met. -/
example : ∃ A B : Gaussian ℝ, Gaussian.new ⟨1, 2⟩ ⟨1, 1⟩ = .ok A ∧ Gaussian.new ⟨3, 2⟩ ⟨0.5, 2⟩ = .ok B ∧
    (⟨[A, B]⟩ : Target ℝ).WellFormed ∧ (⟨[B, A]⟩ : Target ℝ).WellFormed ∧
    Proportional (⟨[A, B]⟩ : Target ℝ) ⟨[B, A]⟩ ∧ ¬ Proportional (⟨[A, B]⟩ : Target ℝ) ⟨[A, A, B]⟩ := by
  obtain ⟨A, hA⟩ := (C43_constructor ⟨1, 2⟩ ⟨1, 1⟩).mpr ⟨by norm_num, by norm_num⟩
  obtain ⟨B, hB⟩ := (C43_constructor ⟨3, 2⟩ ⟨0.5, 2⟩).mpr ⟨by norm_num, by norm_num⟩
  refine ⟨A, B, hA, hB, ?_, ?_, ⟨1, one_ne_zero, fun p tr => ?_⟩, fun h => ?_⟩
  · intro g hg
    simp only [List.mem_cons, List.not_mem_nil, or_false] at hg
    rcases hg with rfl | rfl
    · exact ⟨_, _, hA⟩
    · exact ⟨_, _, hB⟩
  · intro g hg
    simp only [List.mem_cons, List.not_mem_nil, or_false] at hg
    rcases hg with rfl | rfl
    · exact ⟨_, _, hB⟩
    · exact ⟨_, _, hA⟩
  · rw [one_mul]
    exact C45_order _ _ (List.Perm.swap _ _ _) p tr
  · obtain ⟨p, q, hpq⟩ := C113_weight hA hB (fun h => by simp at h)
    exact hpq (C113_fill h _ _)

end Ergodic
