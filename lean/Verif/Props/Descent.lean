import Verif.Spec.Objective
import Verif.Props.ErgodicUpdate
import Mathlib.Analysis.Calculus.ParametricIntervalIntegral
import Mathlib.MeasureTheory.Integral.IntervalIntegral.FundThmCalculus
import Mathlib.MeasureTheory.Integral.DominatedConvergence

/-!
# Property C95: the planned control change reduces the objective
-/

namespace Ergodic
open Finset Function

/-! ## differentiating under the integral -/

theorem leibniz (f f' : ℝ → ℝ → ℝ) (hf : Continuous (uncurry f)) (hf' : Continuous (uncurry f'))
    (hd : ∀ ε t, HasDerivAt (fun ε => f ε t) (f' ε t) ε) (b ε : ℝ) :
    HasDerivAt (fun ε => ∫ t in (0:ℝ)..b, f ε t) (∫ t in (0:ℝ)..b, f' ε t) ε := by
  have hc : IsCompact (Set.Icc (ε - 1) (ε + 1) ×ˢ Set.uIcc (0:ℝ) b) :=
    isCompact_Icc.prod isCompact_uIcc
  obtain ⟨C, hC⟩ := hc.exists_bound_of_continuousOn hf'.continuousOn
  have hfs : ∀ ε, Continuous (f ε) := fun ε => hf.comp (by fun_prop : Continuous fun t : ℝ => (ε, t))
  have hfs' : ∀ ε, Continuous (f' ε) := fun ε => hf'.comp (by fun_prop : Continuous fun t : ℝ => (ε, t))
  refine (intervalIntegral.hasDerivAt_integral_of_dominated_loc_of_deriv_le
    (s := Set.Icc (ε - 1) (ε + 1)) (bound := fun _ => C) (F := f) (F' := f')
    (Icc_mem_nhds (by linarith) (by linarith)) ?_ ?_ ?_ ?_ ?_ ?_).2
  · exact Filter.Eventually.of_forall fun x => (hfs x).aestronglyMeasurable
  · exact (hfs ε).intervalIntegrable _ _
  · exact (hfs' ε).aestronglyMeasurable
  · refine Filter.Eventually.of_forall fun t ht x hx => ?_
    exact hC (x, t) ⟨hx, Set.uIoc_subset_uIcc ht⟩
  · exact intervalIntegrable_const
  · exact Filter.Eventually.of_forall fun t _ x _ => hd x t

/-! ## the motion of a nudged plan -/

section nudged
variable {x0 : V3 ℝ} {u v : ℝ → V3 ℝ}

/-- derivative of the heading with respect to the nudge -/
noncomputable def turned (v : ℝ → V3 ℝ) (t : ℝ) : ℝ := ∫ s in (0:ℝ)..t, (v s).c2

theorem continuous_primitive {f : ℝ → ℝ} (hf : Continuous f) :
    Continuous fun t => ∫ s in (0:ℝ)..t, f s :=
  intervalIntegral.continuous_primitive (fun a b => hf.intervalIntegrable a b) 0

theorem heading_nudge (hu : Steady u) (hv : Steady v) (ε t : ℝ) :
    headingAt x0 (nudge u v ε) t = headingAt x0 u t + ε * turned v t := by
  simp only [headingAt, nudge, turned]
  rw [intervalIntegral.integral_add (hu.2.2.intervalIntegrable _ _)
    ((hv.2.2.const_mul ε).intervalIntegrable _ _), intervalIntegral.integral_const_mul]
  ring

theorem continuous_heading (hu : Steady u) : Continuous (headingAt x0 u) :=
  continuous_const.add (continuous_primitive hu.2.2)

theorem continuous_turned (hv : Steady v) : Continuous (turned v) := continuous_primitive hv.2.2

/-- the integrand of the first coordinate of the nudged motion -/
noncomputable def vx (x0 : V3 ℝ) (u v : ℝ → V3 ℝ) (ε s : ℝ) : ℝ :=
  ((u s).c0 + ε * (v s).c0) * Real.cos (headingAt x0 u s + ε * turned v s) -
    ((u s).c1 + ε * (v s).c1) * Real.sin (headingAt x0 u s + ε * turned v s)

noncomputable def vy (x0 : V3 ℝ) (u v : ℝ → V3 ℝ) (ε s : ℝ) : ℝ :=
  ((u s).c0 + ε * (v s).c0) * Real.sin (headingAt x0 u s + ε * turned v s) +
    ((u s).c1 + ε * (v s).c1) * Real.cos (headingAt x0 u s + ε * turned v s)

/-- its derivative with respect to the nudge -/
noncomputable def dvx (x0 : V3 ℝ) (u v : ℝ → V3 ℝ) (ε s : ℝ) : ℝ :=
  (v s).c0 * Real.cos (headingAt x0 u s + ε * turned v s) -
    (v s).c1 * Real.sin (headingAt x0 u s + ε * turned v s) - vy x0 u v ε s * turned v s

noncomputable def dvy (x0 : V3 ℝ) (u v : ℝ → V3 ℝ) (ε s : ℝ) : ℝ :=
  (v s).c0 * Real.sin (headingAt x0 u s + ε * turned v s) +
    (v s).c1 * Real.cos (headingAt x0 u s + ε * turned v s) + vx x0 u v ε s * turned v s

theorem continuous_nudged_heading (hu : Steady u) (hv : Steady v) :
    Continuous fun p : ℝ × ℝ => headingAt x0 u p.2 + p.1 * turned v p.2 := by
  have h1 := continuous_heading (x0 := x0) hu
  have h2 := continuous_turned hv
  fun_prop

theorem continuous_vx (hu : Steady u) (hv : Steady v) : Continuous (uncurry (vx x0 u v)) := by
  have h := continuous_nudged_heading (x0 := x0) hu hv
  exact (((hu.1.comp continuous_snd).add (continuous_fst.mul (hv.1.comp continuous_snd))).mul
    (Real.continuous_cos.comp h)).sub (((hu.2.1.comp continuous_snd).add
      (continuous_fst.mul (hv.2.1.comp continuous_snd))).mul (Real.continuous_sin.comp h))

theorem continuous_vy (hu : Steady u) (hv : Steady v) : Continuous (uncurry (vy x0 u v)) := by
  have h := continuous_nudged_heading (x0 := x0) hu hv
  exact (((hu.1.comp continuous_snd).add (continuous_fst.mul (hv.1.comp continuous_snd))).mul
    (Real.continuous_sin.comp h)).add (((hu.2.1.comp continuous_snd).add
      (continuous_fst.mul (hv.2.1.comp continuous_snd))).mul (Real.continuous_cos.comp h))

theorem continuous_dvx (hu : Steady u) (hv : Steady v) : Continuous (uncurry (dvx x0 u v)) := by
  have h := continuous_nudged_heading (x0 := x0) hu hv
  exact (((hv.1.comp continuous_snd).mul (Real.continuous_cos.comp h)).sub
    ((hv.2.1.comp continuous_snd).mul (Real.continuous_sin.comp h))).sub
      ((continuous_vy hu hv).mul ((continuous_turned hv).comp continuous_snd))

theorem continuous_dvy (hu : Steady u) (hv : Steady v) : Continuous (uncurry (dvy x0 u v)) := by
  have h := continuous_nudged_heading (x0 := x0) hu hv
  exact (((hv.1.comp continuous_snd).mul (Real.continuous_sin.comp h)).add
    ((hv.2.1.comp continuous_snd).mul (Real.continuous_cos.comp h))).add
      ((continuous_vx hu hv).mul ((continuous_turned hv).comp continuous_snd))

theorem vx_deriv (ε s : ℝ) : HasDerivAt (fun ε => vx x0 u v ε s) (dvx x0 u v ε s) ε := by
  have hl : ∀ a b : ℝ, HasDerivAt (fun ε : ℝ => a + ε * b) b ε := by
    intro a b
    have := ((hasDerivAt_id ε).mul_const b).const_add a
    refine this.congr_deriv (by ring)
  have h := ((hl (u s).c0 (v s).c0).mul (hl (headingAt x0 u s) (turned v s)).cos).sub
    ((hl (u s).c1 (v s).c1).mul (hl (headingAt x0 u s) (turned v s)).sin)
  refine h.congr_deriv ?_
  simp only [dvx, vy]; ring

theorem vy_deriv (ε s : ℝ) : HasDerivAt (fun ε => vy x0 u v ε s) (dvy x0 u v ε s) ε := by
  have hl : ∀ a b : ℝ, HasDerivAt (fun ε : ℝ => a + ε * b) b ε := by
    intro a b
    have := ((hasDerivAt_id ε).mul_const b).const_add a
    refine this.congr_deriv (by ring)
  have h := ((hl (u s).c0 (v s).c0).mul (hl (headingAt x0 u s) (turned v s)).sin).add
    ((hl (u s).c1 (v s).c1).mul (hl (headingAt x0 u s) (turned v s)).cos)
  refine h.congr_deriv ?_
  simp only [dvy, vx]; ring

/-- the nudged motion -/
theorem motion_nudge (hu : Steady u) (hv : Steady v) (ε t : ℝ) : motion x0 (nudge u v ε) t =
    ⟨x0.c0 + ∫ s in (0:ℝ)..t, vx x0 u v ε s, x0.c1 + ∫ s in (0:ℝ)..t, vy x0 u v ε s,
      headingAt x0 u t + ε * turned v t⟩ := by
  simp only [motion, heading_nudge hu hv, nudge, vx, vy]

/-- derivative of the first coordinate of the nudged motion with respect to the nudge -/
noncomputable def sx (x0 : V3 ℝ) (u v : ℝ → V3 ℝ) (ε t : ℝ) : ℝ := ∫ s in (0:ℝ)..t, dvx x0 u v ε s

noncomputable def sy (x0 : V3 ℝ) (u v : ℝ → V3 ℝ) (ε t : ℝ) : ℝ := ∫ s in (0:ℝ)..t, dvy x0 u v ε s

theorem continuous_parametric {f : ℝ → ℝ → ℝ} (hf : Continuous (uncurry f)) :
    Continuous fun p : ℝ × ℝ => ∫ s in (0:ℝ)..p.2, f p.1 s :=
  intervalIntegral.continuous_parametric_intervalIntegral_of_continuous
    (f := fun (p : ℝ × ℝ) s => f p.1 s)
    (hf.comp (by fun_prop : Continuous fun q : (ℝ × ℝ) × ℝ => (q.1.1, q.2))) continuous_snd

theorem motion_deriv0 (hu : Steady u) (hv : Steady v) (ε t : ℝ) :
    HasDerivAt (fun ε => (motion x0 (nudge u v ε) t).c0) (sx x0 u v ε t) ε := by
  simp only [motion_nudge hu hv]
  exact (leibniz _ _ (continuous_vx hu hv) (continuous_dvx hu hv) vx_deriv t ε).const_add _

theorem motion_deriv1 (hu : Steady u) (hv : Steady v) (ε t : ℝ) :
    HasDerivAt (fun ε => (motion x0 (nudge u v ε) t).c1) (sy x0 u v ε t) ε := by
  simp only [motion_nudge hu hv]
  exact (leibniz _ _ (continuous_vy hu hv) (continuous_dvy hu hv) vy_deriv t ε).const_add _

theorem continuous_motion0 (hu : Steady u) (hv : Steady v) :
    Continuous fun p : ℝ × ℝ => (motion x0 (nudge u v p.1) p.2).c0 := by
  simp only [motion_nudge hu hv]
  exact continuous_const.add (continuous_parametric (continuous_vx hu hv))

theorem continuous_motion1 (hu : Steady u) (hv : Steady v) :
    Continuous fun p : ℝ × ℝ => (motion x0 (nudge u v p.1) p.2).c1 := by
  simp only [motion_nudge hu hv]
  exact continuous_const.add (continuous_parametric (continuous_vy hu hv))

/-- derivative of an integral of a smooth function of the position -/
theorem field_deriv (hu : Steady u) (hv : Steady v) (g gx gy : ℝ → ℝ → ℝ)
    (hg : Continuous (uncurry g)) (hgx : Continuous (uncurry gx)) (hgy : Continuous (uncurry gy))
    (hd : ∀ (X Y : ℝ → ℝ) (X' Y' ε : ℝ), HasDerivAt X X' ε → HasDerivAt Y Y' ε →
      HasDerivAt (fun ε => g (X ε) (Y ε)) (gx (X ε) (Y ε) * X' + gy (X ε) (Y ε) * Y') ε) (b ε : ℝ) :
    HasDerivAt
      (fun ε => ∫ t in (0:ℝ)..b, g (motion x0 (nudge u v ε) t).c0 (motion x0 (nudge u v ε) t).c1)
      (∫ t in (0:ℝ)..b, (gx (motion x0 (nudge u v ε) t).c0 (motion x0 (nudge u v ε) t).c1 *
        sx x0 u v ε t + gy (motion x0 (nudge u v ε) t).c0 (motion x0 (nudge u v ε) t).c1 *
        sy x0 u v ε t)) ε := by
  have c0 := continuous_motion0 (x0 := x0) hu hv
  have c1 := continuous_motion1 (x0 := x0) hu hv
  have s0 : Continuous fun p : ℝ × ℝ => sx x0 u v p.1 p.2 := continuous_parametric (continuous_dvx hu hv)
  have s1 : Continuous fun p : ℝ × ℝ => sy x0 u v p.1 p.2 := continuous_parametric (continuous_dvy hu hv)
  refine leibniz (fun ε t => g (motion x0 (nudge u v ε) t).c0 (motion x0 (nudge u v ε) t).c1)
    (fun ε t => gx (motion x0 (nudge u v ε) t).c0 (motion x0 (nudge u v ε) t).c1 *
        sx x0 u v ε t + gy (motion x0 (nudge u v ε) t).c0 (motion x0 (nudge u v ε) t).c1 *
        sy x0 u v ε t) ?_ ?_ ?_ b ε
  · exact hg.comp (c0.prodMk c1)
  · exact ((hgx.comp (c0.prodMk c1)).mul s0).add ((hgy.comp (c0.prodMk c1)).mul s1)
  · intro ε t
    exact hd _ _ _ _ ε (motion_deriv0 hu hv ε t) (motion_deriv1 hu hv ε t)

end nudged

/-! ## the columns of the gradients -/

/-- derivatives of a basis function -/
noncomputable def cosDx (lx ly : ℝ) (j i : ℕ) (x y : ℝ) : ℝ :=
  -(j * Real.pi / lx) * Real.sin (j * Real.pi * x / lx) * Real.cos (i * Real.pi * y / ly)

noncomputable def cosDy (lx ly : ℝ) (j i : ℕ) (x y : ℝ) : ℝ :=
  -(i * Real.pi / ly) * Real.cos (j * Real.pi * x / lx) * Real.sin (i * Real.pi * y / ly)

theorem cosBasis_curve (lx ly : ℝ) (j i : ℕ) (X Y : ℝ → ℝ) (X' Y' ε : ℝ) (hX : HasDerivAt X X' ε)
    (hY : HasDerivAt Y Y' ε) : HasDerivAt (fun ε => cosBasis lx ly j i (X ε) (Y ε))
      (cosDx lx ly j i (X ε) (Y ε) * X' + cosDy lx ly j i (X ε) (Y ε) * Y') ε := by
  have h := ((hX.const_mul ((j : ℝ) * Real.pi)).div_const lx).cos.mul
    ((hY.const_mul ((i : ℝ) * Real.pi)).div_const ly).cos
  refine h.congr_deriv ?_
  simp only [cosDx, cosDy]; ring

theorem barrier_deriv (l x : ℝ) : HasDerivAt (barrier l) (ErgodicControl.barrierAxis x l) x := by
  have h1 : HasDerivAt (fun x : ℝ => (max 0 (x - (l - 0.05))) ^ 2) (2 * max 0 (x - (l - 0.05))) x := by
    have := (hasDerivAt_posPart_sq (x - (l - 0.05))).comp x ((hasDerivAt_id x).sub_const (l - 0.05))
    refine this.congr_deriv (by ring)
  have h2 : HasDerivAt (fun x : ℝ => (max 0 (0.05 - x)) ^ 2) (-(2 * max 0 (0.05 - x))) x := by
    have := (hasDerivAt_posPart_sq (0.05 - x)).comp x ((hasDerivAt_id x).const_sub 0.05)
    refine this.congr_deriv (by ring)
  have := (h1.add h2).const_mul 25
  rw [barrierAxis_real]
  refine this.congr_deriv (by ring)

theorem continuous_barrierAxis (l : ℝ) : Continuous fun x => ErgodicControl.barrierAxis x l := by
  simp only [barrierAxis_real]; fun_prop

theorem continuous_barrier (l : ℝ) : Continuous (barrier l) := by unfold barrier; fun_prop

/-- `e` is a controller for the planning problem `k`: its basis, target coefficients and weights
are those of the problem, and its terminal co-state is zero. -/
structure Solves (e : ErgodicControl ℝ) (k : Task) : Prop where
  basis : e.basis = Basis.new k.lx k.ly k.n
  phik : e.phik = (List.range (k.n * k.n)).map k.phi
  weight : e.expl_weight = k.q
  Rinv : e.Rinv = ⟨⟨1 / k.R.c0, 0, 0⟩, ⟨0, 1 / k.R.c1, 0⟩, ⟨0, 0, 1 / k.R.c2⟩⟩
  rhoT : e.rhoT = V3.zero
  R0 : 0 < k.R.c0
  R1 : 0 < k.R.c1
  R2 : 0 < k.R.c2
  D : 0 < k.D
  T : 0 < k.T

/-- first two entries of the gradient column at a position -/
noncomputable def gradX (k : Task) (w : ℕ → ℝ) (x y : ℝ) : ℝ :=
  (∑ c ∈ range (k.n * k.n), cosDx k.lx k.ly (c % k.n) (c / k.n) x y *
    (freqWeight k.n c * (w c - k.phi c))) * k.q

noncomputable def gradY (k : Task) (w : ℕ → ℝ) (x y : ℝ) : ℝ :=
  (∑ c ∈ range (k.n * k.n), cosDy k.lx k.ly (c % k.n) (c / k.n) x y *
    (freqWeight k.n c * (w c - k.phi c))) * k.q

theorem gradErgodic_col {e : ErgodicControl ℝ} {k : Task} (h : Solves e k) (w : ℕ → ℝ) (p : V3 ℝ) :
    e.gradErgodicMetric ((List.range (k.n * k.n)).map w) [p] =
      [⟨gradX k w p.c0 p.c1, gradY k w p.c0 p.c1, 0⟩] := by
  have hgen : ∀ f : V2 ℝ → ℝ, (List.zipWith (fun d w => f d * w) (e.basis.gradFourierBasis ⟨p.c0, p.c1⟩)
      (List.zipWith (fun l d => l * d) e.basis.lamdak
        (List.zipWith (fun c q => c - q) ((List.range (k.n * k.n)).map w) e.phik))).sum =
      ∑ c ∈ range (k.n * k.n), f (e.basis.dfk ⟨p.c0, p.c1⟩
        (((c % k.n : Nat) : Int), ((c / k.n : Nat) : Int))) *
        (freqWeight k.n c * (w c - k.phi c)) := by
    intro f
    rw [sum_eq_getD]
    have hl : (List.zipWith (fun d w => f d * w) (e.basis.gradFourierBasis ⟨p.c0, p.c1⟩)
      (List.zipWith (fun l d => l * d) e.basis.lamdak
        (List.zipWith (fun c q => c - q) ((List.range (k.n * k.n)).map w) e.phik))).length = k.n * k.n := by
      have h1 : e.basis.lamdak.length = k.n * k.n := by
        rw [h.basis]; exact (C39_enumeration ℝ k.lx k.ly k.n).2.2.2
      have h2 : (e.basis.gradFourierBasis ⟨p.c0, p.c1⟩).length = k.n * k.n := by
        rw [h.basis, Basis.gradFourierBasis, List.length_map]
        exact (C39_enumeration ℝ k.lx k.ly k.n).1
      simp [h1, h2, h.phik]
    rw [hl]
    apply Finset.sum_congr rfl
    intro c hc
    rw [Finset.mem_range] at hc
    obtain ⟨h1, h2, h3⟩ := index_split k.n c hc
    have hw := C74_weights k.lx k.ly k.n (c / k.n) (c % k.n) h1 h2
    rw [h3, ← h.basis] at hw
    have hk : (Basis.new k.lx k.ly k.n).k[c]? = some (((c % k.n : Nat) : Int), ((c / k.n : Nat) : Int)) :=
      numbers_get k.n c hc
    have hd : (e.basis.gradFourierBasis ⟨p.c0, p.c1⟩)[c]? =
        some (e.basis.dfk ⟨p.c0, p.c1⟩ (((c % k.n : Nat) : Int), ((c / k.n : Nat) : Int))) := by
      unfold Basis.gradFourierBasis; rw [List.getElem?_map]; rw [h.basis] at *; rw [hk]; rfl
    simp only [List.getElem?_zipWith, hd, hw, h.phik, List.getElem?_map, List.getElem?_range hc,
      Option.map_some, Option.getD_some, freqWeight]
  simp only [ErgodicControl.gradErgodicMetric, List.map_cons, List.map_nil, ErgodicControl.gradTimes,
    fsum_real, V3.xy, real_mul, real_sub, real_lit, Int.cast_zero, zero_div]
  rw [hgen (fun d => d.c0), hgen (fun d => d.c1), h.weight]
  simp only [gradX, gradY, cosDx, cosDy, h.basis, Basis.dfk, Basis.new, real_mul, real_cos, real_sin,
    real_neg, real_ofInt, real_div, real_pi, Int.cast_natCast]
  congr 2
  · congr 1
    apply Finset.sum_congr rfl
    intro c _
    rw [show ((c % k.n : ℕ) : ℝ) * Real.pi * p.c0 / k.lx = ((c % k.n : ℕ) : ℝ) * (Real.pi / k.lx) * p.c0 by ring,
      show ((c / k.n : ℕ) : ℝ) * Real.pi * p.c1 / k.ly = ((c / k.n : ℕ) : ℝ) * (Real.pi / k.ly) * p.c1 by ring]
    ring
  · congr 1
    apply Finset.sum_congr rfl
    intro c _
    rw [show ((c % k.n : ℕ) : ℝ) * Real.pi * p.c0 / k.lx = ((c % k.n : ℕ) : ℝ) * (Real.pi / k.lx) * p.c0 by ring,
      show ((c / k.n : ℕ) : ℝ) * Real.pi * p.c1 / k.ly = ((c / k.n : ℕ) : ℝ) * (Real.pi / k.ly) * p.c1 by ring]
    ring

/-! ## derivative of the motion cost -/

theorem nudge_zero (u v : ℝ → V3 ℝ) : nudge u v 0 = u := by
  funext t; simp [nudge]

theorem exchange (T D q : ℝ) (hD : 0 < D) (m : ℕ) (a w φ : ℕ → ℝ) (P Q : ℕ → ℝ → ℝ) (S0 S1 B0 B1 : ℝ → ℝ)
    (hP : ∀ c, Continuous (P c)) (hQ : ∀ c, Continuous (Q c)) (h0 : Continuous S0) (h1 : Continuous S1)
    (b0 : Continuous B0) (b1 : Continuous B1) :
    q * (D / 2) * (∑ c ∈ range m, a c * (((2:ℕ):ℝ) * (w c - φ c) ^ (2 - 1) *
      ((∫ t in (0:ℝ)..T, (P c t * S0 t + Q c t * S1 t)) / D))) +
      ∫ t in (0:ℝ)..T, (B0 t * S0 t + B1 t * S1 t) =
    ∫ t in (0:ℝ)..T, (((∑ c ∈ range m, P c t * (a c * (w c - φ c))) * q + B0 t) * S0 t +
      ((∑ c ∈ range m, Q c t * (a c * (w c - φ c))) * q + B1 t) * S1 t) := by
  have hsum : q * (D / 2) * (∑ c ∈ range m, a c * (((2:ℕ):ℝ) * (w c - φ c) ^ (2 - 1) *
      ((∫ t in (0:ℝ)..T, (P c t * S0 t + Q c t * S1 t)) / D))) =
      ∫ t in (0:ℝ)..T, ∑ c ∈ range m, q * a c * (w c - φ c) * (P c t * S0 t + Q c t * S1 t) := by
    rw [intervalIntegral.integral_finsetSum]
    · rw [Finset.mul_sum]
      apply Finset.sum_congr rfl
      intro c _
      rw [intervalIntegral.integral_const_mul]
      norm_num
      field_simp
    · intro c _
      have := hP c; have := hQ c
      exact Continuous.intervalIntegrable (by fun_prop) _ _
  rw [hsum, ← intervalIntegral.integral_add]
  · apply intervalIntegral.integral_congr
    intro t _
    simp only [Finset.sum_mul, add_mul]
    have : ∑ c ∈ range m, q * a c * (w c - φ c) * (P c t * S0 t + Q c t * S1 t) =
        ∑ c ∈ range m, P c t * (a c * (w c - φ c)) * q * S0 t +
        ∑ c ∈ range m, Q c t * (a c * (w c - φ c)) * q * S1 t := by
      rw [← Finset.sum_add_distrib]
      apply Finset.sum_congr rfl
      intro c _; ring
    rw [this]; ring
  · refine Continuous.intervalIntegrable (continuous_finsetSum _ fun c _ => ?_) _ _
    have := hP c; have := hQ c
    fun_prop
  · exact Continuous.intervalIntegrable (by fun_prop) _ _

theorem continuous_cosDx (lx ly : ℝ) (j i : ℕ) : Continuous (uncurry (cosDx lx ly j i)) := by
  unfold cosDx uncurry; fun_prop

theorem continuous_cosDy (lx ly : ℝ) (j i : ℕ) : Continuous (uncurry (cosDy lx ly j i)) := by
  unfold cosDy uncurry; fun_prop

theorem continuous_cosBasis (lx ly : ℝ) (j i : ℕ) : Continuous (uncurry (cosBasis lx ly j i)) := by
  unfold cosBasis uncurry; fun_prop

theorem continuous_path0 {x0 : V3 ℝ} {u : ℝ → V3 ℝ} (hu : Steady u) :
    Continuous fun t => (motion x0 u t).c0 := by
  have := (continuous_motion0 (x0 := x0) hu hu).comp (by fun_prop : Continuous fun t : ℝ => ((0:ℝ), t))
  simpa [Function.comp_def, nudge_zero] using this

theorem continuous_path1 {x0 : V3 ℝ} {u : ℝ → V3 ℝ} (hu : Steady u) :
    Continuous fun t => (motion x0 u t).c1 := by
  have := (continuous_motion1 (x0 := x0) hu hu).comp (by fun_prop : Continuous fun t : ℝ => ((0:ℝ), t))
  simpa [Function.comp_def, nudge_zero] using this

theorem continuous_sx {x0 : V3 ℝ} {u v : ℝ → V3 ℝ} (hu : Steady u) (hv : Steady v) :
    Continuous (sx x0 u v 0) := by
  have h : Continuous fun t => dvx x0 u v 0 t :=
    (continuous_dvx (x0 := x0) hu hv).comp (continuous_const.prodMk continuous_id)
  exact continuous_primitive h

theorem continuous_sy {x0 : V3 ℝ} {u v : ℝ → V3 ℝ} (hu : Steady u) (hv : Steady v) :
    Continuous (sy x0 u v 0) := by
  have h : Continuous fun t => dvy x0 u v 0 t :=
    (continuous_dvy (x0 := x0) hu hv).comp (continuous_const.prodMk continuous_id)
  exact continuous_primitive h

theorem visits_deriv (k : Task) {x0 : V3 ℝ} {u v : ℝ → V3 ℝ} (hu : Steady u) (hv : Steady v) (c : ℕ) :
    HasDerivAt (fun ε => k.visits (motion x0 (nudge u v ε)) c)
      ((∫ t in (0:ℝ)..k.T,
        (cosDx k.lx k.ly (c % k.n) (c / k.n) (motion x0 u t).c0 (motion x0 u t).c1 * sx x0 u v 0 t +
         cosDy k.lx k.ly (c % k.n) (c / k.n) (motion x0 u t).c0 (motion x0 u t).c1 * sy x0 u v 0 t)) / k.D)
      0 := by
  have h := field_deriv (x0 := x0) hu hv (cosBasis k.lx k.ly (c % k.n) (c / k.n))
    (cosDx k.lx k.ly (c % k.n) (c / k.n)) (cosDy k.lx k.ly (c % k.n) (c / k.n))
    (continuous_cosBasis _ _ _ _) (continuous_cosDx _ _ _ _) (continuous_cosDy _ _ _ _)
    (cosBasis_curve _ _ _ _) k.T 0
  rw [nudge_zero] at h
  exact (h.const_add _).div_const _

theorem barriers_deriv (lx ly T : ℝ) {x0 : V3 ℝ} {u v : ℝ → V3 ℝ} (hu : Steady u) (hv : Steady v) :
    HasDerivAt (fun ε => ∫ t in (0:ℝ)..T, (barrier lx (motion x0 (nudge u v ε) t).c0 +
        barrier ly (motion x0 (nudge u v ε) t).c1))
      (∫ t in (0:ℝ)..T, (ErgodicControl.barrierAxis (motion x0 u t).c0 lx * sx x0 u v 0 t +
        ErgodicControl.barrierAxis (motion x0 u t).c1 ly * sy x0 u v 0 t)) 0 := by
  have hb := field_deriv (x0 := x0) hu hv (fun x y => barrier lx x + barrier ly y)
    (fun x _ => ErgodicControl.barrierAxis x lx) (fun _ y => ErgodicControl.barrierAxis y ly)
    (((continuous_barrier lx).comp continuous_fst).add ((continuous_barrier ly).comp continuous_snd))
    ((continuous_barrierAxis lx).comp continuous_fst)
    ((continuous_barrierAxis ly).comp continuous_snd)
    (fun X Y X' Y' ε hX hY => ((barrier_deriv lx (X ε)).comp ε hX).add
      ((barrier_deriv ly (Y ε)).comp ε hY)) T 0
  rw [nudge_zero] at hb
  exact hb

theorem motionCost_deriv (k : Task) (hD : 0 < k.D) {x0 : V3 ℝ} {u v : ℝ → V3 ℝ} (hu : Steady u)
    (hv : Steady v) : HasDerivAt (fun ε => k.motionCost (motion x0 (nudge u v ε)))
      (∫ t in (0:ℝ)..k.T,
        ((gradX k (k.visits (motion x0 u)) (motion x0 u t).c0 (motion x0 u t).c1 +
            ErgodicControl.barrierAxis (motion x0 u t).c0 k.lx) * sx x0 u v 0 t +
          (gradY k (k.visits (motion x0 u)) (motion x0 u t).c0 (motion x0 u t).c1 +
            ErgodicControl.barrierAxis (motion x0 u t).c1 k.ly) * sy x0 u v 0 t)) 0 := by
  have hs := HasDerivAt.fun_sum (u := range (k.n * k.n)) fun c _ =>
      (((visits_deriv k (x0 := x0) hu hv c).sub_const (k.phi c)).fun_pow 2).const_mul (freqWeight k.n c)
  have h := (hs.const_mul (k.q * (k.D / 2))).fun_add (barriers_deriv k.lx k.ly k.T (x0 := x0) hu hv)
  have c0 := continuous_path0 (x0 := x0) hu
  have c1 := continuous_path1 (x0 := x0) hu
  have hP : ∀ c, Continuous fun t =>
      cosDx k.lx k.ly (c % k.n) (c / k.n) (motion x0 u t).c0 (motion x0 u t).c1 := by
    intro c
    unfold cosDx
    fun_prop
  have hQ : ∀ c, Continuous fun t =>
      cosDy k.lx k.ly (c % k.n) (c / k.n) (motion x0 u t).c0 (motion x0 u t).c1 := by
    intro c
    unfold cosDy
    fun_prop
  have b0 : Continuous fun t => ErgodicControl.barrierAxis (motion x0 u t).c0 k.lx :=
    (continuous_barrierAxis k.lx).comp c0
  have b1 : Continuous fun t => ErgodicControl.barrierAxis (motion x0 u t).c1 k.ly :=
    (continuous_barrierAxis k.ly).comp c1
  have e := exchange k.T k.D k.q hD (k.n * k.n) (freqWeight k.n) (k.visits (motion x0 u)) k.phi
    (fun c t => cosDx k.lx k.ly (c % k.n) (c / k.n) (motion x0 u t).c0 (motion x0 u t).c1)
    (fun c t => cosDy k.lx k.ly (c % k.n) (c / k.n) (motion x0 u t).c0 (motion x0 u t).c1)
    (sx x0 u v 0) (sy x0 u v 0) (fun t => ErgodicControl.barrierAxis (motion x0 u t).c0 k.lx)
    (fun t => ErgodicControl.barrierAxis (motion x0 u t).c1 k.ly)
    hP hQ (continuous_sx hu hv) (continuous_sy hu hv) b0 b1
  simp only [nudge_zero] at h
  unfold Task.motionCost
  refine h.congr_deriv ?_
  simp only [gradX, gradY]
  exact e

/-! ## the co-state -/

/-- `rho` is the co-state of the plan `u` from the pose `x0` (relative to the corner of the map):
it satisfies the controller's co-state equation, with the controller's two gradients, and has the
controller's terminal value. -/
structure CoState (e : ErgodicControl ℝ) (k : Task) (x0 : V3 ℝ) (u rho : ℝ → V3 ℝ) : Prop where
  terminal : rho k.T = e.rhoT
  equation : ∀ t, ∃ edx bdx d,
    e.gradErgodicMetric ((List.range (k.n * k.n)).map (k.visits (motion x0 u))) [motion x0 u t] = [edx] ∧
    e.gradBarrier [motion x0 u t] = [bdx] ∧
    d = rhodot (rho t) edx bdx (e.model.fdx (motion x0 u t) (u t)) ∧
    HasDerivAt (fun s => (rho s).c0) d.c0 t ∧ HasDerivAt (fun s => (rho s).c1) d.c1 t ∧
    HasDerivAt (fun s => (rho s).c2) d.c2 t

/-- the model of the robot: omnidirectional, or a cart and a plan without lateral velocity -/
def Drives (e : ErgodicControl ℝ) (u : ℝ → V3 ℝ) : Prop :=
  e.model = omniModel ∨ e.model = cartModel ∧ ∀ t, (u t).c1 = 0

theorem fdx_of_drives {e : ErgodicControl ℝ} {u : ℝ → V3 ℝ} (h : Drives e u) (x : V3 ℝ) (t : ℝ) :
    e.model.fdx x (u t) = Omni.fdx x (u t) := by
  rcases h with h | ⟨h, h1⟩
  · rw [h]; rfl
  · rw [h]
    simp only [cartModel, SimpleCart.fdx, Omni.fdx, h1, real_mul, real_sub, zero_mul, sub_zero]

theorem fdu_of_drives {e : ErgodicControl ℝ} {v : ℝ → V3 ℝ} (h : Drives e v) (x : V3 ℝ) (t : ℝ) :
    (e.model.fdu x).mulVec (v t) = (Omni.fdu x).mulVec (v t) := by
  rcases h with h | ⟨h, h1⟩
  · rw [h]; rfl
  · rw [h]
    simp [cartModel, SimpleCart.fdu, Omni.fdu, M3.mulVec, V3.dot, h1]

theorem CoState.derivs {e : ErgodicControl ℝ} {k : Task} (hk : Solves e k) {x0 : V3 ℝ}
    {u rho : ℝ → V3 ℝ} (hm : Drives e u) (h : CoState e k x0 u rho) (t : ℝ) :
    HasDerivAt (fun s => (rho s).c0)
      (-(gradX k (k.visits (motion x0 u)) (motion x0 u t).c0 (motion x0 u t).c1 +
        ErgodicControl.barrierAxis (motion x0 u t).c0 k.lx)) t ∧
    HasDerivAt (fun s => (rho s).c1)
      (-(gradY k (k.visits (motion x0 u)) (motion x0 u t).c0 (motion x0 u t).c1 +
        ErgodicControl.barrierAxis (motion x0 u t).c1 k.ly)) t ∧
    HasDerivAt (fun s => (rho s).c2)
      (((u t).c0 * Real.sin (headingAt x0 u t) + (u t).c1 * Real.cos (headingAt x0 u t)) * (rho t).c0 -
       ((u t).c0 * Real.cos (headingAt x0 u t) - (u t).c1 * Real.sin (headingAt x0 u t)) * (rho t).c1) t := by
  obtain ⟨edx, bdx, d, h1, h2, h3, d0, d1, d2⟩ := h.equation t
  rw [gradErgodic_col hk, List.cons.injEq] at h1
  obtain ⟨rfl, -⟩ := h1
  simp only [ErgodicControl.gradBarrier, List.map_cons, List.map_nil, List.cons.injEq] at h2
  obtain ⟨rfl, -⟩ := h2
  rw [fdx_of_drives hm] at h3
  have hlx : e.basis.lx = k.lx := by rw [hk.basis]; rfl
  have hly : e.basis.ly = k.ly := by rw [hk.basis]; rfl
  rw [hlx, hly] at h3
  have hh : (motion x0 u t).c2 = headingAt x0 u t := rfl
  simp only [rhodot, Omni.fdx, hh, V3.neg, V3.sub, M3.t, M3.mulVec, V3.dot, real_add, real_sub,
    real_neg, real_mul, real_lit, real_cos, real_sin] at h3
  subst h3
  refine ⟨d0.congr_deriv ?_, d1.congr_deriv ?_, d2.congr_deriv ?_⟩ <;> norm_num <;> ring

/-- product rule for the pairing of the co-state with the change of the motion -/
theorem pairing {T : ℝ} {p0 p1 p2 y0 y1 y2 a0 a1 a2 b0 b1 b2 : ℝ → ℝ}
    (hp0 : ∀ t, HasDerivAt p0 (a0 t) t) (hp1 : ∀ t, HasDerivAt p1 (a1 t) t)
    (hp2 : ∀ t, HasDerivAt p2 (a2 t) t) (hy0 : ∀ t, HasDerivAt y0 (b0 t) t)
    (hy1 : ∀ t, HasDerivAt y1 (b1 t) t) (hy2 : ∀ t, HasDerivAt y2 (b2 t) t)
    (ca0 : Continuous a0) (ca1 : Continuous a1) (ca2 : Continuous a2)
    (cb0 : Continuous b0) (cb1 : Continuous b1) (cb2 : Continuous b2)
    (z0 : y0 0 = 0) (z1 : y1 0 = 0) (z2 : y2 0 = 0) (e0 : p0 T = 0) (e1 : p1 T = 0) (e2 : p2 T = 0) :
    ∫ t in (0:ℝ)..T, ((a0 t * y0 t + p0 t * b0 t) + (a1 t * y1 t + p1 t * b1 t) +
      (a2 t * y2 t + p2 t * b2 t)) = 0 := by
  have cont : ∀ {f a : ℝ → ℝ}, (∀ t, HasDerivAt f (a t) t) → Continuous f := fun h =>
    continuous_iff_continuousAt.mpr fun t => (h t).continuousAt
  have := cont hp0; have := cont hp1; have := cont hp2
  have := cont hy0; have := cont hy1; have := cont hy2
  have h := intervalIntegral.integral_eq_sub_of_hasDerivAt (a := 0) (b := T)
    (f := fun t => p0 t * y0 t + p1 t * y1 t + p2 t * y2 t)
    (fun t _ => (((hp0 t).fun_mul (hy0 t)).fun_add ((hp1 t).fun_mul (hy1 t))).fun_add
      ((hp2 t).fun_mul (hy2 t)))
    (Continuous.intervalIntegrable (by fun_prop) _ _)
  rw [h, z0, z1, z2, e0, e1, e2]
  ring

theorem primitive_deriv {f : ℝ → ℝ} (hf : Continuous f) (t : ℝ) :
    HasDerivAt (fun t => ∫ s in (0:ℝ)..t, f s) (f t) t :=
  (hf.integral_hasStrictDerivAt 0 t).hasDerivAt

/-- C95: pairing the co-state with a change of the control through `fdu` gives the derivative of
the motion cost with respect to that change of the plan. -/
theorem C95_gradient (e : ErgodicControl ℝ) (k : Task) (hk : Solves e k) (x0 : V3 ℝ)
    (u v rho : ℝ → V3 ℝ) (hu : Steady u) (hv : Steady v) (mu : Drives e u) (mv : Drives e v)
    (hr : CoState e k x0 u rho) :
    HasDerivAt (fun ε => k.motionCost (motion x0 (nudge u v ε)))
      (∫ t in (0:ℝ)..k.T, (rho t).dot ((e.model.fdu (motion x0 u t)).mulVec (v t))) 0 := by
  refine (motionCost_deriv k hk.D hu hv).congr_deriv ?_
  have c0 := continuous_path0 (x0 := x0) hu
  have c1 := continuous_path1 (x0 := x0) hu
  have ch := continuous_heading (x0 := x0) hu
  have hD := hr.derivs hk mu
  have g0 : Continuous fun t => gradX k (k.visits (motion x0 u)) (motion x0 u t).c0 (motion x0 u t).c1 := by
    unfold gradX cosDx; fun_prop
  have g1 : Continuous fun t => gradY k (k.visits (motion x0 u)) (motion x0 u t).c0 (motion x0 u t).c1 := by
    unfold gradY cosDy; fun_prop
  have b0 : Continuous fun t => ErgodicControl.barrierAxis (motion x0 u t).c0 k.lx :=
    (continuous_barrierAxis k.lx).comp c0
  have b1 : Continuous fun t => ErgodicControl.barrierAxis (motion x0 u t).c1 k.ly :=
    (continuous_barrierAxis k.ly).comp c1
  have r0 : Continuous fun t => (rho t).c0 :=
    continuous_iff_continuousAt.mpr fun t => (hD t).1.continuousAt
  have r1 : Continuous fun t => (rho t).c1 :=
    continuous_iff_continuousAt.mpr fun t => (hD t).2.1.continuousAt
  have cv0 : Continuous fun t => dvx x0 u v 0 t :=
    (continuous_dvx (x0 := x0) hu hv).comp (continuous_const.prodMk continuous_id)
  have cv1 : Continuous fun t => dvy x0 u v 0 t :=
    (continuous_dvy (x0 := x0) hu hv).comp (continuous_const.prodMk continuous_id)
  have hT : rho k.T = V3.zero := by rw [hr.terminal, hk.rhoT]
  have u0 := hu.1
  have u1 := hu.2.1
  have hz := pairing (T := k.T) (fun t => (hD t).1) (fun t => (hD t).2.1) (fun t => (hD t).2.2)
    (y0 := sx x0 u v 0) (y1 := sy x0 u v 0) (y2 := turned v)
    (fun t => primitive_deriv cv0 t) (fun t => primitive_deriv cv1 t) (fun t => primitive_deriv hv.2.2 t)
    (by fun_prop) (by fun_prop) (by fun_prop) cv0 cv1 hv.2.2
    (by simp [sx]) (by simp [sy]) (by simp [turned]) (by rw [hT]; simp [V3.zero])
    (by rw [hT]; simp [V3.zero]) (by rw [hT]; simp [V3.zero])
  have e1 : ∀ t, (rho t).dot ((e.model.fdu (motion x0 u t)).mulVec (v t)) =
      (rho t).c0 * ((v t).c0 * Real.cos (headingAt x0 u t) - (v t).c1 * Real.sin (headingAt x0 u t)) +
      (rho t).c1 * ((v t).c0 * Real.sin (headingAt x0 u t) + (v t).c1 * Real.cos (headingAt x0 u t)) +
      (rho t).c2 * (v t).c2 := by
    intro t
    have hh : (motion x0 u t).c2 = headingAt x0 u t := rfl
    rw [fdu_of_drives mv]
    simp only [Omni.fdu, M3.mulVec, V3.dot, hh, real_add, real_mul, real_neg, real_lit, real_cos, real_sin]
    norm_num
    ring
  simp only [e1]
  have r2 : Continuous fun t => (rho t).c2 :=
    continuous_iff_continuousAt.mpr fun t => (hD t).2.2.continuousAt
  have v0 := hv.1
  have v1 := hv.2.1
  have v2 := hv.2.2
  have s0 := continuous_sx (x0 := x0) hu hv
  have s1 := continuous_sy (x0 := x0) hu hv
  rw [← sub_eq_zero, ← intervalIntegral.integral_sub (Continuous.intervalIntegrable (by fun_prop) _ _)
    (Continuous.intervalIntegrable (by fun_prop) _ _), ← neg_eq_zero, ← intervalIntegral.integral_neg]
  refine Eq.trans ?_ hz
  apply intervalIntegral.integral_congr
  intro t _
  simp only [dvx, dvy, vx, vy, zero_mul, add_zero]
  ring

/-! ## the effort and the whole cost -/

theorem effort_deriv (k : Task) {u v : ℝ → V3 ℝ} (hu : Steady u) (hv : Steady v) :
    HasDerivAt (fun ε => k.effort (nudge u v ε))
      (∫ t in (0:ℝ)..k.T, (k.R.c0 * (u t).c0 * (v t).c0 + k.R.c1 * (u t).c1 * (v t).c1 +
        k.R.c2 * (u t).c2 * (v t).c2)) 0 := by
  have u0 := hu.1.comp (continuous_snd (X := ℝ))
  have u1 := hu.2.1.comp (continuous_snd (X := ℝ))
  have u2 := hu.2.2.comp (continuous_snd (X := ℝ))
  have v0 := hv.1.comp (continuous_snd (X := ℝ))
  have v1 := hv.2.1.comp (continuous_snd (X := ℝ))
  have v2 := hv.2.2.comp (continuous_snd (X := ℝ))
  simp only [Function.comp_def] at u0 u1 u2 v0 v1 v2
  have h := leibniz (fun ε t => (k.R.c0 * ((u t).c0 + ε * (v t).c0) ^ 2 +
      k.R.c1 * ((u t).c1 + ε * (v t).c1) ^ 2 + k.R.c2 * ((u t).c2 + ε * (v t).c2) ^ 2) / 2)
    (fun ε t => k.R.c0 * ((u t).c0 + ε * (v t).c0) * (v t).c0 +
      k.R.c1 * ((u t).c1 + ε * (v t).c1) * (v t).c1 + k.R.c2 * ((u t).c2 + ε * (v t).c2) * (v t).c2)
    (by simp only [uncurry_def]; fun_prop) (by simp only [uncurry_def]; fun_prop) ?_ k.T 0
  · simp only [zero_mul, add_zero] at h
    exact h
  · intro ε t
    have hl : ∀ a b : ℝ, HasDerivAt (fun ε : ℝ => a + ε * b) b ε := by
      intro a b
      have := ((hasDerivAt_id ε).mul_const b).const_add a
      refine this.congr_deriv (by ring)
    have h := (((((hl (u t).c0 (v t).c0).fun_pow 2).const_mul k.R.c0).fun_add
      (((hl (u t).c1 (v t).c1).fun_pow 2).const_mul k.R.c1)).fun_add
      (((hl (u t).c2 (v t).c2).fun_pow 2).const_mul k.R.c2)).div_const 2
    refine h.congr_deriv ?_
    norm_num
    ring

/-- derivative of the cost of a plan, as an integral over the horizon -/
theorem planCost_deriv (e : ErgodicControl ℝ) (k : Task) (hk : Solves e k) (x0 : V3 ℝ)
    (u v rho : ℝ → V3 ℝ) (hu : Steady u) (hv : Steady v) (mu : Drives e u) (mv : Drives e v)
    (hr : CoState e k x0 u rho) :
    HasDerivAt (fun ε => k.planCost x0 (nudge u v ε))
      (∫ t in (0:ℝ)..k.T, ((rho t).dot ((e.model.fdu (motion x0 u t)).mulVec (v t)) +
        (k.R.c0 * (u t).c0 * (v t).c0 + k.R.c1 * (u t).c1 * (v t).c1 +
        k.R.c2 * (u t).c2 * (v t).c2))) 0 ∧
    Continuous (fun t => (rho t).dot ((e.model.fdu (motion x0 u t)).mulVec (v t))) := by
  have hD := hr.derivs hk mu
  have r0 : Continuous fun t => (rho t).c0 :=
    continuous_iff_continuousAt.mpr fun t => (hD t).1.continuousAt
  have r1 : Continuous fun t => (rho t).c1 :=
    continuous_iff_continuousAt.mpr fun t => (hD t).2.1.continuousAt
  have r2 : Continuous fun t => (rho t).c2 :=
    continuous_iff_continuousAt.mpr fun t => (hD t).2.2.continuousAt
  have ch := continuous_heading (x0 := x0) hu
  obtain ⟨v0, v1, v2⟩ := id hv
  obtain ⟨u0, u1, u2⟩ := id hu
  have hc : Continuous (fun t => (rho t).dot ((e.model.fdu (motion x0 u t)).mulVec (v t))) := by
    have hh : ∀ t, (motion x0 u t).c2 = headingAt x0 u t := fun t => rfl
    simp only [fdu_of_drives mv]
    simp only [Omni.fdu, M3.mulVec, V3.dot, hh, real_add, real_mul, real_neg, real_lit, real_cos, real_sin]
    fun_prop
  refine ⟨?_, hc⟩
  have h := (C95_gradient e k hk x0 u v rho hu hv mu mv hr).fun_add (effort_deriv k hu hv)
  rw [← intervalIntegral.integral_add (hc.intervalIntegrable _ _)
    (Continuous.intervalIntegrable (by fun_prop) _ _)] at h
  exact h

/-! ## the update -/

/-- the change of the plan `u` towards the plan `w` -/
def toward (u w : ℝ → V3 ℝ) (t : ℝ) : V3 ℝ :=
  ⟨(w t).c0 - (u t).c0, (w t).c1 - (u t).c1, (w t).c2 - (u t).c2⟩

/-- the robot model, with lateral velocity excluded by the limits of a cart -/
def Limited (e : ErgodicControl ℝ) : Prop :=
  e.model = omniModel ∨ e.model = cartModel ∧ e.umin.c1 = 0 ∧ e.umax.c1 = 0

theorem inBox_le {lo u hi : V3 ℝ} : InBox lo u hi ↔ (lo.c0 ≤ u.c0 ∧ u.c0 ≤ hi.c0) ∧
    (lo.c1 ≤ u.c1 ∧ u.c1 ≤ hi.c1) ∧ (lo.c2 ≤ u.c2 ∧ u.c2 ≤ hi.c2) := by
  have hAt : ∀ a b : ℝ, AtMost a b ↔ a ≤ b := by
    intro a b; simp only [AtMost, real_lt]; exact le_iff_lt_or_eq.symm
  simp only [InBox, hAt]

theorem Limited.drives {e : ErgodicControl ℝ} (h : Limited e) {u : ℝ → V3 ℝ}
    (hb : ∀ t, InBox e.umin (u t) e.umax) : Drives e u := by
  rcases h with h | ⟨h, h1, h2⟩
  · exact .inl h
  · refine .inr ⟨h, fun t => ?_⟩
    have := (inBox_le.mp (hb t)).2.1
    rw [h1, h2] at this
    exact le_antisymm this.2 this.1

theorem Limited.drives_sub {e : ErgodicControl ℝ} (h : Limited e) {u w v : ℝ → V3 ℝ}
    (hb : ∀ t, InBox e.umin (u t) e.umax) (hw : ∀ t, InBox e.umin (w t) e.umax)
    (hv : ∀ t, (v t).c1 = (w t).c1 - (u t).c1) : Drives e v := by
  rcases h with h | ⟨h, h1, h2⟩
  · exact .inl h
  · refine .inr ⟨h, fun t => ?_⟩
    have a := (inBox_le.mp (hb t)).2.1
    have b := (inBox_le.mp (hw t)).2.1
    rw [h1, h2] at a b
    rw [hv]; linarith

theorem clampR_eq {x lo hi w : ℝ} (h : ErgodicControl.clampR x lo hi = .ok w) :
    lo ≤ hi ∧ w = max lo (min hi x) := by
  unfold ErgodicControl.clampR fclamp at h
  by_cases h0 : Flt.lt hi lo = true
  · rw [if_pos h0] at h; simp at h
  · rw [if_neg h0, Res.ok.injEq] at h
    rw [real_lt, not_lt] at h0
    refine ⟨h0, ?_⟩
    subst h
    by_cases h3 : x < lo
    · rw [if_pos ((real_lt _ _).mpr h3), min_eq_right (by linarith), max_eq_left h3.le]
    · rw [if_neg (by rw [real_lt]; exact h3)]
      by_cases h4 : hi < x
      · rw [if_pos ((real_lt _ _).mpr h4), min_eq_left h4.le, max_eq_right h0]
      · rw [if_neg (by rw [real_lt]; exact h4), min_eq_right (not_lt.mp h4), max_eq_right (not_lt.mp h3)]

/-- the updated plan is continuous in time -/
theorem update_steady {e : ErgodicControl ℝ} {k : Task} (hk : Solves e k) (hm : Limited e) {x0 : V3 ℝ}
    {u rho w : ℝ → V3 ℝ} (hu : Steady u) (mu : Drives e u) (hr : CoState e k x0 u rho)
    (hw : ∀ t, e.newControl (motion x0 u t) (rho t) = .ok (w t)) : Steady w := by
  have hD := hr.derivs hk mu
  have r0 : Continuous fun t => (rho t).c0 :=
    continuous_iff_continuousAt.mpr fun t => (hD t).1.continuousAt
  have r1 : Continuous fun t => (rho t).c1 :=
    continuous_iff_continuousAt.mpr fun t => (hD t).2.1.continuousAt
  have r2 : Continuous fun t => (rho t).c2 :=
    continuous_iff_continuousAt.mpr fun t => (hD t).2.2.continuousAt
  have ch := continuous_heading (x0 := x0) hu
  have hh : ∀ t, (motion x0 u t).c2 = headingAt x0 u t := fun t => rfl
  have hv : ∃ y : ℝ → V3 ℝ, Steady y ∧
      ∀ t, (e.Rinv.neg.mul (e.model.fdu (motion x0 u t)).t).mulVec (rho t) = y t := by
    refine ⟨_, ?_, fun t => rfl⟩
    have hM : e.model = omniModel ∨ e.model = cartModel := by
      rcases hm with h | h
      · exact .inl h
      · exact .inr h.1
    unfold Steady
    rcases hM with h | h <;>
    · simp only [h, omniModel, cartModel, SimpleCart.fdu, Omni.fdu, M3.mul, M3.neg, M3.t, M3.mulVec, V3.neg,
        V3.dot, hh, real_add, real_mul, real_neg, real_lit, real_cos, real_sin]
      refine ⟨?_, ?_, ?_⟩ <;> fun_prop
  obtain ⟨y, hy, hyt⟩ := hv
  have hwt : ∀ t, w t = ⟨max e.umin.c0 (min e.umax.c0 (y t).c0), max e.umin.c1 (min e.umax.c1 (y t).c1),
      max e.umin.c2 (min e.umax.c2 (y t).c2)⟩ := by
    intro t
    have h := hw t
    simp only [ErgodicControl.newControl, Res.bind_eq_ok, Res.ok.injEq, hyt] at h
    obtain ⟨a0, g0, a1, g1, a2, g2, h⟩ := h
    rw [← h, (clampR_eq g0).2, (clampR_eq g1).2, (clampR_eq g2).2]
  obtain ⟨y0, y1, y2⟩ := hy
  refine ⟨?_, ?_, ?_⟩ <;> simp only [hwt] <;> fun_prop

theorem toward_steady {u w : ℝ → V3 ℝ} (hu : Steady u) (hw : Steady w) : Steady (toward u w) :=
  ⟨hw.1.sub hu.1, hw.2.1.sub hu.2.1, hw.2.2.sub hu.2.2⟩

/-- squared distance of two controls in the control weights -/
def gapSq (R a b : V3 ℝ) : ℝ :=
  R.c0 * (b.c0 - a.c0) ^ 2 + R.c1 * (b.c1 - a.c1) ^ 2 + R.c2 * (b.c2 - a.c2) ^ 2

theorem gapSq_nonneg {R : V3 ℝ} (h0 : 0 < R.c0) (h1 : 0 < R.c1) (h2 : 0 < R.c2) (a b : V3 ℝ) :
    0 ≤ gapSq R a b := by unfold gapSq; positivity

theorem gapSq_pos {R : V3 ℝ} (h0 : 0 < R.c0) (h1 : 0 < R.c1) (h2 : 0 < R.c2) {a b : V3 ℝ} (h : b ≠ a) :
    0 < gapSq R a b := by
  rcases (gapSq_nonneg h0 h1 h2 a b).lt_or_eq with h' | h'
  · exact h'
  · exfalso
    apply h
    unfold gapSq at h'
    have p0 := mul_nonneg h0.le (sq_nonneg (b.c0 - a.c0))
    have p1 := mul_nonneg h1.le (sq_nonneg (b.c1 - a.c1))
    have p2 := mul_nonneg h2.le (sq_nonneg (b.c2 - a.c2))
    have z : ∀ r x : ℝ, 0 < r → r * x ^ 2 = 0 → x = 0 := by
      intro r x hr hx
      rcases mul_eq_zero.mp hx with h | h
      · exact absurd h hr.ne'
      · exact pow_eq_zero_iff (by norm_num) |>.mp h
    have q0 := z R.c0 (b.c0 - a.c0) h0 (by linarith)
    have q1 := z R.c1 (b.c1 - a.c1) h1 (by linarith)
    have q2 := z R.c2 (b.c2 - a.c2) h2 (by linarith)
    ext <;> linarith

/-- C95: the controller's update of the plan `u` is a plan `w` within the limits, and the rate at
which the cost changes when the plan moves from `u` towards `w` is at most minus the squared
distance between the two plans. -/
theorem C95_descent (e : ErgodicControl ℝ) (k : Task) (hk : Solves e k) (hm : Limited e) (x0 : V3 ℝ)
    (u rho w : ℝ → V3 ℝ) (hu : Steady u) (hb : ∀ t, InBox e.umin (u t) e.umax)
    (hr : CoState e k x0 u rho) (hw : ∀ t, e.newControl (motion x0 u t) (rho t) = .ok (w t)) :
    Steady w ∧ (∀ t, InBox e.umin (w t) e.umax) ∧
    ∃ d, HasDerivAt (fun ε => k.planCost x0 (nudge u (toward u w) ε)) d 0 ∧
      d ≤ -∫ t in (0:ℝ)..k.T, gapSq k.R (u t) (w t) := by
  have mu := hm.drives hb
  have sw := update_steady hk hm hu mu hr hw
  have hmin := fun t => C64_minimises e k.R _ _ _ hk.R0 hk.R1 hk.R2 hk.Rinv (hw t)
  have bw : ∀ t, InBox e.umin (w t) e.umax := fun t => (hmin t).1
  obtain ⟨hd, hc⟩ := planCost_deriv e k hk x0 u (toward u w) rho hu (toward_steady hu sw) mu
    (hm.drives_sub hb bw (fun t => rfl)) hr
  refine ⟨sw, bw, _, hd, ?_⟩
  rw [← intervalIntegral.integral_neg]
  obtain ⟨u0, u1, u2⟩ := hu
  obtain ⟨w0, w1, w2⟩ := sw
  refine intervalIntegral.integral_mono_on hk.T.le ?_ ?_ ?_
  · refine Continuous.intervalIntegrable (hc.add ?_) _ _
    simp only [toward]; fun_prop
  · refine Continuous.intervalIntegrable ?_ _ _
    simp only [gapSq]; fun_prop
  · intro t _
    have h := (hmin t).2 (u t) (hb t)
    simp only [hamiltonian, gapSq, toward, M3.mulVec, V3.dot, real_add, real_mul] at h ⊢
    nlinarith [h]

theorem lower_after {f : ℝ → ℝ} {d : ℝ} (hd : HasDerivAt f d 0) (h : d < 0) :
    ∃ δ > 0, ∀ ε, 0 < ε → ε < δ → f ε < f 0 := by
  have h1 := (hasDerivAt_iff_tendsto_slope.mp hd).eventually (gt_mem_nhds h)
  rw [eventually_nhdsWithin_iff, Metric.eventually_nhds_iff] at h1
  obtain ⟨δ, hδ, h2⟩ := h1
  refine ⟨δ, hδ, fun ε h3 h4 => ?_⟩
  have h5 := h2 (y := ε) (by rw [Real.dist_eq, sub_zero, abs_of_pos h3]; exact h4) h3.ne'
  rw [slope_def_field, sub_zero] at h5
  have := (div_neg_iff.mp h5)
  rcases this with h6 | h6
  · linarith [h6.2]
  · linarith [h6.1]

/-- C95: when the update changes the plan, every sufficiently small step from the plan towards the
update stays within the limits and lowers the cost. -/
theorem C95_decrease (e : ErgodicControl ℝ) (k : Task) (hk : Solves e k) (hm : Limited e) (x0 : V3 ℝ)
    (u rho w : ℝ → V3 ℝ) (hu : Steady u) (hb : ∀ t, InBox e.umin (u t) e.umax)
    (hr : CoState e k x0 u rho) (hw : ∀ t, e.newControl (motion x0 u t) (rho t) = .ok (w t))
    (t0 : ℝ) (h0 : t0 ∈ Set.Icc 0 k.T) (hne : w t0 ≠ u t0) :
    ∃ δ > 0, ∀ ε, 0 < ε → ε < δ → (∀ t, InBox e.umin (nudge u (toward u w) ε t) e.umax) ∧
      k.planCost x0 (nudge u (toward u w) ε) < k.planCost x0 u := by
  obtain ⟨sw, bw, d, hd, hle⟩ := C95_descent e k hk hm x0 u rho w hu hb hr hw
  have hpos : 0 < ∫ t in (0:ℝ)..k.T, gapSq k.R (u t) (w t) := by
    obtain ⟨u0, u1, u2⟩ := hu
    obtain ⟨w0, w1, w2⟩ := sw
    refine intervalIntegral.integral_pos hk.T (Continuous.continuousOn ?_)
      (fun t _ => gapSq_nonneg hk.R0 hk.R1 hk.R2 _ _) ⟨t0, h0, gapSq_pos hk.R0 hk.R1 hk.R2 hne⟩
    simp only [gapSq]; fun_prop
  have hneg : d < 0 := by linarith
  obtain ⟨δ, hδ, hlow⟩ := lower_after hd hneg
  refine ⟨min δ 1, lt_min hδ one_pos, fun ε h1 h2 => ⟨fun t => ?_, ?_⟩⟩
  · have a := inBox_le.mp (hb t)
    have b := inBox_le.mp (bw t)
    have h3 : ε < 1 := lt_of_lt_of_le h2 (min_le_right _ _)
    have mix : ∀ lo hi x y : ℝ, lo ≤ x ∧ x ≤ hi → lo ≤ y ∧ y ≤ hi →
        lo ≤ x + ε * (y - x) ∧ x + ε * (y - x) ≤ hi := by
      intro lo hi x y hx hy
      constructor <;> nlinarith
    exact inBox_le.mpr ⟨mix _ _ _ _ a.1 b.1, mix _ _ _ _ a.2.1 b.2.1, mix _ _ _ _ a.2.2 b.2.2⟩
  · have := hlow ε h1 (lt_of_lt_of_le h2 (min_le_left _ _))
    rwa [nudge_zero] at this

/-- C95: the update leaves a plan unchanged over the horizon exactly when the plan satisfies the
first-order condition of optimality: no admissible change of the plan has a negative rate of
change of the cost. -/
theorem C95_fixed_points (e : ErgodicControl ℝ) (k : Task) (hk : Solves e k) (hm : Limited e) (x0 : V3 ℝ)
    (u rho w : ℝ → V3 ℝ) (hu : Steady u) (hb : ∀ t, InBox e.umin (u t) e.umax)
    (hr : CoState e k x0 u rho) (hw : ∀ t, e.newControl (motion x0 u t) (rho t) = .ok (w t)) :
    (∀ t ∈ Set.Icc 0 k.T, w t = u t) ↔
    ∀ v : ℝ → V3 ℝ, Steady v → (∀ t, InBox e.umin (nudge u v 1 t) e.umax) →
      ∃ d, HasDerivAt (fun ε => k.planCost x0 (nudge u v ε)) d 0 ∧ 0 ≤ d := by
  obtain ⟨sw, bw, d, hd, hle⟩ := C95_descent e k hk hm x0 u rho w hu hb hr hw
  constructor
  · intro hfix v hv hbv
    have mu := hm.drives hb
    obtain ⟨hd, hc⟩ := planCost_deriv e k hk x0 u v rho hu hv mu
      (hm.drives_sub hb hbv (fun t => by simp [nudge])) hr
    refine ⟨_, hd, intervalIntegral.integral_nonneg hk.T.le fun t ht => ?_⟩
    have h := (C64_minimises e k.R _ _ _ hk.R0 hk.R1 hk.R2 hk.Rinv (hw t)).2 _ (hbv t)
    rw [hfix t ht] at h
    simp only [hamiltonian, nudge, M3.mulVec, V3.dot, real_add, real_mul] at h ⊢
    nlinarith [h]
  · intro hall t ht
    by_contra hne
    have hpos : 0 < ∫ t in (0:ℝ)..k.T, gapSq k.R (u t) (w t) := by
      obtain ⟨u0, u1, u2⟩ := hu
      obtain ⟨w0, w1, w2⟩ := sw
      refine intervalIntegral.integral_pos hk.T (Continuous.continuousOn ?_)
        (fun t _ => gapSq_nonneg hk.R0 hk.R1 hk.R2 _ _) ⟨t, ht, gapSq_pos hk.R0 hk.R1 hk.R2 hne⟩
      simp only [gapSq]; fun_prop
    have h1 : nudge u (toward u w) 1 = w := by
      funext t; simp [nudge, toward]
    obtain ⟨d', hd', h0⟩ := hall (toward u w) (toward_steady hu sw) (fun t => by rw [h1]; exact bw t)
    have := hd.unique hd'
    linarith

/-! ## the hypotheses can be met -/

/-- every continuous plan has a co-state -/
theorem C95_costate_exists (e : ErgodicControl ℝ) (k : Task) (hk : Solves e k) (x0 : V3 ℝ)
    (u : ℝ → V3 ℝ) (hu : Steady u) (mu : Drives e u) : ∃ rho, CoState e k x0 u rho := by
  have c0 := continuous_path0 (x0 := x0) hu
  have c1 := continuous_path1 (x0 := x0) hu
  have ch := continuous_heading (x0 := x0) hu
  have g0 : Continuous fun t => gradX k (k.visits (motion x0 u)) (motion x0 u t).c0 (motion x0 u t).c1 +
      ErgodicControl.barrierAxis (motion x0 u t).c0 k.lx := by
    have := (continuous_barrierAxis k.lx).comp c0
    unfold gradX cosDx; fun_prop
  have g1 : Continuous fun t => gradY k (k.visits (motion x0 u)) (motion x0 u t).c0 (motion x0 u t).c1 +
      ErgodicControl.barrierAxis (motion x0 u t).c1 k.ly := by
    have := (continuous_barrierAxis k.ly).comp c1
    unfold gradY cosDy; fun_prop
  obtain ⟨u0, u1, u2⟩ := hu
  have back : ∀ f : ℝ → ℝ, Continuous f → ∃ p : ℝ → ℝ, p k.T = 0 ∧ ∀ t, HasDerivAt p (f t) t := by
    intro f hf
    refine ⟨fun t => (∫ s in (0:ℝ)..t, f s) - ∫ s in (0:ℝ)..k.T, f s, sub_self _, fun t => ?_⟩
    exact (primitive_deriv hf t).sub_const _
  obtain ⟨p0, z0, d0⟩ := back _ g0.neg
  obtain ⟨p1, z1, d1⟩ := back _ g1.neg
  have cp0 : Continuous p0 := continuous_iff_continuousAt.mpr fun t => (d0 t).continuousAt
  have cp1 : Continuous p1 := continuous_iff_continuousAt.mpr fun t => (d1 t).continuousAt
  obtain ⟨p2, z2, d2⟩ := back (fun t =>
    ((u t).c0 * Real.sin (headingAt x0 u t) + (u t).c1 * Real.cos (headingAt x0 u t)) * p0 t -
       ((u t).c0 * Real.cos (headingAt x0 u t) - (u t).c1 * Real.sin (headingAt x0 u t)) * p1 t) (by fun_prop)
  refine ⟨fun t => ⟨p0 t, p1 t, p2 t⟩, ⟨?_, fun t => ?_⟩⟩
  · rw [hk.rhoT, z0, z1, z2]; simp [V3.zero]
  · have hlx : e.basis.lx = k.lx := by rw [hk.basis]; rfl
    have hly : e.basis.ly = k.ly := by rw [hk.basis]; rfl
    refine ⟨_, _, _, gradErgodic_col hk _ _, rfl, rfl, ?_⟩
    rw [fdx_of_drives mu, hlx, hly]
    have hh : (motion x0 u t).c2 = headingAt x0 u t := rfl
    simp only [rhodot, Omni.fdx, hh, V3.neg, V3.sub, M3.t, M3.mulVec, V3.dot, real_add, real_sub,
      real_neg, real_mul, real_lit, real_cos, real_sin]
    refine ⟨(d0 t).congr_deriv ?_, (d1 t).congr_deriv ?_, (d2 t).congr_deriv ?_⟩ <;> norm_num <;> ring

/-! ## the full step can overshoot -/

/-- a planning problem of one second on the unit square with cheap controls -/
noncomputable def edgeTask : Task where
  lx := 1
  ly := 1
  n := 1
  phi := fun _ => 1
  past := fun _ => 0
  T := 1
  D := 1
  q := 1
  R := ⟨1 / 100, 1 / 100, 1 / 100⟩

theorem edge_controller : ∃ e : ErgodicControl ℝ, Solves e edgeTask ∧ e.model = omniModel ∧
    e.umin = ⟨-10, -10, -10⟩ ∧ e.umax = ⟨10, 10, 10⟩ := by
  obtain ⟨e0, -⟩ := demo_new
  let Ri : M3 ℝ := ⟨⟨1 / (1 / 100), 0, 0⟩, ⟨0, 1 / (1 / 100), 0⟩, ⟨0, 0, 1 / (1 / 100)⟩⟩
  let e1 : ErgodicControl ℝ := { e0 with model := omniModel, basis := Basis.new 1 1 1, phik := [1] }
  let e2 : ErgodicControl ℝ := { e1 with expl_weight := 1, Rinv := Ri, rhoT := V3.zero }
  refine ⟨{ e2 with umin := ⟨-10, -10, -10⟩, umax := ⟨10, 10, 10⟩ }, ⟨rfl, rfl, rfl, rfl, rfl, ?_, ?_, ?_, ?_, ?_⟩,
      rfl, rfl, rfl⟩ <;> simp only [edgeTask] <;> norm_num

/-- a robot at rest on the border of the map -/
def atRest : ℝ → V3 ℝ := fun _ => ⟨0, 0, 0⟩

/-- the co-state of the robot at rest on the border -/
noncomputable def edgeCoState (t : ℝ) : V3 ℝ := ⟨5 / 2 * (t - 1), 0, 0⟩

/-- the controller's update: leave the border as fast as possible, and brake at the very end -/
noncomputable def edgeUpdate (t : ℝ) : V3 ℝ := ⟨max (-10) (min 10 (250 * (1 - t))), 0, 0⟩

theorem edge_motion (t : ℝ) : motion ⟨0, 1 / 2, 0⟩ atRest t = ⟨0, 1 / 2, 0⟩ := by
  simp [motion, headingAt, atRest]

theorem edge_costate {e : ErgodicControl ℝ} (hk : Solves e edgeTask) (hm : e.model = omniModel) :
    CoState e edgeTask ⟨0, 1 / 2, 0⟩ atRest edgeCoState := by
  have hlx : e.basis.lx = 1 := by rw [hk.basis]; rfl
  have hly : e.basis.ly = 1 := by rw [hk.basis]; rfl
  refine ⟨by rw [hk.rhoT]; simp [edgeCoState, edgeTask, V3.zero], fun t => ?_⟩
  refine ⟨_, _, _, gradErgodic_col hk _ _, rfl, rfl, ?_⟩
  rw [fdx_of_drives (.inl hm), hlx, hly]
  simp only [edge_motion, barrierAxis_real, gradX, gradY, cosDx, cosDy, rhodot, Omni.fdx, V3.neg, V3.sub,
    M3.t, M3.mulVec, V3.dot, real_add, real_sub, real_neg, real_mul, real_lit, real_cos, real_sin, atRest,
    edgeTask, edgeCoState]
  refine ⟨?_, ?_, ?_⟩
  · have h := ((hasDerivAt_id t).sub_const 1).const_mul (5 / 2 : ℝ)
    refine h.congr_deriv ?_
    norm_num
  · refine (hasDerivAt_const t (0:ℝ)).congr_deriv ?_
    norm_num
  · refine (hasDerivAt_const t (0:ℝ)).congr_deriv ?_
    norm_num

theorem edge_update {e : ErgodicControl ℝ} (hk : Solves e edgeTask) (hm : e.model = omniModel)
    (h1 : e.umin = ⟨-10, -10, -10⟩) (h2 : e.umax = ⟨10, 10, 10⟩) (t : ℝ) :
    e.newControl (motion ⟨0, 1 / 2, 0⟩ atRest t) (edgeCoState t) = .ok (edgeUpdate t) := by
  have hl : ∀ x : ℝ, ErgodicControl.clampR x (-10) 10 = .ok (max (-10) (min 10 x)) := by
    intro x
    have : ∃ w, ErgodicControl.clampR x (-10) 10 = .ok w := by
      refine ⟨fclamp x (-10) 10, ?_⟩
      unfold ErgodicControl.clampR
      rw [if_neg (by rw [real_lt]; norm_num)]
    obtain ⟨w, hw⟩ := this
    rw [hw, (clampR_eq hw).2]
  have hv : (e.Rinv.neg.mul (e.model.fdu (motion ⟨0, 1 / 2, 0⟩ atRest t)).t).mulVec (edgeCoState t) =
      ⟨250 * (1 - t), 0, 0⟩ := by
    rw [hk.Rinv, hm, edge_motion]
    simp only [omniModel, Omni.fdu, M3.mul, M3.neg, M3.t, M3.mulVec, V3.neg, V3.dot, edgeCoState, edgeTask,
      real_add, real_mul, real_neg, real_lit, real_cos, real_sin, Real.cos_zero, Real.sin_zero]
    norm_num
    ring
  simp only [ErgodicControl.newControl, hv, h1, h2, hl, Res.ok_bind, edgeUpdate]
  norm_num

theorem rest_steady : Steady atRest := ⟨continuous_const, continuous_const, continuous_const⟩

/-- the cost of staying on the border -/
theorem edge_cost : edgeTask.planCost ⟨0, 1 / 2, 0⟩ atRest = 1 / 16 := by
  simp only [Task.planCost, Task.motionCost, Task.effort, Task.visits, edge_motion, edgeTask, atRest, cosBasis,
    barrier]
  norm_num

theorem edgeUpdate_early {s : ℝ} (h : s ≤ 1 / 2) : (edgeUpdate s).c0 = 10 := by
  simp only [edgeUpdate]
  rw [min_eq_left (by linarith), max_eq_right (by norm_num)]

theorem edgeUpdate_steady : Steady edgeUpdate := by
  refine ⟨?_, continuous_const, continuous_const⟩
  simp only [edgeUpdate]; fun_prop

theorem edge_path {t : ℝ} (h0 : 0 ≤ t) (h : t ≤ 1 / 2) : (motion ⟨0, 1 / 2, 0⟩ edgeUpdate t).c0 = 10 * t := by
  have hz : ∀ s, headingAt ⟨0, 1 / 2, 0⟩ edgeUpdate s = 0 := by
    intro s; simp [headingAt, edgeUpdate]
  simp only [motion, hz, Real.cos_zero, Real.sin_zero, mul_one, mul_zero, sub_zero, zero_add]
  rw [intervalIntegral.integral_congr (g := fun _ => (10:ℝ))]
  · simp [mul_comm]
  · intro s hs
    rw [Set.uIcc_of_le h0] at hs
    exact edgeUpdate_early (hs.2.trans h)

/-- the cost of the updated plan -/
theorem edge_overshoot : 15 < edgeTask.planCost ⟨0, 1 / 2, 0⟩ edgeUpdate := by
  have c0 := continuous_path0 (x0 := ⟨0, 1 / 2, 0⟩) edgeUpdate_steady
  have c1 := continuous_path1 (x0 := ⟨0, 1 / 2, 0⟩) edgeUpdate_steady
  have bn : ∀ l x, 0 ≤ barrier l x := by intro l x; unfold barrier; positivity
  have hc : Continuous fun t => barrier 1 (motion ⟨0, 1 / 2, 0⟩ edgeUpdate t).c0 +
      barrier 1 (motion ⟨0, 1 / 2, 0⟩ edgeUpdate t).c1 :=
    ((continuous_barrier 1).comp c0).add ((continuous_barrier 1).comp c1)
  have h1 : ∫ t in (1 / 4 : ℝ)..(1 / 2), (60.0625:ℝ) ≤ ∫ t in (1 / 4 : ℝ)..(1 / 2),
      (barrier 1 (motion ⟨0, 1 / 2, 0⟩ edgeUpdate t).c0 +
        barrier 1 (motion ⟨0, 1 / 2, 0⟩ edgeUpdate t).c1) := by
    refine intervalIntegral.integral_mono_on (by norm_num) intervalIntegrable_const
      (hc.intervalIntegrable _ _) ?_
    intro t ht
    rw [edge_path (by linarith [ht.1]) ht.2]
    have h2 : (60.0625:ℝ) ≤ barrier 1 (10 * t) := by
      unfold barrier
      have := ht.1
      rw [max_eq_right (by norm_num; linarith), max_eq_left (by norm_num; linarith)]
      norm_num
      nlinarith
    have := bn 1 (motion ⟨0, 1 / 2, 0⟩ edgeUpdate t).c1
    linarith
  have h2 : ∫ t in (1 / 4 : ℝ)..(1 / 2), (barrier 1 (motion ⟨0, 1 / 2, 0⟩ edgeUpdate t).c0 +
        barrier 1 (motion ⟨0, 1 / 2, 0⟩ edgeUpdate t).c1) ≤
      ∫ t in (0 : ℝ)..1, (barrier 1 (motion ⟨0, 1 / 2, 0⟩ edgeUpdate t).c0 +
        barrier 1 (motion ⟨0, 1 / 2, 0⟩ edgeUpdate t).c1) := by
    refine intervalIntegral.integral_mono_interval (by norm_num) (by norm_num) (by norm_num) ?_
      (hc.intervalIntegrable _ _)
    exact Filter.Eventually.of_forall fun t => add_nonneg (bn _ _) (bn _ _)
  rw [intervalIntegral.integral_const, smul_eq_mul] at h1
  norm_num at h1
  simp only [Task.planCost, Task.motionCost, Task.effort]
  have h3 : 0 ≤ edgeTask.q * (edgeTask.D / 2) * ∑ c ∈ range (edgeTask.n * edgeTask.n), freqWeight edgeTask.n c *
      (edgeTask.visits (motion ⟨0, 1 / 2, 0⟩ edgeUpdate) c - edgeTask.phi c) ^ 2 := by
    refine mul_nonneg (by simp only [edgeTask]; norm_num) (Finset.sum_nonneg fun c _ => ?_)
    refine mul_nonneg ?_ (sq_nonneg _)
    unfold freqWeight; positivity
  have h4 : 0 ≤ ∫ t in (0:ℝ)..edgeTask.T, (edgeTask.R.c0 * (edgeUpdate t).c0 ^ 2 +
      edgeTask.R.c1 * (edgeUpdate t).c1 ^ 2 + edgeTask.R.c2 * (edgeUpdate t).c2 ^ 2) / 2 := by
    refine intervalIntegral.integral_nonneg (by simp only [edgeTask]; norm_num) fun t _ => ?_
    simp only [edgeTask]; positivity
  have h5 : ∫ t in (0:ℝ)..edgeTask.T, (barrier edgeTask.lx (motion ⟨0, 1 / 2, 0⟩ edgeUpdate t).c0 +
      barrier edgeTask.ly (motion ⟨0, 1 / 2, 0⟩ edgeUpdate t).c1) =
      ∫ t in (0 : ℝ)..1, (barrier 1 (motion ⟨0, 1 / 2, 0⟩ edgeUpdate t).c0 +
        barrier 1 (motion ⟨0, 1 / 2, 0⟩ edgeUpdate t).c1) := rfl
  linarith

/-- C95: the code replaces the plan by its update instead of searching along the line towards it,
and that step can raise the cost: a robot at rest on the border is sent across the map and out of
the other side. -/
theorem C95_full_step : ∃ (e : ErgodicControl ℝ) (k : Task) (x0 : V3 ℝ) (u rho w : ℝ → V3 ℝ),
    Solves e k ∧ Limited e ∧ Steady u ∧ (∀ t, InBox e.umin (u t) e.umax) ∧ CoState e k x0 u rho ∧
    (∀ t, e.newControl (motion x0 u t) (rho t) = .ok (w t)) ∧
    k.planCost x0 u = 1 / 16 ∧ 15 < k.planCost x0 w := by
  obtain ⟨e, hk, hm, h1, h2⟩ := edge_controller
  refine ⟨e, edgeTask, ⟨0, 1 / 2, 0⟩, atRest, edgeCoState, edgeUpdate, hk, .inl hm, rest_steady, ?_,
    edge_costate hk hm, edge_update hk hm h1 h2, edge_cost, edge_overshoot⟩
  intro t
  rw [h1, h2, inBox_le]
  simp only [atRest]; norm_num

/-- C95_decrease applies to the robot at rest on the border -/
example : ∃ δ > 0, ∀ ε, 0 < ε → ε < δ →
    edgeTask.planCost ⟨0, 1 / 2, 0⟩ (nudge atRest (toward atRest edgeUpdate) ε) <
      edgeTask.planCost ⟨0, 1 / 2, 0⟩ atRest := by
  obtain ⟨e, hk, hm, h1, h2⟩ := edge_controller
  have hb : ∀ t, InBox e.umin (atRest t) e.umax := by
    intro t; rw [h1, h2, inBox_le]; simp only [atRest]; norm_num
  obtain ⟨δ, hδ, h⟩ := C95_decrease e edgeTask hk (.inl hm) ⟨0, 1 / 2, 0⟩ atRest edgeCoState edgeUpdate rest_steady
    hb (edge_costate hk hm) (edge_update hk hm h1 h2) 0 (by simp [edgeTask]) (by
      intro h
      have h0 := congrArg V3.c0 h
      rw [edgeUpdate_early (by norm_num)] at h0
      simp [atRest] at h0)
  exact ⟨δ, hδ, fun ε a b => (h ε a b).2⟩

end Ergodic
