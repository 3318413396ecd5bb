import Verif.Props.ErgodicTarget
import Mathlib.Analysis.Calculus.Deriv.Add
import Mathlib.Analysis.Calculus.Deriv.Pow

/-!
# Properties C63, C64, C75: barrier, control update and metric gradient
-/

namespace Ergodic
open Finset

/-! ## C63 barrier gradient -/

theorem hasDerivAt_posPart_sq (t : ℝ) : HasDerivAt (fun t : ℝ => (max 0 t) ^ 2) (2 * max 0 t) t := by
  rcases lt_trichotomy t 0 with h | h | h
  · rw [max_eq_left h.le, mul_zero]
    refine (hasDerivAt_const t (0:ℝ)).congr_of_eventuallyEq ?_
    filter_upwards [Iio_mem_nhds h] with s hs
    rw [max_eq_left (le_of_lt hs)]; norm_num
  · subst h
    have h1 : HasDerivWithinAt (fun t : ℝ => (max 0 t) ^ 2) (2 * max 0 0) (Set.Iic 0) 0 := by
      rw [max_self, mul_zero]
      refine (hasDerivWithinAt_const (0:ℝ) (Set.Iic (0:ℝ)) (0:ℝ)).congr ?_ (by norm_num)
      intro s hs
      simp only [Set.mem_Iic] at hs
      rw [max_eq_left hs]; norm_num
    have h2 : HasDerivWithinAt (fun t : ℝ => (max 0 t) ^ 2) (2 * max 0 0) (Set.Ici 0) 0 := by
      have hd : HasDerivAt (fun t : ℝ => t ^ 2) (2 * max 0 0) 0 := by
        refine (hasDerivAt_pow 2 (0:ℝ)).congr_deriv ?_
        norm_num
      refine hd.hasDerivWithinAt.congr ?_ (by norm_num)
      intro s hs
      simp only [Set.mem_Ici] at hs
      rw [max_eq_right hs]
    have := h1.union h2
    rwa [Set.Iic_union_Ici, hasDerivWithinAt_univ] at this
  · rw [max_eq_right h.le]
    have hd : HasDerivAt (fun t : ℝ => t ^ 2) (2 * t) t := by
      refine (hasDerivAt_pow 2 t).congr_deriv ?_
      norm_num
    refine hd.congr_of_eventuallyEq ?_
    filter_upwards [Ioi_mem_nhds h] with s hs
    rw [max_eq_right (le_of_lt hs)]

theorem barrierAxis_real (x l : ℝ) : ErgodicControl.barrierAxis x l =
    25 * (2 * max 0 (x - (l - 0.05)) - 2 * max 0 (0.05 - x)) := by
  have e : (lit 5 2 : ℝ) = 0.05 := by simp only [real_lit]; norm_num
  unfold ErgodicControl.barrierAxis b2f
  simp only [e]
  simp only [real_lit, real_sub, real_add, real_mul, real_lt]
  norm_num
  by_cases h1 : l - 1 / 20 < x <;> by_cases h2 : x < 1 / 20
  · rw [if_pos h1, if_pos h2, max_eq_right (by linarith), max_eq_right (by linarith)]; ring
  · rw [if_pos h1, if_neg h2, max_eq_right (by linarith), max_eq_left (by linarith)]; ring
  · rw [if_neg h1, if_pos h2, max_eq_left (by linarith), max_eq_right (by linarith)]; ring
  · rw [if_neg h1, if_neg h2, max_eq_left (by linarith), max_eq_left (by linarith)]; ring

/-- C63: every column of `gradBarrier` holds the derivatives of the quadratic barriers of the two
axes, at every position including the kinks, and zero for the heading. -/
theorem C63_gradient (e : ErgodicControl ℝ) (xt : List (V3 ℝ)) :
    (e.gradBarrier xt).length = xt.length ∧
    ∀ (i : Nat) (p : V3 ℝ), xt[i]? = some p → ∃ d, (e.gradBarrier xt)[i]? = some d ∧
      HasDerivAt (barrier e.basis.lx) d.c0 p.c0 ∧ HasDerivAt (barrier e.basis.ly) d.c1 p.c1 ∧
      d.c2 = 0 := by
  have key : ∀ l x : ℝ, HasDerivAt (barrier l) (ErgodicControl.barrierAxis x l) x := by
    intro l x
    have h1 : HasDerivAt (fun x : ℝ => (max 0 (x - (l - 0.05))) ^ 2) (2 * max 0 (x - (l - 0.05))) x := by
      have := (hasDerivAt_posPart_sq (x - (l - 0.05))).comp x ((hasDerivAt_id x).sub_const (l - 0.05))
      refine this.congr_deriv (by ring)
    have h2 : HasDerivAt (fun x : ℝ => (max 0 (0.05 - x)) ^ 2) (-(2 * max 0 (0.05 - x))) x := by
      have := (hasDerivAt_posPart_sq (0.05 - x)).comp x ((hasDerivAt_id x).const_sub 0.05)
      refine this.congr_deriv (by ring)
    have := (h1.add h2).const_mul 25
    rw [barrierAxis_real]
    refine this.congr_deriv (by ring)
  refine ⟨by simp [ErgodicControl.gradBarrier], ?_⟩
  intro i p hp
  refine ⟨_, by rw [ErgodicControl.gradBarrier, List.getElem?_map, hp, Option.map_some], key _ _,
    key _ _, ?_⟩
  simp

/-- C63: the gradient is zero exactly in the interior, to which it pushes back (the co-state flows
against it): negative near the lower border, positive near the upper one. -/
theorem C63_signs (l x : ℝ) (hl : 0.1 ≤ l) :
    (ErgodicControl.barrierAxis x l = 0 ↔ 0.05 ≤ x ∧ x ≤ l - 0.05) ∧
    (ErgodicControl.barrierAxis x l < 0 ↔ x < 0.05) ∧
    (0 < ErgodicControl.barrierAxis x l ↔ l - 0.05 < x) := by
  rw [barrierAxis_real]
  rcases lt_or_ge x 0.05 with h | h
  · rw [max_eq_left (show x - (l - 0.05) ≤ 0 by linarith), max_eq_right (by linarith)]
    refine ⟨⟨fun h' => by linarith, fun h' => by linarith [h'.1]⟩, ⟨fun _ => h, fun _ => by linarith⟩,
      ⟨fun h' => by linarith, fun h' => by linarith⟩⟩
  · rw [max_eq_left (show 0.05 - x ≤ 0 by linarith)]
    rcases le_or_gt x (l - 0.05) with h' | h'
    · rw [max_eq_left (by linarith)]
      refine ⟨⟨fun _ => ⟨h, h'⟩, fun _ => by ring⟩, ⟨fun q => by linarith, fun q => by linarith⟩,
        ⟨fun q => by linarith, fun q => by linarith⟩⟩
    · rw [max_eq_right (by linarith)]
      refine ⟨⟨fun q => by linarith, fun q => by linarith [q.2]⟩,
        ⟨fun q => by linarith, fun q => by linarith⟩, ⟨fun _ => h', fun _ => by linarith⟩⟩

example : (0.1 : ℝ) ≤ 8 := by norm_num

/-! ## C64 the control update minimises the Hamiltonian -/

theorem clamp_min (R c lo hi w u : ℝ) (hR : 0 < R) (hc : ErgodicControl.clampR (-(c / R)) lo hi = .ok w)
    (h1 : lo ≤ u) (h2 : u ≤ hi) :
    R * w ^ 2 / 2 + c * w + R / 2 * (u - w) ^ 2 ≤ R * u ^ 2 / 2 + c * u := by
  unfold ErgodicControl.clampR fclamp at hc
  have hcR : c = c / R * R := by field_simp
  generalize c / R = q at hc hcR
  subst hcR
  by_cases h0 : Flt.lt hi lo = true
  · rw [if_pos h0] at hc; simp at hc
  · rw [if_neg h0, Res.ok.injEq] at hc
    by_cases h3 : Flt.lt (-q) lo = true
    · rw [if_pos h3] at hc
      subst hc
      rw [real_lt] at h3
      nlinarith [mul_nonneg hR.le (mul_nonneg (sub_nonneg.mpr h1) (by linarith : 0 ≤ lo + q))]
    · rw [if_neg h3] at hc
      by_cases h4 : Flt.lt hi (-q) = true
      · rw [if_pos h4] at hc
        subst hc
        rw [real_lt] at h4
        nlinarith [mul_nonneg hR.le (mul_nonneg (sub_nonneg.mpr h2) (by linarith : 0 ≤ -(hi + q)))]
      · rw [if_neg h4] at hc
        subst hc
        nlinarith

/-- C64: with a diagonal positive control weight `R` the updated control lies in the box and every
control `v` of the box has a Hamiltonian larger by at least `½ (v - u)ᵀ R (v - u)`; so the update
is the unique minimiser. -/
theorem C64_minimises (e : ErgodicControl ℝ) (R x rho u : V3 ℝ) (h0 : 0 < R.c0) (h1 : 0 < R.c1)
    (h2 : 0 < R.c2)
    (hR : e.Rinv = ⟨⟨1 / R.c0, 0, 0⟩, ⟨0, 1 / R.c1, 0⟩, ⟨0, 0, 1 / R.c2⟩⟩)
    (h : e.newControl x rho = .ok u) :
    InBox e.umin u e.umax ∧ ∀ v, InBox e.umin v e.umax →
      hamiltonian R rho (e.model.fdu x) u +
        (R.c0 * (v.c0 - u.c0) ^ 2 + R.c1 * (v.c1 - u.c1) ^ 2 + R.c2 * (v.c2 - u.c2) ^ 2) / 2 ≤
      hamiltonian R rho (e.model.fdu x) v := by
  have hAt : ∀ a b : ℝ, AtMost a b ↔ a ≤ b := by
    intro a b; simp only [AtMost, real_lt]; exact le_iff_lt_or_eq.symm
  simp only [ErgodicControl.newControl, Res.bind_eq_ok, Res.ok.injEq, hR] at h
  obtain ⟨u0, g0, u1, g1, u2, g2, rfl⟩ := h
  refine ⟨(inBox_real _ _ _).mp ⟨clampR_ok g0, clampR_ok g1, clampR_ok g2⟩, ?_⟩
  intro v hv
  simp only [InBox, hAt] at hv
  obtain ⟨⟨a0, b0⟩, ⟨a1, b1⟩, ⟨a2, b2⟩⟩ := hv
  generalize e.model.fdu x = B at g0 g1 g2 ⊢
  have e0 : ((M3.neg ⟨⟨1 / R.c0, 0, 0⟩, ⟨0, 1 / R.c1, 0⟩, ⟨0, 0, 1 / R.c2⟩⟩ : M3 ℝ).mul B.t).mulVec rho =
      ⟨-((B.r0.c0 * rho.c0 + B.r1.c0 * rho.c1 + B.r2.c0 * rho.c2) / R.c0),
       -((B.r0.c1 * rho.c0 + B.r1.c1 * rho.c1 + B.r2.c1 * rho.c2) / R.c1),
       -((B.r0.c2 * rho.c0 + B.r1.c2 * rho.c1 + B.r2.c2 * rho.c2) / R.c2)⟩ := by
    simp only [M3.neg, M3.mul, M3.mulVec, M3.t, V3.neg, V3.dot, real_add, real_mul, real_neg]
    ext <;> simp only [] <;> ring
  rw [e0] at g0 g1 g2
  have m0 := clamp_min _ _ _ _ _ v.c0 h0 g0 a0 b0
  have m1 := clamp_min _ _ _ _ _ v.c1 h1 g1 a1 b1
  have m2 := clamp_min _ _ _ _ _ v.c2 h2 g2 a2 b2
  simp only [hamiltonian]
  linarith

/-- C64: the update always exists when no upper limit is below its lower limit. -/
theorem C64_total (e : ErgodicControl ℝ) (x rho : V3 ℝ) (h0 : e.umin.c0 ≤ e.umax.c0)
    (h1 : e.umin.c1 ≤ e.umax.c1) (h2 : e.umin.c2 ≤ e.umax.c2) : ∃ u, e.newControl x rho = .ok u := by
  have a0 : Flt.lt e.umax.c0 e.umin.c0 = false := by rwa [real_lt_false]
  have a1 : Flt.lt e.umax.c1 e.umin.c1 = false := by rwa [real_lt_false]
  have a2 : Flt.lt e.umax.c2 e.umin.c2 = false := by rwa [real_lt_false]
  simp [ErgodicControl.newControl, ErgodicControl.clampR, a0, a1, a2]

/-- the diagonal is needed: with a coupled weight the clamped update is not the minimiser -/
theorem C64_coupled_weight : ∃ (e : ErgodicControl ℝ) (x rho u v : V3 ℝ),
    e.newControl x rho = .ok u ∧ InBox e.umin v e.umax ∧
    e.Rinv = ⟨⟨2 / 3, -(1 / 3), 0⟩, ⟨-(1 / 3), 2 / 3, 0⟩, ⟨0, 0, 1⟩⟩ ∧
    -- the inverse of Rinv is [[2,1,0],[1,2,0],[0,0,1]]
    (2 * v.c0 ^ 2 + 2 * v.c0 * v.c1 + 2 * v.c1 ^ 2 + v.c2 ^ 2) / 2 +
        (rho.c0 * v.c0 + rho.c1 * v.c1 + rho.c2 * v.c2) <
      (2 * u.c0 ^ 2 + 2 * u.c0 * u.c1 + 2 * u.c1 ^ 2 + u.c2 ^ 2) / 2 +
        (rho.c0 * u.c0 + rho.c1 * u.c1 + rho.c2 * u.c2) ∧ e.model.fdu x = ⟨⟨1, 0, 0⟩, ⟨0, 1, 0⟩, ⟨0, 0, 1⟩⟩ := by
  obtain ⟨e0, hb, -⟩ := demo_new
  have hi := hb.inv
  refine ⟨{ e0 with Rinv := ⟨⟨2 / 3, -(1 / 3), 0⟩, ⟨-(1 / 3), 2 / 3, 0⟩, ⟨0, 0, 1⟩⟩ }, ⟨0, 0, 0⟩, ⟨-6, 0, 0⟩,
    ⟨1, -1, 0⟩, ⟨1, -1 / 2, 0⟩, ?_, ?_, rfl, by norm_num, ?_⟩
  · simp only [ErgodicControl.newControl, hi.model_eq, hi.umin_eq, hi.umax_eq]
    have : ((M3.neg ⟨⟨2 / 3, -(1 / 3), 0⟩, ⟨-(1 / 3), 2 / 3, 0⟩, ⟨0, 0, 1⟩⟩ : M3 ℝ).mul
        (omniModel.fdu (⟨0, 0, 0⟩ : V3 ℝ)).t).mulVec ⟨-6, 0, 0⟩ = ⟨4, -2, 0⟩ := by
      simp only [omniModel, Omni.fdu, M3.neg, M3.mul, M3.mulVec, M3.t, V3.neg, V3.dot, real_add, real_mul,
        real_neg, real_cos, real_sin, real_lit, Real.cos_zero, Real.sin_zero]
      norm_num
    rw [this]
    simp only [ErgodicControl.clampR, fclamp, real_lt]
    norm_num
  · have hAt : ∀ a b : ℝ, AtMost a b ↔ a ≤ b := by
      intro a b; simp only [AtMost, real_lt]; exact le_iff_lt_or_eq.symm
    simp only [InBox, hAt, hi.umin_eq, hi.umax_eq]
    norm_num
  · simp only [hi.model_eq, omniModel, Omni.fdu, real_cos, real_sin, real_lit, real_neg, Real.cos_zero,
      Real.sin_zero]
    norm_num

/-! ## C75 the metric gradient -/

theorem sum_eq_getD (l : List ℝ) : l.sum = ∑ c ∈ range l.length, l[c]?.getD 0 := by
  induction l with
  | nil => simp
  | cons x l ih =>
    rw [List.sum_cons, List.length_cons, Finset.sum_range_succ', ih]
    simp [add_comm]

theorem numbers_get (n c : Nat) (hc : c < n * n) :
    (Basis.numbers n)[c]? = some (((c % n : Nat) : Int), ((c / n : Nat) : Int)) := by
  rw [numbers_eq, List.getElem?_map, List.getElem?_range hc]; rfl

theorem index_split (n c : Nat) (hc : c < n * n) : c / n < n ∧ c % n < n ∧ c / n * n + c % n = c := by
  have hn : 0 < n := Nat.pos_of_ne_zero fun h => by subst h; simp at hc
  exact ⟨Nat.div_lt_of_lt_mul hc, Nat.mod_lt _ hn, Nat.div_add_mod' c n⟩

theorem sum_set (f : V3 ℝ → ℝ) (pre xs : List (V3 ℝ)) (m : Nat) (hm : m < xs.length) :
    ∃ A, ∀ y, ((pre ++ xs.set m y).map f).sum = A + f y := by
  refine ⟨(pre.map f).sum + ((xs.take m).map f).sum + ((xs.drop (m + 1)).map f).sum, ?_⟩
  intro y
  rw [List.set_eq_take_append_cons_drop, if_pos hm]
  simp only [List.map_append, List.sum_append, List.map_cons, List.sum_cons]
  ring

/-- the derivative of the metric along one coordinate of one point -/
theorem metric_deriv (lx ly : ℝ) (n : ℕ) (phi : ℕ → ℝ) (pre xs : List (V3 ℝ)) (m : Nat)
    (hm : m < xs.length) (γ : ℝ → V3 ℝ) (s : ℝ) (hγ : xs[m] = γ s) (D : Nat → ℝ)
    (hD : ∀ c, c < n * n → HasDerivAt (fun t => cosBasis lx ly (c % n) (c / n) (γ t).c0 (γ t).c1) (D c) s) :
    HasDerivAt (fun t => ergodicMetric lx ly n phi (pre ++ xs.set m (γ t)))
      (∑ c ∈ range (n * n),
        (1 + Real.sqrt (((c % n : ℕ) : ℝ) ^ 2 + ((c / n : ℕ) : ℝ) ^ 2)) ^ (-(3 / 2) : ℝ) *
          (2 * (((pre ++ xs).map fun p => cosBasis lx ly (c % n) (c / n) p.c0 p.c1).sum /
            (pre ++ xs).length - phi c) * (D c / (pre ++ xs).length))) s := by
  have hxs : pre ++ xs.set m (γ s) = pre ++ xs := by rw [← hγ]; simp
  unfold ergodicMetric
  apply HasDerivAt.fun_sum
  intro c hc
  rw [Finset.mem_range] at hc
  obtain ⟨A, hA⟩ := sum_set (fun p => cosBasis lx ly (c % n) (c / n) p.c0 p.c1) pre xs m hm
  have hlen : ∀ t, (pre ++ xs.set m (γ t)).length = (pre ++ xs).length := by intro t; simp
  have h1 : HasDerivAt (fun t => ((pre ++ xs.set m (γ t)).map fun p =>
      cosBasis lx ly (c % n) (c / n) p.c0 p.c1).sum / (pre ++ xs.set m (γ t)).length - phi c)
      (D c / (pre ++ xs).length) s := by
    simp only [hA, hlen]
    exact (((hD c hc).const_add A).div_const _).sub_const _
  have h2 := (h1.pow 2).const_mul
    ((1 + Real.sqrt (((c % n : ℕ) : ℝ) ^ 2 + ((c / n : ℕ) : ℝ) ^ 2)) ^ (-(3 / 2) : ℝ))
  refine h2.congr_deriv ?_
  rw [hxs]
  norm_num

/-- C75: the columns of `gradErgodicMetric` are the gradient of the ergodic metric with respect to
the points of the trajectory, times the exploration weight and half the number of columns
(remembered states included). -/
theorem C75_gradient (e : ErgodicControl ℝ) (lx ly : ℝ) (n : Nat) (hb : e.basis = Basis.new lx ly n)
    (hp : e.phik.length = n * n) (pre xs : List (V3 ℝ)) (m : Nat) (p : V3 ℝ) (hm : xs[m]? = some p) :
    ∃ d D0 D1, (e.gradErgodicMetric (e.basis.trajCoeff (pre ++ xs)) xs)[m]? = some d ∧
      HasDerivAt (fun s => ergodicMetric lx ly n (fun c => e.phik[c]?.getD 0)
        (pre ++ xs.set m ⟨s, p.c1, p.c2⟩)) D0 p.c0 ∧
      HasDerivAt (fun s => ergodicMetric lx ly n (fun c => e.phik[c]?.getD 0)
        (pre ++ xs.set m ⟨p.c0, s, p.c2⟩)) D1 p.c1 ∧
      d.c0 = e.expl_weight * ((pre ++ xs).length / 2) * D0 ∧
      d.c1 = e.expl_weight * ((pre ++ xs).length / 2) * D1 ∧ d.c2 = 0 := by
  rw [List.getElem?_eq_some_iff] at hm
  obtain ⟨hlt, hpm⟩ := hm
  have hN : (0:ℝ) < ((pre ++ xs).length : ℝ) := by
    have : 0 < (pre ++ xs).length := by simp; omega
    exact_mod_cast this
  -- derivatives of the basis functions
  have hD : ∀ c, c < n * n →
      (e.basis.gradFourierBasis ⟨p.c0, p.c1⟩)[c]? = some (e.basis.dfk ⟨p.c0, p.c1⟩
        (((c % n : Nat) : Int), ((c / n : Nat) : Int))) ∧
      HasDerivAt (fun x => cosBasis lx ly (c % n) (c / n) x p.c1) (e.basis.dfk ⟨p.c0, p.c1⟩
        (((c % n : Nat) : Int), ((c / n : Nat) : Int))).c0 p.c0 ∧
      HasDerivAt (fun y => cosBasis lx ly (c % n) (c / n) p.c0 y) (e.basis.dfk ⟨p.c0, p.c1⟩
        (((c % n : Nat) : Int), ((c / n : Nat) : Int))).c1 p.c1 := by
    intro c hc
    obtain ⟨h1, h2, h3⟩ := index_split n c hc
    obtain ⟨d, hd, hd0, hd1⟩ := C40_gradient lx ly n (c / n) (c % n) h1 h2 p.c0 p.c1
    rw [h3] at hd
    have hk : (Basis.new lx ly n).k[c]? = some (((c % n : Nat) : Int), ((c / n : Nat) : Int)) :=
      numbers_get n c hc
    have hd' : ((Basis.new lx ly n).gradFourierBasis ⟨p.c0, p.c1⟩)[c]? =
        some ((Basis.new lx ly n).dfk ⟨p.c0, p.c1⟩ (((c % n : Nat) : Int), ((c / n : Nat) : Int))) := by
      unfold Basis.gradFourierBasis; rw [List.getElem?_map, hk]; rfl
    rw [hd', Option.some.injEq] at hd
    rw [hb]
    exact ⟨hd', by rw [hd]; exact hd0, by rw [hd]; exact hd1⟩
  have m0 := metric_deriv lx ly n (fun c => e.phik[c]?.getD 0) pre xs m hlt
    (fun s => ⟨s, p.c1, p.c2⟩) p.c0 (by rw [hpm])
    (fun c => (e.basis.dfk ⟨p.c0, p.c1⟩ (((c % n : Nat) : Int), ((c / n : Nat) : Int))).c0)
    (fun c hc => (hD c hc).2.1)
  have m1 := metric_deriv lx ly n (fun c => e.phik[c]?.getD 0) pre xs m hlt
    (fun s => ⟨p.c0, s, p.c2⟩) p.c1 (by rw [hpm])
    (fun c => (e.basis.dfk ⟨p.c0, p.c1⟩ (((c % n : Nat) : Int), ((c / n : Nat) : Int))).c1)
    (fun c hc => (hD c hc).2.2)
  -- the lists behind the column
  have hlam : ∀ c, c < n * n → e.basis.lamdak[c]? =
      some ((1 + Real.sqrt (((c % n : ℕ) : ℝ) ^ 2 + ((c / n : ℕ) : ℝ) ^ 2)) ^ (-(3 / 2) : ℝ)) := by
    intro c hc
    obtain ⟨h1, h2, h3⟩ := index_split n c hc
    have := C74_weights lx ly n (c / n) (c % n) h1 h2
    rwa [h3, ← hb] at this
  have hck : ∀ c, c < n * n → (e.basis.trajCoeff (pre ++ xs))[c]? =
      some (((pre ++ xs).map fun p => cosBasis lx ly (c % n) (c / n) p.c0 p.c1).sum /
        (pre ++ xs).length) := by
    intro c hc
    obtain ⟨h1, h2, h3⟩ := index_split n c hc
    have := C41_time_average lx ly n (c / n) (c % n) h1 h2 (pre ++ xs)
    rwa [h3, ← hb] at this
  have hlens : e.basis.lamdak.length = n * n ∧ (e.basis.trajCoeff (pre ++ xs)).length = n * n ∧
      (e.basis.gradFourierBasis ⟨p.c0, p.c1⟩).length = n * n := by
    rw [hb]
    refine ⟨(C39_enumeration ℝ lx ly n).2.2.2, ?_, ?_⟩
    · rw [Basis.trajCoeff, List.length_map]; exact (C39_enumeration ℝ lx ly n).1
    · rw [Basis.gradFourierBasis, List.length_map]; exact (C39_enumeration ℝ lx ly n).1
  have hsum : ∀ (f : V2 ℝ → ℝ), (List.zipWith (fun d w => f d * w)
      (e.basis.gradFourierBasis ⟨p.c0, p.c1⟩)
      (List.zipWith (fun l d => l * d) e.basis.lamdak
        (List.zipWith (fun c q => c - q) (e.basis.trajCoeff (pre ++ xs)) e.phik))).sum =
      ∑ c ∈ range (n * n), f (e.basis.dfk ⟨p.c0, p.c1⟩
        (((c % n : Nat) : Int), ((c / n : Nat) : Int))) *
        ((1 + Real.sqrt (((c % n : ℕ) : ℝ) ^ 2 + ((c / n : ℕ) : ℝ) ^ 2)) ^ (-(3 / 2) : ℝ) *
          (((pre ++ xs).map fun p => cosBasis lx ly (c % n) (c / n) p.c0 p.c1).sum /
        (pre ++ xs).length - e.phik[c]?.getD 0)) := by
    intro f
    rw [sum_eq_getD]
    have hl : (List.zipWith (fun d w => f d * w) (e.basis.gradFourierBasis ⟨p.c0, p.c1⟩)
      (List.zipWith (fun l d => l * d) e.basis.lamdak
        (List.zipWith (fun c q => c - q) (e.basis.trajCoeff (pre ++ xs)) e.phik))).length = n * n := by
      simp [hlens.1, hlens.2.1, hlens.2.2, hp]
    rw [hl]
    apply Finset.sum_congr rfl
    intro c hc
    rw [Finset.mem_range] at hc
    have hph : e.phik[c]? = some (e.phik[c]'(by omega)) := List.getElem?_eq_getElem _
    simp only [List.getElem?_zipWith, (hD c hc).1, hlam c hc, hck c hc, hph, Option.getD_some]
  have hcol : (e.gradErgodicMetric (e.basis.trajCoeff (pre ++ xs)) xs)[m]? = some
      ⟨(List.zipWith (fun d w => d.c0 * w) (e.basis.gradFourierBasis ⟨p.c0, p.c1⟩)
        (List.zipWith (fun l d => l * d) e.basis.lamdak
          (List.zipWith (fun c q => c - q) (e.basis.trajCoeff (pre ++ xs)) e.phik))).sum * e.expl_weight,
       (List.zipWith (fun d w => d.c1 * w) (e.basis.gradFourierBasis ⟨p.c0, p.c1⟩)
        (List.zipWith (fun l d => l * d) e.basis.lamdak
          (List.zipWith (fun c q => c - q) (e.basis.trajCoeff (pre ++ xs)) e.phik))).sum * e.expl_weight,
       0⟩ := by
    simp only [ErgodicControl.gradErgodicMetric]
    rw [List.getElem?_map, List.getElem?_eq_getElem hlt, hpm, Option.map_some]
    simp only [ErgodicControl.gradTimes, fsum_real, V3.xy, real_mul, real_sub, real_lit, Int.cast_zero,
      zero_div]
  rw [hsum (fun d => d.c0), hsum (fun d => d.c1)] at hcol
  refine ⟨_, _, _, hcol, m0, m1, ?_, ?_, rfl⟩
  all_goals
    simp only [Finset.mul_sum, Finset.sum_mul]
    apply Finset.sum_congr rfl
    intro c _
    field_simp

/-- the hypotheses of C75 hold of every constructed controller -/
theorem C75_applies {model : TwistModel ℝ} {collision : Collision ℝ}
    {dt horizon resolution weight : ℝ} {num_basis buffer_size batch_size : Nat} {Rinv : M3 ℝ}
    {umin umax : V3 ℝ} {e : ErgodicControl ℝ}
    (hb : EcBuilt model collision dt horizon resolution weight num_basis buffer_size batch_size Rinv
      umin umax e) :
    e.basis = Basis.new e.basis.lx e.basis.ly num_basis ∧ e.phik.length = num_basis * num_basis := by
  obtain ⟨lx, ly, h⟩ := hb.inv.basis_eq
  exact ⟨by rw [h]; rfl, hb.inv.phik_length⟩

end Ergodic
