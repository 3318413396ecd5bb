import Verif.Props.Speed
import Verif.Props.ErgodicTarget
import Verif.Props.ErgodicUpdate
import Mathlib.Analysis.Calculus.MeanValue

/-!
# Property C92: the co-states are exact, and how large they get

Exact arithmetic.  Over one time step the gradients and the Jacobian are constant, and the co-state
equation is `ρ̇ = -s - Aᵀρ` with `s` the sum of the two gradients.  Runge-Kutta steps are exact for the
models of this package because only the heading column of their Jacobian is non-zero.
-/

namespace Ergodic
open Real

/-- `ρ` solves the co-state equation with gradients `g`, `b` and Jacobian `A`. -/
def Adjoint (g b : V3 ℝ) (A : M3 ℝ) (r : ℝ → V3 ℝ) : Prop :=
  ∀ t, HasDerivAt (fun t => (r t).c0)
      (-g.c0 - b.c0 - (A.r0.c0 * (r t).c0 + A.r1.c0 * (r t).c1 + A.r2.c0 * (r t).c2)) t ∧
    HasDerivAt (fun t => (r t).c1)
      (-g.c1 - b.c1 - (A.r0.c1 * (r t).c0 + A.r1.c1 * (r t).c1 + A.r2.c1 * (r t).c2)) t ∧
    HasDerivAt (fun t => (r t).c2)
      (-g.c2 - b.c2 - (A.r0.c2 * (r t).c0 + A.r1.c2 * (r t).c1 + A.r2.c2 * (r t).c2)) t

/-- only the last column of the first two rows is non-zero -/
def HeadingColumn (A : M3 ℝ) : Prop :=
  A.r0.c0 = 0 ∧ A.r0.c1 = 0 ∧ A.r1.c0 = 0 ∧ A.r1.c1 = 0 ∧ A.r2.c0 = 0 ∧ A.r2.c1 = 0 ∧ A.r2.c2 = 0

theorem omni_headingColumn (x u : V3 ℝ) : HeadingColumn (Omni.fdx x u) := by
  simp [HeadingColumn, Omni.fdx]

theorem simpleCart_headingColumn (x u : V3 ℝ) : HeadingColumn (SimpleCart.fdx x u) := by
  simp [HeadingColumn, SimpleCart.fdx]

theorem cart_headingColumn (m : Cart ℝ) (x : V3 ℝ) (u : V2 ℝ) : HeadingColumn (m.fdx x u) := by
  simp [HeadingColumn, Cart.fdx]

theorem mecanum_headingColumn (m : Mecanum ℝ) (x : V3 ℝ) (u : V4 ℝ) : HeadingColumn (m.fdx x u) := by
  simp [HeadingColumn, Mecanum.fdx]

/-- a backward step in closed form -/
theorem stepBack_heading (dt : ℝ) (rho g b : V3 ℝ) (A : M3 ℝ) (hA : HeadingColumn A) :
    RungeKutta.stepBack dt rhodot rho g b A =
      ⟨rho.c0 + dt * (g.c0 + b.c0), rho.c1 + dt * (g.c1 + b.c1),
       rho.c2 + dt * (g.c2 + b.c2 + (A.r0.c2 * rho.c0 + A.r1.c2 * rho.c1)) +
         dt ^ 2 / 2 * (A.r0.c2 * (g.c0 + b.c0) + A.r1.c2 * (g.c1 + b.c1))⟩ := by
  obtain ⟨h1, h2, h3, h4, h5, h6, h7⟩ := hA
  rw [C52_taylor]
  ext <;> simp only [V3.add, V3.sub, V3.neg, V3.smul, M3.mulVec, M3.t, V3.dot, real_add, real_sub, real_neg,
    real_mul, h1, h2, h3, h4, h5, h6, h7] <;> ring

/-- C92: a backward step of any of the models is the exact solution of the co-state equation: every
solution that passes through `rho` at the end of the step passes through the result at its start. -/
theorem C92_step (dt : ℝ) (rho g b : V3 ℝ) (A : M3 ℝ) (hA : HeadingColumn A) :
    (∃ r, Adjoint g b A r ∧ r dt = rho) ∧
    ∀ r, Adjoint g b A r → r dt = rho → r 0 = RungeKutta.stepBack dt rhodot rho g b A := by
  have key : ∀ rho : V3 ℝ, ∃ r, Adjoint g b A r ∧ r dt = rho ∧
      r 0 = RungeKutta.stepBack dt rhodot rho g b A := by
    intro rho
    refine ⟨fun t => RungeKutta.stepBack (dt - t) rhodot rho g b A, ?_, ?_, by simp⟩
    · intro t
      have hA' := hA
      obtain ⟨h1, h2, h3, h4, h5, h6, h7⟩ := hA'
      simp only [stepBack_heading _ _ _ _ _ hA, h1, h2, h3, h4, h5, h6, h7]
      have hd : HasDerivAt (fun t : ℝ => dt - t) (-1) t := by
        simpa using (hasDerivAt_id t).const_sub dt
      refine ⟨?_, ?_, ?_⟩
      · have h := (hd.mul_const (g.c0 + b.c0)).const_add rho.c0
        refine h.congr_deriv ?_
        ring
      · have h := (hd.mul_const (g.c1 + b.c1)).const_add rho.c1
        refine h.congr_deriv ?_
        ring
      · have h := ((hd.mul_const (g.c2 + b.c2 + (A.r0.c2 * rho.c0 + A.r1.c2 * rho.c1))).const_add
          rho.c2).add (((hd.pow 2).div_const 2).mul_const
            (A.r0.c2 * (g.c0 + b.c0) + A.r1.c2 * (g.c1 + b.c1)))
        refine h.congr_deriv ?_
        simp; ring
    · simp only [sub_self, stepBack_heading _ _ _ _ _ hA]
      cases rho; simp
  obtain ⟨q, hq, hqt, hq0⟩ := key rho
  refine ⟨⟨q, hq, hqt⟩, ?_⟩
  intro r hr hrt
  rw [← hq0]
  obtain ⟨h1, h2, h3, h4, h5, h6, h7⟩ := hA
  have const : ∀ f : ℝ → ℝ, (∀ t, HasDerivAt f 0 t) → f 0 = f dt := fun f hf =>
    is_const_of_deriv_eq_zero (fun t => (hf t).differentiableAt) (fun t => (hf t).deriv) 0 dt
  have e0 : ∀ t, (r t).c0 - (q t).c0 = 0 ∧ (r t).c1 - (q t).c1 = 0 := by
    have all : ∀ f : ℝ → ℝ, (∀ t, HasDerivAt f 0 t) → ∀ t, f t = f dt := fun f hf t =>
      is_const_of_deriv_eq_zero (fun t => (hf t).differentiableAt) (fun t => (hf t).deriv) t dt
    intro t
    constructor
    · rw [all (fun t => (r t).c0 - (q t).c0) (fun t => by
        exact ((hr t).1.sub (hq t).1).congr_deriv (by rw [h1, h3, h5]; ring)) t, hrt, hqt, sub_self]
    · rw [all (fun t => (r t).c1 - (q t).c1) (fun t => by
        exact ((hr t).2.1.sub (hq t).2.1).congr_deriv (by rw [h2, h4, h6]; ring)) t, hrt, hqt, sub_self]
  have e2 : (r 0).c2 - (q 0).c2 = 0 := by
    rw [const (fun t => (r t).c2 - (q t).c2) (fun t => by
      exact ((hr t).2.2.sub (hq t).2.2).congr_deriv (by
        rw [h7, sub_eq_zero.mp (e0 t).1, sub_eq_zero.mp (e0 t).2]; ring)), hrt, hqt, sub_self]
  ext
  · exact sub_eq_zero.mp (e0 0).1
  · exact sub_eq_zero.mp (e0 0).2
  · exact sub_eq_zero.mp e2

variable {U : Type}

/-- C92 for the whole pass. -/
theorem C92_exact (dt horizon : ℝ) (fdx : V3 ℝ → U → M3 ℝ) (hA : ∀ x u, HeadingColumn (fdx x u))
    (rhoT : V3 ℝ) (xt : List (V3 ℝ)) (ut : List U) (edx bdx rs : List (V3 ℝ))
    (h : RungeKutta.solveBack dt rhodot fdx rhoT xt ut edx bdx horizon = .ok rs) (i : Nat) (r : V3 ℝ)
    (hr : rs[i]? = some r) :
    ∃ g b x u, edx[i]? = some g ∧ bdx[i]? = some b ∧ xt[i]? = some x ∧ ut[i]? = some u ∧
      (∃ p, Adjoint g b (fdx x u) p ∧ p dt = rs[i + 1]?.getD rhoT) ∧
      ∀ p, Adjoint g b (fdx x u) p → p dt = rs[i + 1]?.getD rhoT → p 0 = r := by
  obtain ⟨n, -, hl, hs⟩ := C52_structure dt horizon _ fdx rhoT xt ut edx bdx rs h
  have hi : i < rs.length := by
    by_contra hc
    rw [List.getElem?_eq_none (by omega)] at hr; simp at hr
  obtain ⟨g, b, x, u, h1, h2, h3, h4, h5⟩ := hs i (by omega)
  refine ⟨g, b, x, u, h1, h2, h3, h4, ?_⟩
  rw [hr, Option.some.injEq] at h5
  subst h5
  exact C92_step dt _ g b _ (hA x u)

/-- two-norm of the first two entries, of a sum -/
theorem speed_add (a b : V3 ℝ) (s : ℝ) :
    speed ⟨a.c0 + s * b.c0, a.c1 + s * b.c1, 0⟩ ≤ speed a + |s| * speed b := by
  have h := planar_triangle ⟨a.c0 + s * b.c0, a.c1 + s * b.c1, 0⟩ a ⟨0, 0, 0⟩
  have h1 : planar ⟨a.c0 + s * b.c0, a.c1 + s * b.c1, 0⟩ a = |s| * speed b := by
    simp only [planar, speed, add_sub_cancel_left]
    rw [show (s * b.c0) ^ 2 + (s * b.c1) ^ 2 = s ^ 2 * (b.c0 ^ 2 + b.c1 ^ 2) by ring,
      sqrt_mul (sq_nonneg s), sqrt_sq_eq_abs]
  have h2 : planar a ⟨0, 0, 0⟩ = speed a := by simp [planar, speed]
  have h3 : planar ⟨a.c0 + s * b.c0, a.c1 + s * b.c1, 0⟩ ⟨0, 0, 0⟩ =
      speed ⟨a.c0 + s * b.c0, a.c1 + s * b.c1, 0⟩ := by simp [planar, speed]
  linarith

theorem dot_le_speed (a b c d : ℝ) (e f : ℝ) : |a * c + b * d| ≤ speed ⟨a, b, e⟩ * speed ⟨c, d, f⟩ := by
  rw [speed, speed, ← sqrt_mul (by positivity)]
  apply abs_le_sqrt
  nlinarith [sq_nonneg (a * d - b * c)]

/-- C92: how far the co-states grow.  Every gradient at most `G` in the plane and zero in the heading,
the heading column of the Jacobian at most `V`: `k` steps before the end the co-state is at most `k|dt|G`
in the plane and `(k dt)² V G / 2` in the heading. -/
theorem C92_growth (dt horizon G V : ℝ) (fdx : V3 ℝ → U → M3 ℝ) (hA : ∀ x u, HeadingColumn (fdx x u))
    (xt : List (V3 ℝ)) (ut : List U) (edx bdx rs : List (V3 ℝ))
    (hV : ∀ x, ∀ u ∈ ut, speed ⟨(fdx x u).r0.c2, (fdx x u).r1.c2, 0⟩ ≤ V)
    (hg : ∀ (j : Nat) (g b : V3 ℝ), edx[j]? = some g → bdx[j]? = some b →
      speed ⟨g.c0 + b.c0, g.c1 + b.c1, 0⟩ ≤ G ∧ g.c2 + b.c2 = 0)
    (h : RungeKutta.solveBack dt rhodot fdx ⟨0, 0, 0⟩ xt ut edx bdx horizon = .ok rs) (i : Nat) (r : V3 ℝ)
    (hr : rs[i]? = some r) :
    speed r ≤ (rs.length - i : ℝ) * |dt| * G ∧ |r.c2| ≤ ((rs.length - i : ℝ) * dt) ^ 2 * V * G / 2 := by
  obtain ⟨n, -, hl, hs⟩ := C52_structure dt horizon _ fdx ⟨0, 0, 0⟩ xt ut edx bdx rs h
  have key : ∀ k i : Nat, i + k = rs.length → speed (rs[i]?.getD ⟨0, 0, 0⟩) ≤ (k : ℝ) * |dt| * G ∧
      |(rs[i]?.getD ⟨0, 0, 0⟩).c2| ≤ ((k : ℝ) * dt) ^ 2 * V * G / 2 := by
    intro k
    induction k with
    | zero => intro i hi; rw [List.getElem?_eq_none (by omega)]; simp [speed]
    | succ k ih =>
      intro i hi
      obtain ⟨a, b⟩ := ih (i + 1) (by omega)
      obtain ⟨g, bb, x, u, h1, h2, h3, h4, h5⟩ := hs i (by omega)
      obtain ⟨hs1, hs2⟩ := hg i g bb h1 h2
      have hv := hV x u (List.mem_of_getElem? h4)
      rw [h5, stepBack_heading _ _ _ _ _ (hA x u), Option.getD_some]
      generalize rs[i + 1]?.getD ⟨0, 0, 0⟩ = q at a b
      generalize fdx x u = A at hv
      have c0 := speed_add q ⟨g.c0 + bb.c0, g.c1 + bb.c1, 0⟩ dt
      constructor
      · have : |dt| * speed ⟨g.c0 + bb.c0, g.c1 + bb.c1, 0⟩ ≤ |dt| * G :=
          mul_le_mul_of_nonneg_left hs1 (abs_nonneg _)
        have e : ∀ z w c : ℝ, speed ⟨z, w, c⟩ = speed ⟨z, w, 0⟩ := fun _ _ _ => rfl
        rw [e]
        push_cast
        linarith
      · have hv0 := speed_nonneg ⟨A.r0.c2, A.r1.c2, 0⟩
        have d1 : |A.r0.c2 * q.c0 + A.r1.c2 * q.c1| ≤ V * (k * |dt| * G) :=
          (dot_le_speed _ _ _ _ 0 q.c2).trans (mul_le_mul hv a (speed_nonneg _) (hv0.trans hv))
        have d2 : |A.r0.c2 * (g.c0 + bb.c0) + A.r1.c2 * (g.c1 + bb.c1)| ≤ V * G :=
          (dot_le_speed _ _ _ _ 0 0).trans (mul_le_mul hv hs1 (speed_nonneg _) (hv0.trans hv))
        simp only
        rw [hs2, zero_add]
        have t1 := abs_add_le (q.c2 + dt * (A.r0.c2 * q.c0 + A.r1.c2 * q.c1))
          (dt ^ 2 / 2 * (A.r0.c2 * (g.c0 + bb.c0) + A.r1.c2 * (g.c1 + bb.c1)))
        have t2 := abs_add_le q.c2 (dt * (A.r0.c2 * q.c0 + A.r1.c2 * q.c1))
        rw [abs_mul, abs_of_nonneg (by positivity : 0 ≤ dt ^ 2 / 2)] at t1
        rw [abs_mul] at t2
        have u1 : |dt| * |A.r0.c2 * q.c0 + A.r1.c2 * q.c1| ≤ |dt| * (V * (k * |dt| * G)) :=
          mul_le_mul_of_nonneg_left d1 (abs_nonneg _)
        have u2 : dt ^ 2 / 2 * |A.r0.c2 * (g.c0 + bb.c0) + A.r1.c2 * (g.c1 + bb.c1)| ≤
            dt ^ 2 / 2 * (V * G) := mul_le_mul_of_nonneg_left d2 (by positivity)
        have u3 : |dt| * (V * (k * |dt| * G)) = dt ^ 2 * V * G * k := by
          rw [← sq_abs dt]; ring
        push_cast
        nlinarith
  have hi : i < rs.length := by
    by_contra hc
    rw [List.getElem?_eq_none (by omega)] at hr; simp at hr
  have := key (rs.length - i) i (by omega)
  rw [hr, Option.getD_some, Nat.cast_sub hi.le] at this
  exact this

/-! ## Size of the gradients and of the planned controls -/

theorem weight_freq (k : Int × Int) : |(k.1 : ℝ)| * Basis.weight k ≤ 1 ∧ |(k.2 : ℝ)| * Basis.weight k ≤ 1 ∧
    (0 : ℝ) ≤ Basis.weight k := by
  simp only [Basis.weight, real_div, real_lit, real_pow, real_add, real_sqrt, real_ofInt]
  push_cast
  set q := sqrt ((k.1 : ℝ) * k.1 + (k.2 : ℝ) * k.2) with hq
  have q0 : 0 ≤ q := sqrt_nonneg _
  have h1 : |(k.1 : ℝ)| ≤ q := abs_le_sqrt (by nlinarith [sq_nonneg (k.2 : ℝ)])
  have h2 : |(k.2 : ℝ)| ≤ q := abs_le_sqrt (by nlinarith [sq_nonneg (k.1 : ℝ)])
  have h3 : 1 + q ≤ (1 + q) ^ (15 / 10 : ℝ) := by
    have := rpow_le_rpow_of_exponent_le (x := 1 + q) (by linarith) (show (1 : ℝ) ≤ 15 / 10 by norm_num)
    rwa [rpow_one] at this
  norm_num at h3 ⊢
  have h4 : 0 < (1 + q) ^ (3 / 2 : ℝ) := by linarith
  refine ⟨?_, ?_, by positivity⟩
  · rw [← div_eq_mul_inv, div_le_one h4]; linarith
  · rw [← div_eq_mul_inv, div_le_one h4]; linarith

/-- the gradient of the ergodic metric is at most `2 π n² w` over the length of the map, per axis -/
theorem gradient_bound (e : ErgodicControl ℝ) {n : Nat} (hb : e.basis = Basis.new e.basis.lx e.basis.ly n)
    (hlx : 0 < e.basis.lx) (hly : 0 < e.basis.ly) (hphi : ∀ v ∈ e.phik, |v| ≤ 1)
    (hw : 0 ≤ e.expl_weight) (all xs : List (V3 ℝ)) :
    ∀ g ∈ e.gradErgodicMetric (e.basis.trajCoeff all) xs,
      |g.c0| ≤ 2 * π * n ^ 2 * e.expl_weight / e.basis.lx ∧
      |g.c1| ≤ 2 * π * n ^ 2 * e.expl_weight / e.basis.ly ∧ g.c2 = 0 := by
  intro g hg
  have hkn : e.basis.k.length = n * n := by rw [hb]; exact (C39_enumeration ℝ _ _ n).1
  have hlam : e.basis.lamdak = e.basis.k.map Basis.weight := by rw [hb]; rfl
  have hck : ∀ v ∈ e.basis.trajCoeff all, |v| ≤ 1 := by
    intro v hv; rw [hb] at hv; exact abs_le.mpr (C41_bounded _ _ _ _ v hv)
  simp only [ErgodicControl.gradErgodicMetric, List.mem_map] at hg
  obtain ⟨x, -, rfl⟩ := hg
  have key : ∀ (f : V2 ℝ → ℝ) (l : ℝ), 0 < l → (∀ k : Int × Int, |f (e.basis.dfk x.xy k)| * Basis.weight k ≤ π / l) →
      |(List.zipWith (fun d w => f d * w) (e.basis.gradFourierBasis x.xy)
        (List.zipWith (fun l d => l * d) e.basis.lamdak
          (List.zipWith (fun c p => c - p) (e.basis.trajCoeff all) e.phik))).sum| ≤ 2 * π * n ^ 2 / l := by
    intro f l hl hf
    have h0 : 0 ≤ 2 * (π / l) := by positivity
    have h1 := abs_sum_le (List.zipWith (fun d w => f d * w) (e.basis.gradFourierBasis x.xy)
        (List.zipWith (fun l d => l * d) e.basis.lamdak
          (List.zipWith (fun c p => c - p) (e.basis.trajCoeff all) e.phik))) (2 * (π / l)) (by
      intro y hy
      obtain ⟨i, hi, rfl⟩ := List.getElem_of_mem hy
      simp only [List.getElem_zipWith, Basis.gradFourierBasis, hlam, List.getElem_map]
      have hc := hck _ (List.getElem_mem (l := e.basis.trajCoeff all) (n := i) (by
        simp only [List.length_zipWith] at hi; omega))
      have hp := hphi _ (List.getElem_mem (l := e.phik) (n := i) (by
        simp only [List.length_zipWith] at hi; omega))
      rw [abs_le] at hc hp
      have hd : |(e.basis.trajCoeff all)[i]'(by simp only [List.length_zipWith] at hi; omega) -
          e.phik[i]'(by simp only [List.length_zipWith] at hi; omega)| ≤ 2 := by
        rw [abs_le]; constructor <;> linarith
      have hk := hf (e.basis.k[i]'(by
        simp only [List.length_zipWith, Basis.gradFourierBasis, List.length_map] at hi; omega))
      rw [← mul_assoc, abs_mul, abs_mul, abs_of_nonneg (weight_freq _).2.2]
      have := mul_le_mul hk hd (abs_nonneg _) (by positivity)
      linarith)
    refine h1.trans ?_
    have h2 : (List.zipWith (fun d w => f d * w) (e.basis.gradFourierBasis x.xy)
        (List.zipWith (fun l d => l * d) e.basis.lamdak
          (List.zipWith (fun c p => c - p) (e.basis.trajCoeff all) e.phik))).length ≤ n * n := by
      simp only [List.length_zipWith, Basis.gradFourierBasis, List.length_map, hkn]; omega
    have h3 : ((List.zipWith (fun d w => f d * w) (e.basis.gradFourierBasis x.xy)
        (List.zipWith (fun l d => l * d) e.basis.lamdak
          (List.zipWith (fun c p => c - p) (e.basis.trajCoeff all) e.phik))).length : ℝ) ≤ n * n := by
      exact_mod_cast h2
    calc _ ≤ (n * n : ℝ) * (2 * (π / l)) := mul_le_mul_of_nonneg_right h3 h0
      _ = _ := by ring
  have sc : ∀ a b : ℝ, |sin a * cos b| ≤ 1 := fun a b => by
    rw [abs_mul]; exact mul_le_one₀ (abs_sin_le_one a) (abs_nonneg _) (abs_cos_le_one b)
  have cs : ∀ a b : ℝ, |cos a * sin b| ≤ 1 := fun a b => by rw [mul_comm]; exact sc b a
  have e0 := key (fun d => d.c0) e.basis.lx hlx (by
    intro k
    simp only [Basis.dfk, real_mul, real_neg, real_ofInt, real_pi, real_div, real_sin, real_cos]
    obtain ⟨w1, -, w0⟩ := weight_freq k
    have hs := sc (k.1 * (π / e.basis.lx) * x.xy.c0) (k.2 * (π / e.basis.ly) * x.xy.c1)
    rw [mul_assoc (-_), abs_mul, abs_neg, abs_mul, abs_of_pos (show 0 < π / e.basis.lx by positivity)]
    have : |(k.1 : ℝ)| * (π / e.basis.lx) * |sin (k.1 * (π / e.basis.lx) * x.xy.c0) *
        cos (k.2 * (π / e.basis.ly) * x.xy.c1)| ≤ |(k.1 : ℝ)| * (π / e.basis.lx) * 1 :=
      mul_le_mul_of_nonneg_left hs (by positivity)
    calc _ ≤ |(k.1 : ℝ)| * (π / e.basis.lx) * 1 * Basis.weight k := mul_le_mul_of_nonneg_right this w0
      _ = (π / e.basis.lx) * (|(k.1 : ℝ)| * Basis.weight k) := by ring
      _ ≤ (π / e.basis.lx) * 1 := mul_le_mul_of_nonneg_left w1 (by positivity)
      _ = _ := mul_one _)
  have e1 := key (fun d => d.c1) e.basis.ly hly (by
    intro k
    simp only [Basis.dfk, real_mul, real_neg, real_ofInt, real_pi, real_div, real_sin, real_cos]
    obtain ⟨-, w1, w0⟩ := weight_freq k
    have hs := cs (k.1 * (π / e.basis.lx) * x.xy.c0) (k.2 * (π / e.basis.ly) * x.xy.c1)
    rw [mul_assoc (-_), abs_mul, abs_neg, abs_mul, abs_of_pos (show 0 < π / e.basis.ly by positivity)]
    have : |(k.2 : ℝ)| * (π / e.basis.ly) * |cos (k.1 * (π / e.basis.lx) * x.xy.c0) *
        sin (k.2 * (π / e.basis.ly) * x.xy.c1)| ≤ |(k.2 : ℝ)| * (π / e.basis.ly) * 1 :=
      mul_le_mul_of_nonneg_left hs (by positivity)
    calc _ ≤ |(k.2 : ℝ)| * (π / e.basis.ly) * 1 * Basis.weight k := mul_le_mul_of_nonneg_right this w0
      _ = (π / e.basis.ly) * (|(k.2 : ℝ)| * Basis.weight k) := by ring
      _ ≤ (π / e.basis.ly) * 1 := mul_le_mul_of_nonneg_left w1 (by positivity)
      _ = _ := mul_one _)
  simp only [ErgodicControl.gradTimes, fsum_real, real_mul, real_sub, real_lit, Int.cast_zero, zero_div,
    and_true]
  rw [abs_mul, abs_mul, abs_of_nonneg hw]
  constructor
  · calc _ ≤ 2 * π * n ^ 2 / e.basis.lx * e.expl_weight := mul_le_mul_of_nonneg_right e0 hw
      _ = _ := by ring
  · calc _ ≤ 2 * π * n ^ 2 / e.basis.ly * e.expl_weight := mul_le_mul_of_nonneg_right e1 hw
      _ = _ := by ring

/-- the barrier at most `d` outside the map -/
theorem barrier_bound (x l d : ℝ) (h0 : -d ≤ x) (h1 : x ≤ l + d) (hd : 0 ≤ d) :
    |ErgodicControl.barrierAxis x l| ≤ 50 * (d + 1 / 20) := by
  simp only [ErgodicControl.barrierAxis, real_add, real_sub, real_mul, real_lit, b2f]
  rw [abs_le]
  norm_num
  split_ifs <;> constructor <;> linarith

/-- clamping to a range that contains zero does not enlarge -/
theorem clamp_shrinks {v lo hi w B : ℝ} (h : ErgodicControl.clampR v lo hi = .ok w) (hlo : lo ≤ 0) (hhi : 0 ≤ hi)
    (hB : |v| ≤ B) : |w| ≤ B := by
  unfold ErgodicControl.clampR at h
  split at h
  · simp at h
  · rw [Res.ok.injEq] at h
    subst h
    unfold fclamp
    rw [abs_le] at hB ⊢
    split
    · rename_i h1; rw [real_lt] at h1; constructor <;> linarith
    · split
      · rename_i h1; rw [real_lt] at h1; constructor <;> linarith
      · exact hB

/-- C92: what the controller can plan.  On a map of size `lx` by `ly` with a target whose coefficients
are at most 1 (C42), diagonal control weights and limits that contain zero, with a rollout that stays
within `d` of the map: the control planned `k` steps before the end of the horizon is at most `k|dt|G`
times its weight in the plane and `(k dt)² V G / 2` times its weight in the heading, where
`G = 2πn²w(1/lx + 1/ly) + 100(d + 1/20)` and `V` is the largest speed of the previous plan. -/
theorem C92_controls {model : TwistModel ℝ} (hm : model = omniModel ∨ model = cartModel)
    {collision : Collision ℝ} {dt horizon resolution weight : ℝ}
    {num_basis buffer_size batch_size : Nat} {Rinv : M3 ℝ} {umin umax : V3 ℝ}
    {e e' : ErgodicControl ℝ} {g : GridMap ℝ} {x u : V3 ℝ} {draws : List Nat}
    (hb : EcBuilt model collision dt horizon resolution weight num_basis buffer_size
      batch_size Rinv umin umax e) (h : e.control g x draws = .ok (e', u))
    {w0 w1 w2 : ℝ} (hR : Rinv = ⟨⟨w0, 0, 0⟩, ⟨0, w1, 0⟩, ⟨0, 0, w2⟩⟩) (hw0 : 0 ≤ w0) (hw1 : 0 ≤ w1) (hw2 : 0 ≤ w2)
    (l0 : umin.c0 ≤ 0 ∧ 0 ≤ umax.c0) (l1 : umin.c1 ≤ 0 ∧ 0 ≤ umax.c1) (l2 : umin.c2 ≤ 0 ∧ 0 ≤ umax.c2)
    (hlx : 0 < e'.basis.lx) (hly : 0 < e'.basis.ly) (hphi : ∀ v ∈ e'.phik, |v| ≤ 1) (hwt : 0 ≤ weight)
    {V d G : ℝ} (hV : 0 ≤ V) (hd : 0 ≤ d) (hut : ∀ v ∈ e.ut, speed v ≤ V)
    (hin : ∀ xs, Rollout dt model.f x (e.ut.drop 1 ++ [⟨0, 0, 0⟩]) xs → ∀ p ∈ xs,
      (-d ≤ p.c0 - g.xmin ∧ p.c0 - g.xmin ≤ e'.basis.lx + d) ∧
      (-d ≤ p.c1 - g.ymin ∧ p.c1 - g.ymin ≤ e'.basis.ly + d))
    (hG : G = 2 * π * num_basis ^ 2 * weight * (1 / e'.basis.lx + 1 / e'.basis.ly) + 100 * (d + 1 / 20))
    (i : Nat) (v : V3 ℝ) (hv : e'.ut[i]? = some v) :
    let k : ℝ := e'.ut.length - i
    |v.c0| ≤ w0 * (k * |dt| * G) ∧ |v.c1| ≤ w1 * (k * |dt| * G) ∧ |v.c2| ≤ w2 * ((k * dt) ^ 2 * V * G / 2) := by
  obtain ⟨us, traj, pre, rhot, hus, hro, -, hback, hrl, hul, hc⟩ := C65_columns hb h
  simp only [real_lit, Int.cast_zero, zero_div] at hus hback
  have hi' := (hb.control h).inv
  have hilt : i < e'.ut.length := by
    by_contra hcon; rw [List.getElem?_eq_none (by omega)] at hv; simp at hv
  have hr : rhot[i]? = some (rhot[i]'(by omega)) := List.getElem?_eq_getElem _
  obtain ⟨v', hv', hnc⟩ := hc i _ _ (List.getElem?_eq_getElem (by omega)) hr
  rw [hv, Option.some.injEq] at hv'
  subst hv'
  generalize rhot[i]'(by omega) = r at hr hnc
  have hA : ∀ y u, HeadingColumn (model.fdx y u) := by
    rcases hm with rfl | rfl
    · exact omni_headingColumn
    · exact simpleCart_headingColumn
  have hVcol : ∀ y, ∀ q ∈ us, speed ⟨(model.fdx y q).r0.c2, (model.fdx y q).r1.c2, 0⟩ ≤ V := by
    intro y q hq
    have hsp : speed q ≤ V := by
      rw [hus, List.mem_append] at hq
      rcases hq with hq | hq
      · exact hut q (List.mem_of_mem_drop hq)
      · simp only [List.mem_singleton] at hq; subst hq; simpa [speed] using hV
    refine le_trans ?_ hsp
    have hsc := sin_sq_add_cos_sq y.c2
    unfold speed
    apply sqrt_le_sqrt
    rcases hm with rfl | rfl
    · simp only [omniModel, Omni.fdx, real_sub, real_mul, real_neg, real_sin, real_cos]
      apply le_of_eq
      linear_combination (q.c0 ^ 2 + q.c1 ^ 2) * hsc
    · simp only [cartModel, SimpleCart.fdx, real_mul, real_neg, real_sin, real_cos]
      nlinarith [sq_nonneg q.c1]
  have hgrad : ∀ (j : Nat) (a b : V3 ℝ),
      (e'.gradErgodicMetric (e'.basis.trajCoeff ((pre ++ traj).map (relTo g))) (traj.map (relTo g)))[j]? = some a →
      (e'.gradBarrier (traj.map (relTo g)))[j]? = some b →
      speed ⟨a.c0 + b.c0, a.c1 + b.c1, 0⟩ ≤ G ∧ a.c2 + b.c2 = 0 := by
    intro j a b ha hbb
    obtain ⟨a0, a1, a2⟩ := gradient_bound e' (C75_applies (hb.control h)).1 hlx hly hphi
      (by rw [hi'.weight_eq]; exact hwt) _ _ a (List.mem_of_getElem? ha)
    rw [hi'.weight_eq] at a0 a1
    obtain ⟨p, hp, rfl⟩ := List.mem_map.mp (List.mem_of_getElem? hbb)
    obtain ⟨z, hz, rfl⟩ := List.mem_map.mp hp
    obtain ⟨⟨q0, q1⟩, q2, q3⟩ := hin traj (hus ▸ hro) z hz
    have b0 := barrier_bound (relTo g z).c0 e'.basis.lx d q0 q1 hd
    have b1 := barrier_bound (relTo g z).c1 e'.basis.ly d q2 q3 hd
    constructor
    · have t0 := abs_add_le a.c0 (ErgodicControl.barrierAxis (relTo g z).c0 e'.basis.lx)
      have t1 := abs_add_le a.c1 (ErgodicControl.barrierAxis (relTo g z).c1 e'.basis.ly)
      have hs : ∀ z y : ℝ, speed ⟨z, y, 0⟩ ≤ |z| + |y| := by
        intro z y
        rw [speed, sqrt_le_left (by positivity)]
        nlinarith [sq_abs z, sq_abs y, abs_nonneg z, abs_nonneg y, mul_nonneg (abs_nonneg z) (abs_nonneg y)]
      refine (hs _ _).trans ?_
      have hGe : G = 2 * π * num_basis ^ 2 * weight / e'.basis.lx +
          2 * π * num_basis ^ 2 * weight / e'.basis.ly + 100 * (d + 1 / 20) := by rw [hG]; ring
      rw [hGe]
      linarith
    · rw [a2]; simp
  obtain ⟨g0, g2⟩ := C92_growth dt horizon G V model.fdx hA _ us _ _ rhot hVcol hgrad hback i r hr
  simp only
  rw [hrl, ← hul] at g0 g2
  simp only [ErgodicControl.newControl, Res.bind_eq_ok, Res.ok.injEq, hi'.umin_eq, hi'.umax_eq, hi'.Rinv_eq,
    hi'.model_eq] at hnc
  obtain ⟨u0, c0, u1, c1, u2, c2, rfl⟩ := hnc
  have hsc := sin_sq_add_cos_sq (relTo g (traj[i]'(by omega))).c2
  generalize (relTo g (traj[i]'(by omega))) = y at c0 c1 c2 hsc
  have rot0 : |cos y.c2 * r.c0 + sin y.c2 * r.c1| ≤ speed r := by
    have := dot_le_speed (cos y.c2) (sin y.c2) r.c0 r.c1 0 r.c2
    rw [show speed ⟨cos y.c2, sin y.c2, 0⟩ = 1 by simp [speed], one_mul] at this
    exact this
  have rot1 : |-sin y.c2 * r.c0 + cos y.c2 * r.c1| ≤ speed r := by
    have := dot_le_speed (-sin y.c2) (cos y.c2) r.c0 r.c1 0 r.c2
    rw [show speed ⟨-sin y.c2, cos y.c2, 0⟩ = 1 by simp [speed], one_mul] at this
    exact this
  subst hR
  refine ⟨clamp_shrinks c0 l0.1 l0.2 ?_, clamp_shrinks c1 l1.1 l1.2 ?_, clamp_shrinks c2 l2.1 l2.2 ?_⟩
  · calc _ = |-(w0 * (cos y.c2 * r.c0 + sin y.c2 * r.c1))| := by
          congr 1
          rcases hm with rfl | rfl <;>
          simp [M3.mulVec, M3.mul, M3.neg, M3.t, V3.dot, V3.neg, omniModel, Omni.fdu, cartModel, SimpleCart.fdu] <;> ring
      _ = w0 * |cos y.c2 * r.c0 + sin y.c2 * r.c1| := by rw [abs_neg, abs_mul, abs_of_nonneg hw0]
      _ ≤ _ := mul_le_mul_of_nonneg_left (rot0.trans g0) hw0
  · rcases hm with rfl | rfl
    · calc _ = |-(w1 * (-sin y.c2 * r.c0 + cos y.c2 * r.c1))| := by
            congr 1
            simp [M3.mulVec, M3.mul, M3.neg, M3.t, V3.dot, V3.neg, omniModel, Omni.fdu]; ring
        _ = w1 * |-sin y.c2 * r.c0 + cos y.c2 * r.c1| := by rw [abs_neg, abs_mul, abs_of_nonneg hw1]
        _ ≤ _ := mul_le_mul_of_nonneg_left (rot1.trans g0) hw1
    · calc _ = |(0 : ℝ)| := by
            congr 1
            simp [M3.mulVec, M3.mul, M3.neg, M3.t, V3.dot, V3.neg, cartModel, SimpleCart.fdu]
        _ ≤ _ := by
            rw [abs_zero]
            exact mul_nonneg hw1 ((speed_nonneg r).trans g0)
  · calc _ = |-(w2 * r.c2)| := by
          congr 1
          rcases hm with rfl | rfl <;>
          simp [M3.mulVec, M3.mul, M3.neg, M3.t, V3.dot, V3.neg, omniModel, Omni.fdu, cartModel, SimpleCart.fdu]
      _ = w2 * |r.c2| := by rw [abs_neg, abs_mul, abs_of_nonneg hw2]
      _ ≤ _ := mul_le_mul_of_nonneg_left g2 hw2

/-- the coefficients of a target on a map are at most 1 in absolute value -/
theorem RightCoeffs.bounded {n : Nat} {t : Target ℝ} {g : GridMap ℝ} {res : ℝ} {phik : List ℝ}
    (h : RightCoeffs n t g res phik) : ∀ v ∈ phik, |v| ≤ 1 := by
  intro v hv
  obtain ⟨hl, he⟩ := h
  obtain ⟨c, hc, rfl⟩ := List.getElem_of_mem hv
  rw [hl] at hc
  have hn : 0 < n := by
    rcases Nat.eq_zero_or_pos n with h0 | h0
    · subst h0; simp at hc
    · exact h0
  have := he (c / n) (c % n) (Nat.div_lt_of_lt_mul hc) (Nat.mod_lt _ hn)
  rw [Nat.div_add_mod', List.getElem?_eq_getElem (by omega), Option.some.injEq] at this
  rw [this]
  have pos : ∀ x y : ℝ, 0 ≤ (t.gaussians.map fun G => G.eval ⟨x, y⟩).sum := by
    intro x y
    apply List.sum_nonneg
    intro q hq
    obtain ⟨G, -, rfl⟩ := List.mem_map.mp hq
    simp only [Gaussian.eval]
    exact (exp_pos _).le
  rw [abs_div]
  apply div_le_one_of_le₀ _ (abs_nonneg _)
  refine (Finset.abs_sum_le_sum_abs _ _).trans ?_
  rw [abs_of_nonneg (Finset.sum_nonneg fun _ _ => Finset.sum_nonneg fun _ _ => pos _ _)]
  apply Finset.sum_le_sum
  intro r _
  refine (Finset.abs_sum_le_sum_abs _ _).trans ?_
  apply Finset.sum_le_sum
  intro q _
  rw [abs_mul, abs_of_nonneg (pos _ _)]
  refine mul_le_of_le_one_left (pos _ _) ?_
  unfold cosBasis
  rw [abs_mul]
  exact mul_le_one₀ (abs_cos_le_one _) (abs_nonneg _) (abs_cos_le_one _)

/-- A step for which nothing is zero. -/
example : HeadingColumn (omniModel.fdx (⟨0, 0, 1⟩ : V3 ℝ) ⟨1, 2, 3⟩) ∧
    (omniModel.fdx (⟨0, 0, 0⟩ : V3 ℝ) ⟨1, 2, 3⟩).r0.c2 = -2 := by
  refine ⟨omni_headingColumn _ _, ?_⟩
  simp [omniModel, Omni.fdx]

/-- A call meeting every hypothesis of `C92_controls`: the second one of a controller on a unit map,
the rollout of which stays within 4 m of the map. -/
example : ∃ (e e' : ErgodicControl ℝ) (u v : V3 ℝ), DemoBuilt e ∧
    e.control (unitMap 0) ⟨1 / 2, 1 / 2, 0⟩ [] = .ok (e', u) ∧ e'.basis.lx = 1 ∧ e'.basis.ly = 1 ∧
    (∀ c ∈ e'.phik, |c| ≤ 1) ∧ (∀ w ∈ e.ut, speed w ≤ 2) ∧ e'.ut[1]? = some v ∧
    ∀ xs, Rollout 1 omniModel.f ⟨1 / 2, 1 / 2, 0⟩ (e.ut.drop 1 ++ [⟨0, 0, 0⟩]) xs → ∀ p ∈ xs,
      (-4 ≤ p.c0 - (unitMap 0).xmin ∧ p.c0 - (unitMap 0).xmin ≤ e'.basis.lx + 4) ∧
      (-4 ≤ p.c1 - (unitMap 0).ymin ∧ p.c1 - (unitMap 0).ymin ≤ e'.basis.ly + 4) := by
  obtain ⟨e0, hb0, hx, hy, -⟩ := demo_new
  have hb1 : DemoBuilt (e0.setTarget originTarget) := by
    obtain ⟨s, h1, h2⟩ := hb0; exact ⟨s, h1, .setTarget _ h2⟩
  obtain ⟨e1, u1, hc1⟩ := demo_control _ hb1 0 ⟨1 / 2, 1 / 2, 0⟩
  have hb2 : DemoBuilt e1 := hb1.control hc1
  obtain ⟨e2, u2, hc2⟩ := demo_control _ hb2 0 ⟨1 / 2, 1 / 2, 0⟩
  obtain ⟨t1, l1, l2, r1⟩ := C61_new_size_partial hb1 hc1 (by norm_num) (by simp [unitMap]) (by simp [unitMap])
    (by simp only [unitMap, zero_add, sub_zero, div_one, floor_unit]; norm_num)
    (by left; simp only [ErgodicControl.setTarget, hx, unitMap]; norm_num)
  obtain ⟨k1, -, k2⟩ := C61_same_size_keeps hb2 hc2 (by rw [l1]; simp [unitMap]) (by rw [l2]; simp [unitMap])
  have m1 : e2.basis.lx = 1 := by rw [k2, l1]; simp [unitMap]
  have m2 : e2.basis.ly = 1 := by rw [k2, l2]; simp [unitMap]
  have hi := (hb2.control hc2).inv
  have h2 : e2.steps = 2 := by
    have := hi.steps_eq; rw [demo_steps, Res.ok.injEq] at this; exact this.symm
  have hl := hi.ut_length
  rw [h2] at hl
  have hsp : ∀ w ∈ e1.ut, speed w ≤ 2 := by
    obtain ⟨-, hbox⟩ := C59_limits_partial _ _ _ _ _ _ _ _ _ _ _ _ _ _ _ _ _ _ hb1 hc1
    intro w hw
    have hvl := (inBox_real _ _ _).mpr (hbox w hw)
    simp only [NotOutside, real_lt_false] at hvl
    obtain ⟨⟨a, b⟩, ⟨c, d⟩, -⟩ := hvl
    rw [speed, sqrt_le_left (by norm_num)]
    nlinarith
  refine ⟨e1, e2, u2, e2.ut[1]'(by rw [hl]; decide), hb2, hc2, m1, m2, ?_, hsp, List.getElem?_eq_getElem _, ?_⟩
  · rw [k1]; exact r1.bounded
  · intro xs hro p hp
    obtain ⟨i, hi', rfl⟩ := List.getElem_of_mem hp
    have hlen : xs.length = 2 := by
      have h3 := hb2.inv.ut_length
      have h4 : e1.steps = 2 := by
        have := hb2.inv.steps_eq; rw [demo_steps, Res.ok.injEq] at this; exact this.symm
      rw [h4] at h3
      rw [hro.length, List.length_append, List.length_drop, h3]; rfl
    have hd := C76_rollout (vmax := 2) hro (fun a b w hw hs => by
      refine (C76_rk4_omni 1 a w b hs).trans (mul_le_mul_of_nonneg_right ?_ (abs_nonneg _))
      rw [List.mem_append] at hw
      rcases hw with hw | hw
      · exact hsp w (List.mem_of_mem_drop hw)
      · simp only [List.mem_singleton] at hw; subst hw; simp [speed]) i _ (List.getElem?_eq_getElem hi')
    have hi2 : (i : ℝ) ≤ 1 := by
      have : i ≤ 1 := by omega
      exact_mod_cast this
    obtain ⟨d0, d1⟩ := planar_le (hd.trans (show _ ≤ (4 : ℝ) by rw [abs_one]; linarith))
    rw [abs_le] at d0 d1
    simp only at d0 d1
    rw [m1, m2]
    simp only [unitMap]
    refine ⟨⟨?_, ?_⟩, ?_, ?_⟩ <;> linarith

end Ergodic
