import Verif.Model.Resample
import Verif.Props.Rk45
import Mathlib.LinearAlgebra.Lagrange
import Mathlib.Tactic.ComputeDegree

/-!
# Property C94: the trajectory of the embedded integrator

`RungeKutta45::solve` returns a quartic fitted to the accepted samples, at equidistant times.
-/

namespace Ergodic
open Polynomial

/-- The squared error of a polynomial on samples. -/
noncomputable def misfit (P : ℝ[X]) (samples : List (ℝ × ℝ)) : ℝ :=
  (samples.map fun s => (P.eval s.1 - s.2) ^ 2).sum

/-- `p` are the coefficients, highest power first, of a polynomial of degree at most `n` with the least squared
error. -/
def LeastSquares (samples : List (ℝ × ℝ)) (n : ℕ) (p : List ℝ) : Prop :=
  ∃ P : ℝ[X], P.natDegree ≤ n ∧ p = (List.range (n + 1)).map (fun i => P.coeff (n - i)) ∧
    ∀ Q : ℝ[X], Q.natDegree ≤ n → misfit P samples ≤ misfit Q samples

/-- What the solver returns is a least-squares fit. -/
def SoundSolver (fit : Solver ℝ) : Prop :=
  ∀ samples n p, fit samples n = some p → LeastSquares samples n p

/-- A solver that returns a least-squares fit whenever there is one. -/
noncomputable def bestSolver : Solver ℝ := fun samples n =>
  open Classical in if h : ∃ p, LeastSquares samples n p then some h.choose else none

theorem bestSolver_sound : SoundSolver bestSolver := by
  intro samples n p h
  unfold bestSolver at h
  split_ifs at h with hp
  obtain rfl := Option.some.inj h
  exact hp.choose_spec

theorem eval_quartic {P : ℝ[X]} (h : P.natDegree ≤ 4) (x : ℝ) : P.eval x =
    P.coeff 0 + P.coeff 1 * x + P.coeff 2 * x ^ 2 + P.coeff 3 * x ^ 3 + P.coeff 4 * x ^ 4 := by
  rw [eval_eq_sum_range' (n := 5) (by omega)]
  simp [Finset.sum_range_succ]

/-- Horner's rule evaluates the polynomial. -/
theorem polyval_quartic {P : ℝ[X]} (h : P.natDegree ≤ 4) (x : ℝ) :
    polyval ((List.range (4 + 1)).map fun i => P.coeff (4 - i)) x = P.eval x := by
  rw [eval_quartic h]
  simp only [List.range_succ, List.range_zero, List.map_cons, List.map_nil, List.nil_append,
    List.cons_append, polyval, List.foldl_cons, List.foldl_nil, real_add, real_mul]
  ring

theorem misfit_nonneg (P : ℝ[X]) (s : List (ℝ × ℝ)) : 0 ≤ misfit P s :=
  List.sum_nonneg (by simp only [List.mem_map]; rintro _ ⟨a, -, rfl⟩; positivity)

/-- A fit of samples on a polynomial with more samples than coefficients is that polynomial. -/
theorem fit_exact {samples : List (ℝ × ℝ)} {n : ℕ} {P Q : ℝ[X]} (hP : P.natDegree ≤ n) (hQ : Q.natDegree ≤ n)
    (hl : n < (samples.map Prod.fst).toFinset.card) (hs : ∀ s ∈ samples, Q.eval s.1 = s.2)
    (hmin : misfit P samples ≤ misfit Q samples) : P = Q := by
  have h0 : misfit Q samples = 0 := by
    unfold misfit
    refine List.sum_eq_zero ?_
    simp only [List.mem_map]
    rintro _ ⟨s, hs', rfl⟩
    rw [hs s hs']
    ring
  have h1 : misfit P samples = 0 := le_antisymm (hmin.trans h0.le) (misfit_nonneg _ _)
  have h2 : ∀ s ∈ samples, P.eval s.1 = s.2 := by
    intro s hs'
    have : (P.eval s.1 - s.2) ^ 2 ≤ misfit P samples := by
      refine List.single_le_sum ?_ _ (List.mem_map.mpr ⟨s, hs', rfl⟩)
      simp only [List.mem_map]
      rintro _ ⟨a, -, rfl⟩
      positivity
    rw [h1] at this
    have := pow_eq_zero_iff (two_ne_zero) |>.mp (le_antisymm this (sq_nonneg _))
    linarith
  refine eq_of_degrees_lt_of_eval_finset_eq (samples.map Prod.fst).toFinset ?_ ?_ ?_
  · exact (degree_le_natDegree).trans_lt (by exact_mod_cast hP.trans_lt hl)
  · exact (degree_le_natDegree).trans_lt (by exact_mod_cast hQ.trans_lt hl)
  · intro x hx
    simp only [List.mem_toFinset, List.mem_map] at hx
    obtain ⟨s, hs', rfl⟩ := hx
    rw [h2 s hs', hs s hs']

theorem polyfit_ok {fit : Solver ℝ} {samples : List (ℝ × ℝ)} {n : ℕ} {p : List ℝ} (h0 : samples ≠ [])
    (h : polyfit fit samples n = .ok p) : n < samples.length ∧ fit samples n = some p := by
  unfold polyfit at h
  rw [if_neg h0] at h
  split_ifs at h with hl
  refine ⟨by omega, ?_⟩
  split at h
  · next hp => simp only [Res.ok.injEq] at h; rw [hp, h]
  · simp at h

/-- The equidistant times. -/
theorem linspace_real (b : ℝ) (n : ℕ) : linspace (lit 0 0 : ℝ) b (n + 2) =
    (List.range (n + 2)).map fun i : ℕ => (i : ℝ) * b / (n + 1) := by
  have hn : ((n : ℝ) + 1) ≠ 0 := by positivity
  rw [linspace, List.range_succ (n := n + 1), List.map_append, List.map_cons, List.map_nil]
  congr 1
  · refine List.map_congr_left fun i _ => ?_
    simp only [real_add, real_mul, real_div, real_sub, real_ofInt, real_lit]
    push_cast
    ring
  · congr 1
    push_cast
    field_simp

theorem linspace_length {F : Type} [Flt F] (a b : F) (n : ℕ) : (linspace a b n).length = n := by
  match n with
  | 0 => rfl
  | 1 => rfl
  | n + 2 => simp [linspace]

/-- `C94` full statement: what `solve` returns starts at the initial state. -/
def C94_statement : Prop :=
  ∀ (fit : Solver ℝ) (s : RungeKutta45 ℝ) (f : V3 ℝ → V3 ℝ → Res (V3 ℝ)) (x0 : V3 ℝ) (ut : List (V3 ℝ))
    (dt horizon : ℝ) (xt : List (V3 ℝ)), SoundSolver fit → 0 < s.hmin → s.hmin ≤ s.hmax → 0 < s.epsilon →
    s.solveFull fit f x0 ut dt horizon = .ok (some xt) → 2 ≤ xt.length → xt.head? = some x0

/-- C94, shape: what `solve` returns has as many columns as time steps. -/
theorem C94_shape {F U : Type} [Flt F] (fit : Solver F) (s : RungeKutta45 F) (f : V3 F → U → Res (V3 F))
    (x0 : V3 F) (ut : List U) (dt horizon : F) (xt : List (V3 F))
    (h : s.solveFull fit f x0 ut dt horizon = .ok (some xt)) :
    ∃ n : UInt32, numSteps horizon dt = .ok n ∧ xt.length = n.toNat := by
  unfold RungeKutta45.solveFull at h
  obtain ⟨out, -, h⟩ := Res.bind_eq_ok.mp h
  cases out with
  | none => simp at h
  | some l =>
    obtain ⟨n, hn, h⟩ := Res.bind_eq_ok.mp h
    obtain ⟨y, hy, h⟩ := Res.bind_eq_ok.mp h
    simp only [Res.ok.injEq, Option.some.injEq] at h
    subst h
    refine ⟨n, hn, ?_⟩
    unfold resample at hy
    obtain ⟨p0, -, hy⟩ := Res.bind_eq_ok.mp hy
    obtain ⟨p1, -, hy⟩ := Res.bind_eq_ok.mp hy
    obtain ⟨p2, -, hy⟩ := Res.bind_eq_ok.mp hy
    simp only [Res.ok.injEq] at hy
    rw [← hy, List.length_map, linspace_length]

/-- C94, few samples: with fewer than five accepted samples the fit throws. -/
theorem C94_short {F : Type} [Flt F] (fit : Solver F) (samples : List (F × V3 F)) (horizon : F) (steps : ℕ)
    (h0 : samples ≠ []) (h : samples.length ≤ 4) :
    resample fit samples horizon steps = .throw .logicError := by
  unfold resample polyfit
  rw [if_neg (by simpa [component] using h0), if_pos (by simpa [component] using h)]
  rfl

/-- C94 (missing: samples that are not on a quartic): when the samples are at five or more times and lie on
polynomials of degree four, the columns are the values of these polynomials at the equidistant times from
zero to the horizon. -/
theorem C94_quartic_partial {fit : Solver ℝ} (hfit : SoundSolver fit) {samples : List (ℝ × V3 ℝ)} {horizon : ℝ} {n : ℕ}
    {xt : List (V3 ℝ)} {Q0 Q1 Q2 : ℝ[X]} (d0 : Q0.natDegree ≤ 4) (d1 : Q1.natDegree ≤ 4)
    (d2 : Q2.natDegree ≤ 4) (hl : 4 < (samples.map Prod.fst).toFinset.card)
    (hs : ∀ s ∈ samples, Q0.eval s.1 = s.2.c0 ∧ Q1.eval s.1 = s.2.c1 ∧ Q2.eval s.1 = s.2.c2)
    (h : resample fit samples horizon (n + 2) = .ok xt) :
    xt = (List.range (n + 2)).map fun i : ℕ =>
      ⟨Q0.eval (i * horizon / (n + 1)), Q1.eval (i * horizon / (n + 1)), Q2.eval (i * horizon / (n + 1))⟩ := by
  have hne : ∀ f : V3 ℝ → ℝ, component f samples ≠ [] := by
    intro f hc
    have : samples = [] := by simpa [component] using hc
    rw [this] at hl
    simp at hl
  have hc : ∀ f : V3 ℝ → ℝ, (component f samples).map Prod.fst = samples.map Prod.fst := by
    intro f
    simp [component, Function.comp_def]
  have key : ∀ (f : V3 ℝ → ℝ) (Q : ℝ[X]) (p : List ℝ), Q.natDegree ≤ 4 →
      (∀ s ∈ samples, Q.eval s.1 = f s.2) → polyfit fit (component f samples) 4 = .ok p →
      ∀ x, polyval p x = Q.eval x := by
    intro f Q p hQ hq hp x
    obtain ⟨P, hP, rfl, hmin⟩ := hfit _ _ _ (polyfit_ok (hne f) hp).2
    rw [polyval_quartic hP]
    congr 1
    refine fit_exact hP hQ (by rw [hc]; exact hl) ?_ (hmin Q hQ)
    intro s hs'
    simp only [component, List.mem_map] at hs'
    obtain ⟨a, ha, rfl⟩ := hs'
    exact hq a ha
  unfold resample at h
  obtain ⟨p0, h0, h⟩ := Res.bind_eq_ok.mp h
  obtain ⟨p1, h1, h⟩ := Res.bind_eq_ok.mp h
  obtain ⟨p2, h2, h⟩ := Res.bind_eq_ok.mp h
  simp only [Res.ok.injEq] at h
  rw [← h, linspace_real, List.map_map]
  refine List.map_congr_left fun i _ => ?_
  simp only [Function.comp_apply]
  rw [key _ Q0 p0 d0 (fun s h => (hs s h).1) h0, key _ Q1 p1 d1 (fun s h => (hs s h).2.1) h1,
    key _ Q2 p2 d2 (fun s h => (hs s h).2.2) h2]

/-! ## a body at rest -/

theorem rest_samples {U : Type} (s : RungeKutta45 ℝ) (ut : List U) (steps : UInt32) (ms : ℕ) (horizon : ℝ)
    (x0 : V3 ℝ) : ∀ (fuel iter : ℕ) (t h : ℝ) (acc l : List (ℝ × V3 ℝ)), (∀ a ∈ acc, a.2 = x0) →
    s.solveLoop (fun _ _ => .ok ⟨0, 0, 0⟩) ut steps ms horizon fuel iter t h x0 acc = .ok (some l) →
    ∀ a ∈ l, a.2 = x0 := by
  intro fuel
  induction fuel with
  | zero => intro iter t h acc l _ hl; simp [RungeKutta45.solveLoop] at hl
  | succ fuel ih =>
    intro iter t h acc l hacc hl
    rw [RungeKutta45.solveLoop] at hl
    obtain ⟨i, -, hl⟩ := Res.bind_eq_ok.mp hl
    obtain ⟨u, -, hl⟩ := Res.bind_eq_ok.mp hl
    obtain ⟨⟨x, r⟩, hx, hl⟩ := Res.bind_eq_ok.mp hl
    have hx0 : x = x0 := by
      simp only [RungeKutta45.step, Res.ok_bind, fehlberg_const, Res.ok.injEq, Prod.mk.injEq] at hx
      rw [← hx.1]
      ext <;> simp [V3.add, V3.smul]
    subst hx0
    dsimp only at hl
    split at hl
    · simp at hl
    obtain ⟨h', -, hl⟩ := Res.bind_eq_ok.mp hl
    rw [ite_self] at hl
    have hacc' : ∀ a ∈ (if Flt.lt r s.epsilon || almostEqual r s.epsilon then
        acc ++ [(if Flt.lt r s.epsilon || almostEqual r s.epsilon then t +. h else t, x)] else acc), a.2 = x := by
      intro a ha
      split_ifs at ha
      · rw [List.mem_append, List.mem_singleton] at ha
        rcases ha with ha | rfl
        · exact hacc a ha
        · rfl
      · exact hacc a ha
    generalize (if Flt.lt r s.epsilon || almostEqual r s.epsilon then
        acc ++ [(if Flt.lt r s.epsilon || almostEqual r s.epsilon then t +. h else t, x)] else acc) = acc' at hl hacc'
    generalize (if Flt.lt r s.epsilon || almostEqual r s.epsilon then t +. h else t) = t' at hl
    split at hl
    · simp at hl
    · split at hl
      · simp only [Res.ok.injEq, Option.some.injEq] at hl
        rw [← hl]
        exact hacc'
      · exact ih _ _ _ _ _ hacc' hl

/-- C94: for a body at rest every column is the initial state, when the samples are at five or more times. -/
theorem C94_rest {U : Type} {fit : Solver ℝ} (hfit : SoundSolver fit) (s : RungeKutta45 ℝ) (x0 : V3 ℝ) (ut : List U)
    (dt horizon : ℝ) {samples : List (ℝ × V3 ℝ)} {xt : List (V3 ℝ)}
    (h : s.solve (fun _ _ => .ok ⟨0, 0, 0⟩) x0 ut dt horizon = .ok (some samples))
    (hl : 4 < (samples.map Prod.fst).toFinset.card)
    (h' : s.solveFull fit (fun _ _ => .ok ⟨0, 0, 0⟩) x0 ut dt horizon = .ok (some xt)) (h2 : 2 ≤ xt.length) :
    ∀ x ∈ xt, x = x0 := by
  obtain ⟨n, hn, hxl⟩ := C94_shape _ _ _ _ _ _ _ _ h'
  have hs : ∀ a ∈ samples, a.2 = x0 := by
    unfold RungeKutta45.solve at h
    obtain ⟨st, -, h⟩ := Res.bind_eq_ok.mp h
    obtain ⟨ms, -, h⟩ := Res.bind_eq_ok.mp h
    dsimp only at h
    split_ifs at h
    exact rest_samples _ _ _ _ _ _ _ _ _ _ _ _ (by simp) h
  unfold RungeKutta45.solveFull at h'
  rw [h, Res.ok_bind] at h'
  dsimp only at h'
  rw [hn, Res.ok_bind] at h'
  obtain ⟨y, hy, h'⟩ := Res.bind_eq_ok.mp h'
  simp only [Res.ok.injEq, Option.some.injEq] at h'
  subst h'
  obtain ⟨k, hk⟩ : ∃ k, n.toNat = k + 2 := ⟨n.toNat - 2, by omega⟩
  rw [hk] at hy
  have := C94_quartic_partial hfit (Q0 := C x0.c0) (Q1 := C x0.c1) (Q2 := C x0.c2) (by simp) (by simp) (by simp) hl
    (fun a ha => by simp [hs a ha]) hy
  rw [this]
  simp

/-! ## the counterexample: a body that moves for one second and then rests -/

/-- The speed command: along `x` at first, then none. -/
def burst : List (V3 ℝ) := [⟨1, 0, 0⟩, ⟨0, 0, 0⟩, ⟨0, 0, 0⟩, ⟨0, 0, 0⟩, ⟨0, 0, 0⟩]

/-- Steps of one second. -/
noncomputable def stepper : RungeKutta45 ℝ := ⟨1, 1, 10, 100⟩

theorem timeIndex_five {t : ℝ} {n : ℕ} (h0 : 0 ≤ t) (hn : n < 2 ^ 32) (h1 : (n : ℝ) ≤ 4 * (t / 5) + 1 / 2)
    (h2 : 4 * (t / 5) + 1 / 2 < n + 1) : RungeKutta45.timeIndex 5 t 5 = .ok (UInt32.ofNat n) := by
  unfold RungeKutta45.timeIndex
  have e5 : ((5 : UInt32) - 1).toNat = 4 := rfl
  rw [e5]
  simp only [real_floor, real_round, real_mul, real_ofInt, real_div, real_fabs]
  have e : realRound (((4 : ℕ) : ℤ) * |t / 5|) = (n : ℝ) := by
    rw [abs_of_nonneg (by positivity)]
    unfold realRound
    push_cast
    rw [if_pos (by positivity)]
    have : ⌊4 * (t / 5) + 1 / 2⌋ = (n : ℤ) := by
      rw [Int.floor_eq_iff]
      constructor <;> push_cast <;> linarith
    rw [this]
    simp
  rw [e, Int.floor_natCast]
  exact_mod_cast castU32_natCast hn

theorem burst_iter (g : V3 ℝ → V3 ℝ) (fuel iter : ℕ) (t : ℝ) (x : V3 ℝ) (acc : List (ℝ × V3 ℝ)) (i : UInt32) (v : ℝ) (v0 : 0 ≤ v) (v1 : v ≤ 1)
    (hi : iter ≠ 100) (hm : acc.length < 6) (ht : RungeKutta45.timeIndex 5 t 5 = .ok i)
    {u : V3 ℝ} (hu : col burst i.toNat = .ok u) (hg : g u = ⟨v, 0, 0⟩) :
    stepper.solveLoop (fun _ u => .ok (g u)) burst 5 6 5 (fuel + 1) iter t 1 x acc =
      if 5 < t + 1 ∨ |t + 1 - 5| < 1 / 10 ^ 12 then
        .ok (some (acc ++ [(t + 1, x.add (V3.smul (1 + 2197 / 5610168) ⟨v, 0, 0⟩))]))
      else stepper.solveLoop (fun _ u => .ok (g u)) burst 5 6 5 fuel (iter + 1) (t + 1)
        (if 5 < t + 1 + 1 then 5 - (t + 1) else 1) (x.add (V3.smul (1 + 2197 / 5610168) ⟨v, 0, 0⟩))
        (acc ++ [(t + 1, x.add (V3.smul (1 + 2197 / 5610168) ⟨v, 0, 0⟩))]) := by
  have hstep : RungeKutta45.step (fun _ u => .ok (g u)) x u 1 =
      .ok (x.add (V3.smul (1 + 2197 / 5610168) ⟨v, 0, 0⟩), 2197 / 5610168 * v) := by
    have := C53_constant_partial x ⟨v, 0, 0⟩ u 1 one_pos
    rw [one_mul, show supNorm (⟨v, 0, 0⟩ : V3 ℝ) = v by simp [supNorm, abs_of_nonneg v0, v0], ← hg] at this
    rw [← hg]
    exact this
  obtain ⟨h', hn', h1, h2⟩ := nextH_ok stepper le_rfl 1 (2197 / 5610168 * v)
  obtain rfl : h' = 1 := le_antisymm h2 h1
  have hacc : (Flt.lt (2197 / 5610168 * v) stepper.epsilon || almostEqual (2197 / 5610168 * v) stepper.epsilon) = true := by
    rw [Bool.or_eq_true, real_lt]
    left
    show 2197 / 5610168 * v < 10
    linarith
  have key : (Flt.lt (5 : ℝ) (t + 1) || almostEqual (t + 1) 5) = true ↔ (5 < t + 1 ∨ |t + 1 - 5| < 1 / 10 ^ 12) := by
    rw [Bool.or_eq_true, real_lt, real_almostEqual_eps]
  rw [RungeKutta45.solveLoop]
  simp only [ht, hu, hstep, Res.ok_bind, hacc, if_true, true_and, hn', real_add, real_sub]
  rw [if_neg (by omega), if_neg (show ¬ iter = stepper.max_iter from hi)]
  by_cases hf : 5 < t + 1 ∨ |t + 1 - 5| < 1 / 10 ^ 12
  · rw [if_pos (key.mpr hf), if_pos hf]
  · rw [if_neg (fun hc => hf (key.mp hc)), if_neg hf]
    by_cases hl : 5 < t + 1 + 1
    · rw [if_pos ⟨fun hc => hf (key.mp hc), (real_lt _ _).mpr hl⟩, if_pos hl]
    · rw [if_neg (fun hc => hl ((real_lt _ _).mp hc.2)), if_neg hl]

/-- The samples of the burst: six, the first one at the origin, the others at the same place. -/
theorem burst_samples : stepper.solve (fun _ u => .ok u) ⟨0, 0, 0⟩ burst 1 5 = .ok (some
    [(0, ⟨0, 0, 0⟩), (1, ⟨1 + 2197 / 5610168, 0, 0⟩), (2, ⟨1 + 2197 / 5610168, 0, 0⟩),
      (3, ⟨1 + 2197 / 5610168, 0, 0⟩), (4, ⟨1 + 2197 / 5610168, 0, 0⟩), (5, ⟨1 + 2197 / 5610168, 0, 0⟩)]) := by
  have hn : numSteps (5 : ℝ) 1 = .ok 5 := by
    rw [numSteps, real_div, real_fabs]
    exact castU32_real_of (n := 5) (by norm_num) (by norm_num) (by norm_num)
  have hc : castU32 ((5 : ℝ) / stepper.hmin) = .ok 5 :=
    castU32_real_of (n := 5) (by norm_num [stepper]) (by norm_num [stepper]) (by norm_num)
  have hms : ((5 : UInt32) + 1).toNat = 6 := rfl
  simp only [RungeKutta45.solve, hn, real_div, hc, Res.ok_bind, hms]
  rw [if_neg (by norm_num)]
  have e0 : (lit 0 0 : ℝ) = 0 := by simp
  have eh : (stepper.hmax +. stepper.hmin) / (lit 2 0 : ℝ) = 1 := by
    simp only [real_add, real_lit, stepper]; norm_num
  have emove : ∀ v : ℝ, (⟨v, 0, 0⟩ : V3 ℝ).add (V3.smul (1 + 2197 / 5610168) ⟨0, 0, 0⟩) = ⟨v, 0, 0⟩ := by
    intro v; simp [V3.add, V3.smul]
  have efirst : (⟨0, 0, 0⟩ : V3 ℝ).add (V3.smul (1 + 2197 / 5610168) ⟨1, 0, 0⟩) = ⟨1 + 2197 / 5610168, 0, 0⟩ := by
    simp [V3.add, V3.smul]
  rw [e0, eh]
  show stepper.solveLoop (fun _ u => .ok (id u)) burst 5 6 5 101 0 0 1 ⟨0, 0, 0⟩ [(0, ⟨0, 0, 0⟩)] = _
  rw [burst_iter id 100 0 0 _ _ 0 1 (by norm_num) le_rfl (by norm_num) (by simp)
    (timeIndex_five (n := 0) (by norm_num) (by norm_num) (by norm_num) (by norm_num)) rfl rfl,
    if_neg (by norm_num [abs_of_neg]), if_neg (by norm_num), efirst, show (0 : ℝ) + 1 = 1 by norm_num]
  rw [burst_iter id 99 _ 1 _ _ 1 0 le_rfl (by norm_num) (by norm_num) (by simp)
    (timeIndex_five (n := 1) (by norm_num) (by norm_num) (by norm_num) (by norm_num)) rfl rfl,
    if_neg (by norm_num [abs_of_neg]), if_neg (by norm_num), emove, show (1 : ℝ) + 1 = 2 by norm_num]
  rw [burst_iter id 98 _ 2 _ _ 2 0 le_rfl (by norm_num) (by norm_num) (by simp)
    (timeIndex_five (n := 2) (by norm_num) (by norm_num) (by norm_num) (by norm_num)) rfl rfl,
    if_neg (by norm_num [abs_of_neg]), if_neg (by norm_num), emove, show (2 : ℝ) + 1 = 3 by norm_num]
  rw [burst_iter id 97 _ 3 _ _ 2 0 le_rfl (by norm_num) (by norm_num) (by simp)
    (timeIndex_five (n := 2) (by norm_num) (by norm_num) (by norm_num) (by norm_num)) rfl rfl,
    if_neg (by norm_num [abs_of_neg]), if_neg (by norm_num), emove, show (3 : ℝ) + 1 = 4 by norm_num]
  rw [burst_iter id 96 _ 4 _ _ 3 0 le_rfl (by norm_num) (by norm_num) (by simp)
    (timeIndex_five (n := 3) (by norm_num) (by norm_num) (by norm_num) (by norm_num)) rfl rfl,
    if_pos (by norm_num), emove, show (4 : ℝ) + 1 = 5 by norm_num]
  rfl

/-- The `x` component of the samples. -/
def burstX (c : ℝ) : List (ℝ × ℝ) := [(0, 0), (1, c), (2, c), (3, c), (4, c), (5, c)]

theorem burst_misfit (P : ℝ[X]) (c : ℝ) : misfit P (burstX c) = P.eval 0 ^ 2 + (P.eval 1 - c) ^ 2 +
    (P.eval 2 - c) ^ 2 + (P.eval 3 - c) ^ 2 + (P.eval 4 - c) ^ 2 + (P.eval 5 - c) ^ 2 := by
  simp only [misfit, burstX, List.map_cons, List.map_nil, List.sum_cons, List.sum_nil]
  ring

/-- The fifth difference of a quartic is zero. -/
theorem fifth_difference {P : ℝ[X]} (h : P.natDegree ≤ 4) :
    -P.eval 0 + 5 * P.eval 1 - 10 * P.eval 2 + 10 * P.eval 3 - 5 * P.eval 4 + P.eval 5 = 0 := by
  simp only [eval_quartic h]
  ring

/-- The quartic with the least error on the samples of the burst. -/
noncomputable def burstFit (c : ℝ) : ℝ[X] :=
  C (-c / 48) * X ^ 4 + C (55 * c / 216) * X ^ 3 + C (-155 * c / 144) * X ^ 2 + C (1375 * c / 756) * X +
    C (c / 252)

theorem burstFit_misfit (c : ℝ) : misfit (burstFit c) (burstX c) = c ^ 2 / 252 := by
  rw [burst_misfit]
  simp only [burstFit, eval_add, eval_mul, eval_C, eval_pow, eval_X]
  ring

theorem burst_least {P : ℝ[X]} (h : P.natDegree ≤ 4) (c : ℝ) :
    c ^ 2 ≤ 252 * misfit P (burstX c) := by
  rw [burst_misfit]
  have hd := fifth_difference h
  have hc : c = -(-(P.eval 0) + 5 * (P.eval 1 - c) - 10 * (P.eval 2 - c) + 10 * (P.eval 3 - c) - 5 * (P.eval 4 - c) +
      (P.eval 5 - c)) := by linarith
  generalize P.eval 0 = a0 at *
  generalize P.eval 1 - c = a1 at *
  generalize P.eval 2 - c = a2 at *
  generalize P.eval 3 - c = a3 at *
  generalize P.eval 4 - c = a4 at *
  generalize P.eval 5 - c = a5 at *
  rw [hc]
  nlinarith [sq_nonneg (5 * a0 + a1), sq_nonneg (10 * a0 - a2), sq_nonneg (10 * a0 + a3), sq_nonneg (5 * a0 - a4),
    sq_nonneg (a0 + a5), sq_nonneg (10 * a1 + 5 * a2), sq_nonneg (10 * a1 - 5 * a3), sq_nonneg (5 * a1 + 5 * a4),
    sq_nonneg (a1 - 5 * a5), sq_nonneg (10 * a2 + 10 * a3), sq_nonneg (5 * a2 - 10 * a4), sq_nonneg (a2 + 10 * a5),
    sq_nonneg (5 * a3 + 10 * a4), sq_nonneg (a3 - 10 * a5), sq_nonneg (a4 + 5 * a5)]

/-- A fit that goes through the first sample has a larger error. -/
theorem burst_through {P : ℝ[X]} (h : P.natDegree ≤ 4) (c : ℝ) (h0 : P.eval 0 = 0) :
    c ^ 2 ≤ 251 * misfit P (burstX c) := by
  rw [burst_misfit]
  have hd := fifth_difference h
  have hc : c = -(5 * (P.eval 1 - c) - 10 * (P.eval 2 - c) + 10 * (P.eval 3 - c) - 5 * (P.eval 4 - c) +
      (P.eval 5 - c)) := by linarith
  rw [h0]
  generalize P.eval 1 - c = a1 at *
  generalize P.eval 2 - c = a2 at *
  generalize P.eval 3 - c = a3 at *
  generalize P.eval 4 - c = a4 at *
  generalize P.eval 5 - c = a5 at *
  rw [hc]
  nlinarith [sq_nonneg (10 * a1 + 5 * a2), sq_nonneg (10 * a1 - 5 * a3), sq_nonneg (5 * a1 + 5 * a4),
    sq_nonneg (a1 - 5 * a5), sq_nonneg (10 * a2 + 10 * a3), sq_nonneg (5 * a2 - 10 * a4), sq_nonneg (a2 + 10 * a5),
    sq_nonneg (5 * a3 + 10 * a4), sq_nonneg (a3 - 10 * a5), sq_nonneg (a4 + 5 * a5)]

theorem burst_fits (c : ℝ) : ∃ p, LeastSquares (burstX c) 4 p := by
  refine ⟨_, burstFit c, by unfold burstFit; compute_degree, rfl, fun Q hQ => ?_⟩
  rw [burstFit_misfit]
  have := burst_least hQ c
  linarith

theorem zero_fits (samples : List (ℝ × ℝ)) (h : ∀ s ∈ samples, s.2 = 0) : ∃ p, LeastSquares samples 4 p := by
  refine ⟨_, 0, by simp, rfl, fun Q _ => ?_⟩
  have : misfit 0 samples = 0 := by
    unfold misfit
    refine List.sum_eq_zero ?_
    simp only [List.mem_map]
    rintro _ ⟨s, hs, rfl⟩
    simp [h s hs]
  rw [this]
  exact misfit_nonneg _ _

theorem bestSolver_polyfit {samples : List (ℝ × ℝ)} (h0 : 4 < samples.length) (h : ∃ p, LeastSquares samples 4 p) :
    ∃ p, polyfit bestSolver samples 4 = .ok p ∧ LeastSquares samples 4 p := by
  refine ⟨h.choose, ?_, h.choose_spec⟩
  unfold polyfit
  rw [if_neg (by rintro rfl; simp at h0), if_neg (by omega)]
  simp only [bestSolver, dif_pos h]

/-- C94 is false: for the burst the returned trajectory does not start at the origin, where the body started. -/
theorem C94_refuted : ¬ C94_statement := by
  intro hst
  have hn : numSteps (5 : ℝ) 1 = .ok 5 := by
    rw [numSteps, real_div, real_fabs]
    exact castU32_real_of (n := 5) (by norm_num) (by norm_num) (by norm_num)
  generalize hc : (1 + 2197 / 5610168 : ℝ) = c
  have hc0 : 0 < c := by rw [← hc]; norm_num
  have hs := burst_samples
  rw [hc] at hs
  obtain ⟨p0, e0, P, hP, rfl, hmin⟩ := bestSolver_polyfit (samples := burstX c) (by simp [burstX]) (burst_fits c)
  obtain ⟨p1, e1, -⟩ := bestSolver_polyfit (samples := burstX 0) (by simp [burstX]) (burst_fits 0)
  have hfull : stepper.solveFull bestSolver (fun _ u => .ok u) ⟨0, 0, 0⟩ burst 1 5 =
      .ok (some ((linspace (lit 0 0) 5 5).map fun t =>
        ⟨polyval ((List.range (4 + 1)).map fun i => P.coeff (4 - i)) t, polyval p1 t, polyval p1 t⟩)) := by
    unfold RungeKutta45.solveFull
    rw [hs, Res.ok_bind]
    dsimp only
    rw [hn, Res.ok_bind]
    unfold resample
    simp only [component, List.map_cons, List.map_nil]
    simp only [burstX] at e0 e1
    rw [e0, Res.ok_bind, e1, Res.ok_bind, Res.ok_bind, Res.ok_bind]
    rfl
  have := hst _ _ _ _ _ _ _ _ bestSolver_sound (by norm_num [stepper]) le_rfl (by norm_num [stepper]) hfull
    (by rw [List.length_map, linspace_length]; norm_num)
  rw [linspace_real (n := 3)] at this
  simp only [polyval_quartic hP] at this
  simp only [List.range_succ_eq_map, List.map_cons, List.head?_cons, Option.some.injEq, V3.mk.injEq] at this
  have h0 : P.eval 0 = 0 := by simpa using this.1
  have h1 := burst_through hP c h0
  have h2 := hmin (burstFit c) (by unfold burstFit; compute_degree)
  rw [burstFit_misfit] at h2
  nlinarith [sq_pos_of_pos hc0]

/-- The fit throws on the run of `C54_refuted_horizon`, which has two samples. -/
example (fit : Solver ℝ) (x0 u : V3 ℝ) : RungeKutta45.solveFull fit (⟨1 / 10, 10, 1, 100⟩ : RungeKutta45 ℝ)
    (fun _ (_ : V3 ℝ) => .ok ⟨0, 0, 0⟩) x0 [u] 1 1 = .throw .logicError := by
  have hn : numSteps (1 : ℝ) 1 = .ok 1 := by
    rw [numSteps, real_div, real_fabs]
    exact castU32_real_of (n := 1) (by norm_num) (by norm_num) (by norm_num)
  unfold RungeKutta45.solveFull
  rw [C54_refuted_horizon, Res.ok_bind]
  dsimp only
  rw [hn, Res.ok_bind, C94_short _ _ _ _ (by simp) (by simp)]
  rfl

/-- The hypotheses of `C94_quartic_partial` are met: six samples of a body on a parabola. -/
example : ∃ xt, resample bestSolver ((List.range 6).map fun i : ℕ => ((i : ℝ), (⟨i ^ 2, 0, 0⟩ : V3 ℝ))) 5 (3 + 2) = .ok xt ∧
    (∀ s ∈ (List.range 6).map (fun i : ℕ => ((i : ℝ), (⟨i ^ 2, 0, 0⟩ : V3 ℝ))),
      (X ^ 2 : ℝ[X]).eval s.1 = s.2.c0 ∧ (0 : ℝ[X]).eval s.1 = s.2.c1 ∧ (0 : ℝ[X]).eval s.1 = s.2.c2) ∧
    xt = (List.range 5).map fun i : ℕ => ⟨((i : ℝ) * 5 / 4) ^ 2, 0, 0⟩ := by
  have hs : ∀ s ∈ (List.range 6).map (fun i : ℕ => ((i : ℝ), (⟨i ^ 2, 0, 0⟩ : V3 ℝ))),
      (X ^ 2 : ℝ[X]).eval s.1 = s.2.c0 ∧ (0 : ℝ[X]).eval s.1 = s.2.c1 ∧ (0 : ℝ[X]).eval s.1 = s.2.c2 := by
    simp only [List.mem_map]
    rintro _ ⟨i, -, rfl⟩
    simp
  have hx : ∃ p, LeastSquares (component V3.c0 ((List.range 6).map fun i : ℕ => ((i : ℝ), (⟨i ^ 2, 0, 0⟩ : V3 ℝ)))) 4 p := by
    refine ⟨_, X ^ 2, by simp, rfl, fun Q _ => ?_⟩
    have : misfit (X ^ 2) (component V3.c0 ((List.range 6).map fun i : ℕ => ((i : ℝ), (⟨i ^ 2, 0, 0⟩ : V3 ℝ)))) = 0 := by
      unfold misfit
      refine List.sum_eq_zero ?_
      simp only [List.mem_map, component]
      rintro _ ⟨s, ⟨a, ⟨i, -, rfl⟩, rfl⟩, rfl⟩
      simp
    rw [this]
    exact misfit_nonneg _ _
  obtain ⟨p0, e0, -⟩ := bestSolver_polyfit (by simp [component]) hx
  obtain ⟨p1, e1, -⟩ := bestSolver_polyfit (samples := component V3.c1 ((List.range 6).map fun i : ℕ =>
    ((i : ℝ), (⟨i ^ 2, 0, 0⟩ : V3 ℝ)))) (by simp [component]) (zero_fits _ (by
      simp only [component, List.mem_map]
      rintro _ ⟨a, ⟨i, -, rfl⟩, rfl⟩
      rfl))
  obtain ⟨p2, e2, -⟩ := bestSolver_polyfit (samples := component V3.c2 ((List.range 6).map fun i : ℕ =>
    ((i : ℝ), (⟨i ^ 2, 0, 0⟩ : V3 ℝ)))) (by simp [component]) (zero_fits _ (by
      simp only [component, List.mem_map]
      rintro _ ⟨a, ⟨i, -, rfl⟩, rfl⟩
      rfl))
  have hr : resample bestSolver ((List.range 6).map fun i : ℕ => ((i : ℝ), (⟨i ^ 2, 0, 0⟩ : V3 ℝ))) 5 (3 + 2) =
      .ok ((linspace (lit 0 0) 5 (3 + 2)).map fun t => ⟨polyval p0 t, polyval p1 t, polyval p2 t⟩) := by
    unfold resample
    rw [e0, Res.ok_bind, e1, Res.ok_bind, e2, Res.ok_bind]
  refine ⟨_, hr, hs, ?_⟩
  have := C94_quartic_partial bestSolver_sound (Q0 := X ^ 2) (Q1 := 0) (Q2 := 0) (by simp) (by simp) (by simp) (by
    have : ((List.range 6).map fun i : ℕ => ((i : ℝ), (⟨i ^ 2, 0, 0⟩ : V3 ℝ))).map Prod.fst =
        (List.range 6).map (fun i : ℕ => (i : ℝ)) := by simp [Function.comp_def]
    rw [this, List.toFinset_card_of_nodup ((List.nodup_range).map Nat.cast_injective)]
    simp) hs hr
  rw [this]
  refine List.map_congr_left fun i _ => ?_
  simp
  norm_num

/-- The samples of a body at rest. -/
theorem still_samples : stepper.solve (fun _ _ => .ok ⟨0, 0, 0⟩) ⟨0, 0, 0⟩ burst 1 5 = .ok (some
    [(0, ⟨0, 0, 0⟩), (1, ⟨0, 0, 0⟩), (2, ⟨0, 0, 0⟩),
      (3, ⟨0, 0, 0⟩), (4, ⟨0, 0, 0⟩), (5, ⟨0, 0, 0⟩)]) := by
  have hn : numSteps (5 : ℝ) 1 = .ok 5 := by
    rw [numSteps, real_div, real_fabs]
    exact castU32_real_of (n := 5) (by norm_num) (by norm_num) (by norm_num)
  have hc : castU32 ((5 : ℝ) / stepper.hmin) = .ok 5 :=
    castU32_real_of (n := 5) (by norm_num [stepper]) (by norm_num [stepper]) (by norm_num)
  have hms : ((5 : UInt32) + 1).toNat = 6 := rfl
  simp only [RungeKutta45.solve, hn, real_div, hc, Res.ok_bind, hms]
  rw [if_neg (by norm_num)]
  have e0 : (lit 0 0 : ℝ) = 0 := by simp
  have eh : (stepper.hmax +. stepper.hmin) / (lit 2 0 : ℝ) = 1 := by
    simp only [real_add, real_lit, stepper]; norm_num
  have emove : ∀ v : ℝ, (⟨v, 0, 0⟩ : V3 ℝ).add (V3.smul (1 + 2197 / 5610168) ⟨0, 0, 0⟩) = ⟨v, 0, 0⟩ := by
    intro v; simp [V3.add, V3.smul]
  rw [e0, eh]
  show stepper.solveLoop (fun _ u => .ok ((fun _ => ⟨0, 0, 0⟩) u)) burst 5 6 5 101 0 0 1 ⟨0, 0, 0⟩ [(0, ⟨0, 0, 0⟩)] = _
  rw [burst_iter (fun _ => ⟨0, 0, 0⟩) 100 0 0 _ _ 0 0 le_rfl (by norm_num) (by norm_num) (by simp)
    (timeIndex_five (n := 0) (by norm_num) (by norm_num) (by norm_num) (by norm_num)) rfl rfl,
    if_neg (by norm_num [abs_of_neg]), if_neg (by norm_num), emove, show (0 : ℝ) + 1 = 1 by norm_num]
  rw [burst_iter (fun _ => ⟨0, 0, 0⟩) 99 _ 1 _ _ 1 0 le_rfl (by norm_num) (by norm_num) (by simp)
    (timeIndex_five (n := 1) (by norm_num) (by norm_num) (by norm_num) (by norm_num)) rfl rfl,
    if_neg (by norm_num [abs_of_neg]), if_neg (by norm_num), emove, show (1 : ℝ) + 1 = 2 by norm_num]
  rw [burst_iter (fun _ => ⟨0, 0, 0⟩) 98 _ 2 _ _ 2 0 le_rfl (by norm_num) (by norm_num) (by simp)
    (timeIndex_five (n := 2) (by norm_num) (by norm_num) (by norm_num) (by norm_num)) rfl rfl,
    if_neg (by norm_num [abs_of_neg]), if_neg (by norm_num), emove, show (2 : ℝ) + 1 = 3 by norm_num]
  rw [burst_iter (fun _ => ⟨0, 0, 0⟩) 97 _ 3 _ _ 2 0 le_rfl (by norm_num) (by norm_num) (by simp)
    (timeIndex_five (n := 2) (by norm_num) (by norm_num) (by norm_num) (by norm_num)) rfl rfl,
    if_neg (by norm_num [abs_of_neg]), if_neg (by norm_num), emove, show (3 : ℝ) + 1 = 4 by norm_num]
  rw [burst_iter (fun _ => ⟨0, 0, 0⟩) 96 _ 4 _ _ 3 0 le_rfl (by norm_num) (by norm_num) (by simp)
    (timeIndex_five (n := 3) (by norm_num) (by norm_num) (by norm_num) (by norm_num)) rfl rfl,
    if_pos (by norm_num), emove, show (4 : ℝ) + 1 = 5 by norm_num]
  rfl


/-- The hypotheses of `C94_rest` are met. -/
example : ∃ xt, stepper.solveFull bestSolver (fun _ _ => .ok ⟨0, 0, 0⟩) ⟨0, 0, 0⟩ burst 1 5 = .ok (some xt) ∧
    xt.length = 5 ∧ ∀ x ∈ xt, x = ⟨0, 0, 0⟩ := by
  have hn : numSteps (5 : ℝ) 1 = .ok 5 := by
    rw [numSteps, real_div, real_fabs]
    exact castU32_real_of (n := 5) (by norm_num) (by norm_num) (by norm_num)
  obtain ⟨p1, e1, -⟩ := bestSolver_polyfit (samples := burstX 0) (by simp [burstX]) (burst_fits 0)
  have hfull : stepper.solveFull bestSolver (fun _ _ => .ok ⟨0, 0, 0⟩) ⟨0, 0, 0⟩ burst 1 5 =
      .ok (some ((linspace (lit 0 0) 5 5).map fun t => ⟨polyval p1 t, polyval p1 t, polyval p1 t⟩)) := by
    unfold RungeKutta45.solveFull
    rw [still_samples, Res.ok_bind]
    dsimp only
    rw [hn, Res.ok_bind]
    unfold resample
    simp only [component, List.map_cons, List.map_nil]
    simp only [burstX] at e1
    rw [e1, Res.ok_bind, Res.ok_bind, Res.ok_bind, Res.ok_bind]
    rfl
  have hl : ((linspace (lit 0 0) (5 : ℝ) 5).map fun t => (⟨polyval p1 t, polyval p1 t, polyval p1 t⟩ : V3 ℝ)).length = 5 := by
    rw [List.length_map, linspace_length]
  refine ⟨_, hfull, hl, ?_⟩
  refine C94_rest bestSolver_sound stepper _ burst 1 5 still_samples ?_ hfull (by rw [hl]; norm_num)
  norm_num [List.toFinset_cons]

end Ergodic
