import Verif.Props.Rk45Back
import Verif.Props.Resample

/-!
# C104: what the embedded integrator does with systems that have a known solution
-/

namespace Ergodic
open Polynomial

/-- `c₀ h d + c₁ h² A d + c₂ h³ A² d + …`.  The solution of `ẋ = A x + b` advances by this sum with the
coefficients `1, 1/2, 1/6, 1/24, …`, where `d = A x + b`. -/
noncomputable def series (A : M3 ℝ) (h : ℝ) : List ℝ → V3 ℝ → V3 ℝ
  | [], _ => ⟨0, 0, 0⟩
  | c :: cs, d => (V3.smul (c * h) d).add (series A h cs (V3.smul h (A.mulVec d)))

/-! ## One step on an affine system -/

/-- C104, one step: for `ẋ = A x + b` the step returns the degree-4 Taylor polynomial of the exact
solution plus `h⁵/104 A⁴ d`, as the method of Fehlberg does, plus the excess `e = 2197/5610168` times the
fourth stage, which it should not; the error estimate is the largest component of the difference to the
degree-5 polynomial, divided by the step.  Missing: without the terms in `e` the step would be of order
four. -/
theorem C104_affine_partial {U : Type} (A : M3 ℝ) (b x : V3 ℝ) (u : U) (h : ℝ) :
    let e : ℝ := 2197 / 5610168
    let d := (A.mulVec x).add b
    RungeKutta45.step (fun y (_ : U) => .ok ((A.mulVec y).add b)) x u h = .ok
      (x.add (series A h [1 + e, 1 / 2 + 12 / 13 * e, 1 / 6 + 72 / 169 * e, 1 / 24 + 513 / 2197 * e, 1 / 104] d),
       supNorm (series A h [-e, - 12 / 13 * e, - 72 / 169 * e, - 513 / 2197 * e, 1 / 120 - 1 / 104, 1 / 2080] d)
        / h) := by
  simp only [RungeKutta45.step, RungeKutta45.fehlberg, Res.ok_bind, mulVec_add, mulVec_smul, mulVec_sub,
    Res.ok.injEq, Prod.mk.injEq, maxAbs_real, real_div, series]
  constructor
  · ext <;> simp only [V3.add, V3.sub, V3.smul, RungeKutta45.q, real_add, real_sub, real_mul, real_div,
      real_lit] <;> push_cast <;> ring
  · congr 2
    ext <;> simp only [V3.add, V3.sub, V3.smul, RungeKutta45.q, real_add, real_sub, real_mul, real_div,
      real_lit] <;> push_cast <;> ring

/-- C104, one backward step of the co-state equation `ρ̇ = -g - b - Aᵀρ`: the same series, run backward in
time.  Missing: as for `C104_affine_partial`. -/
theorem C104_costate_partial (A : M3 ℝ) (g b rho : V3 ℝ) (h : ℝ) :
    let e : ℝ := 2197 / 5610168
    let d := (A.t.mulVec rho).add (g.add b)
    RungeKutta45.stepBack rhodot rho g b A h = .ok
      (rho.add
        (series A.t h [1 + e, 1 / 2 + 12 / 13 * e, 1 / 6 + 72 / 169 * e, 1 / 24 + 513 / 2197 * e, 1 / 104] d),
       supNorm (series A.t h [-e, - 12 / 13 * e, - 72 / 169 * e, - 513 / 2197 * e, 1 / 120 - 1 / 104, 1 / 2080] d)
        / h) := by
  intro e d
  have hg : (fun y => Res.ok (V3.smul (~-. h) (rhodot y g b A))) =
      fun y => (do let v ← Res.ok ((A.t.mulVec y).add (g.add b)); .ok (V3.smul h v) : Res (V3 ℝ)) := by
    funext y
    rw [Res.ok_bind, Res.ok.injEq]
    ext <;> simp only [rhodot, V3.add, V3.sub, V3.neg, V3.smul, real_add, real_sub, real_mul, real_neg] <;> ring
  have := C104_affine_partial A.t (g.add b) rho () h
  unfold RungeKutta45.stepBack
  rw [hg]
  exact this

/-! ## Whole integrations with a constant derivative -/

/-- What the samples of a constant derivative `d` from `x0` at time `t0` should be. -/
def OnLine (x0 d : V3 ℝ) (t0 : ℝ) (p : ℝ × V3 ℝ) : Prop :=
  p.2 = ⟨x0.c0 + (p.1 - t0) * d.c0, x0.c1 + (p.1 - t0) * d.c1, x0.c2 + (p.1 - t0) * d.c2⟩

/-- `d` stretched by the sum of the weights of the step. -/
noncomputable def stretched (d : V3 ℝ) : V3 ℝ := V3.smul (1 + 2197 / 5610168) d

theorem step_line {U : Type} (x0 d : V3 ℝ) (u : U) (t h : ℝ) (x y : V3 ℝ) (r : ℝ)
    (hx : OnLine x0 (stretched d) 0 (t, x))
    (hy : RungeKutta45.step (fun _ (_ : U) => .ok d) x u h = .ok (y, r)) :
    OnLine x0 (stretched d) 0 (t + h, y) := by
  simp only [RungeKutta45.step, Res.ok_bind, fehlberg_const, Res.ok.injEq, Prod.mk.injEq] at hy
  obtain ⟨rfl, -⟩ := hy
  simp only [OnLine] at hx ⊢
  subst hx
  ext <;> simp only [V3.add, V3.smul, stretched, excess, real_add, real_mul] <;> ring

theorem solve_line {U : Type} (s : RungeKutta45 ℝ) (ut : List U) (steps : UInt32) (ms : ℕ) (horizon : ℝ)
    (x0 d : V3 ℝ) : ∀ (fuel iter : ℕ) (t h : ℝ) (x : V3 ℝ) (acc l : List (ℝ × V3 ℝ)),
    OnLine x0 (stretched d) 0 (t, x) → (∀ a ∈ acc, OnLine x0 (stretched d) 0 a) → acc.getLast? = some (t, x) →
    s.solveLoop (fun _ _ => .ok d) ut steps ms horizon fuel iter t h x acc = .ok (some l) →
    (∀ a ∈ l, OnLine x0 (stretched d) 0 a) ∧
      ∃ a, l.getLast? = some a ∧ (horizon < a.1 ∨ |a.1 - horizon| < 1 / 10 ^ 12) := by
  intro fuel
  induction fuel with
  | zero => intro iter t h x acc l _ _ _ hl; simp [RungeKutta45.solveLoop] at hl
  | succ fuel ih =>
    intro iter t h x acc l hx hacc hlast hl
    rw [RungeKutta45.solveLoop] at hl
    obtain ⟨i, -, hl⟩ := Res.bind_eq_ok.mp hl
    obtain ⟨u, -, hl⟩ := Res.bind_eq_ok.mp hl
    obtain ⟨⟨y, r⟩, hy, hl⟩ := Res.bind_eq_ok.mp hl
    have hy' := step_line x0 d u t h x y r hx hy
    dsimp only at hl
    generalize hb : (Flt.lt r s.epsilon || almostEqual r s.epsilon) = b at hl
    split at hl
    · simp at hl
    obtain ⟨h', -, hl⟩ := Res.bind_eq_ok.mp hl
    rw [real_add] at hl
    have h1 : OnLine x0 (stretched d) 0 (if b = true then t + h else t, if b = true then y else x) := by
      cases b
      · exact hx
      · exact hy'
    have h2 : ∀ a ∈ (if b = true then acc ++ [(if b = true then t + h else t, y)] else acc),
        OnLine x0 (stretched d) 0 a := by
      intro a ha
      cases b
      · exact hacc a ha
      · simp only [if_true, List.mem_append, List.mem_singleton] at ha
        rcases ha with ha | rfl
        · exact hacc a ha
        · exact hy'
    have h3 : (if b = true then acc ++ [(if b = true then t + h else t, y)] else acc).getLast? =
        some (if b = true then t + h else t, if b = true then y else x) := by
      cases b
      · exact hlast
      · simp
    generalize (if b = true then acc ++ [(if b = true then t + h else t, y)] else acc) = acc' at hl h2 h3
    generalize (if b = true then t + h else t) = t' at hl h1 h3
    generalize (if b = true then y else x) = x' at hl h1 h3
    split at hl
    · simp at hl
    · split at hl
      · rename_i hf
        simp only [Res.ok.injEq, Option.some.injEq] at hl
        subst hl
        refine ⟨h2, _, h3, ?_⟩
        rw [Bool.or_eq_true, real_lt, real_almostEqual_eps] at hf
        exact hf
      · exact ih _ _ _ _ _ _ h1 h2 h3 hl

/-- Full statement of C104: the samples of a constant motion lie on it. -/
def C104_statement : Prop :=
  ∀ (s : RungeKutta45 ℝ) (x0 d : V3 ℝ) (ut : List (V3 ℝ)) (dt horizon : ℝ) (l : List (ℝ × V3 ℝ)),
    s.solve (fun _ _ => .ok d) x0 ut dt horizon = .ok (some l) → ∀ a ∈ l, OnLine x0 d 0 a

/-- C104: whatever the tolerance and the step bounds, the samples of a constant motion lie on the motion
that is faster by the factor `1 + 2197/5610168`, and they reach the horizon.  Missing: the factor one. -/
theorem C104_constant_partial {U : Type} (s : RungeKutta45 ℝ) (x0 d : V3 ℝ) (ut : List U) (dt horizon : ℝ)
    (l : List (ℝ × V3 ℝ)) (h : s.solve (fun _ _ => .ok d) x0 ut dt horizon = .ok (some l)) :
    (∀ a ∈ l, OnLine x0 (stretched d) 0 a) ∧
      ∃ a, l.getLast? = some a ∧ (horizon < a.1 ∨ |a.1 - horizon| < 1 / 10 ^ 12) := by
  unfold RungeKutta45.solve at h
  obtain ⟨st, -, h⟩ := Res.bind_eq_ok.mp h
  obtain ⟨ms, -, h⟩ := Res.bind_eq_ok.mp h
  dsimp only at h
  split_ifs at h
  have e0 : (lit 0 0 : ℝ) = 0 := by simp
  rw [e0] at h
  have h0 : OnLine x0 (stretched d) 0 (0, x0) := by simp [OnLine]
  exact solve_line _ _ _ _ _ _ _ _ _ _ _ _ _ _ h0 (by simpa using h0) rfl h

/-- C104: so no sample but the one at time zero is on the motion, when there is any. -/
theorem C104_off_line {U : Type} (s : RungeKutta45 ℝ) (x0 d : V3 ℝ) (ut : List U) (dt horizon : ℝ)
    (l : List (ℝ × V3 ℝ)) (h : s.solve (fun _ _ => .ok d) x0 ut dt horizon = .ok (some l))
    (hd : d ≠ ⟨0, 0, 0⟩) : ∀ a ∈ l, OnLine x0 d 0 a → a.1 = 0 := by
  intro a ha h1
  have h2 := (C104_constant_partial s x0 d ut dt horizon l h).1 a ha
  unfold OnLine at h1 h2
  rw [h1] at h2
  simp only [stretched, V3.smul, real_mul, V3.mk.injEq, sub_zero] at h2
  by_contra ht
  apply hd
  have key : ∀ x v : ℝ, x + a.1 * v = x + a.1 * ((1 + 2197 / 5610168) * v) → v = 0 := by
    intro x v hv
    have : a.1 * v = 0 := by linarith
    rcases mul_eq_zero.mp this with h | h
    · exact absurd h ht
    · exact h
  ext
  · exact key _ _ h2.1
  · exact key _ _ h2.2.1
  · exact key _ _ h2.2.2

/-- Quartic fits of samples on a straight line give the line back. -/
theorem resample_line {fit : Solver ℝ} (hfit : SoundSolver fit) (x0 d : V3 ℝ) (t0 horizon : ℝ)
    {samples : List (ℝ × V3 ℝ)} {n : ℕ} {xt : List (V3 ℝ)} (hs : ∀ a ∈ samples, OnLine x0 d t0 a)
    (hl : 4 < (samples.map Prod.fst).toFinset.card)
    (h : resample fit samples horizon (n + 2) = .ok xt) :
    ∀ (i : ℕ) (x : V3 ℝ), xt[i]? = some x → OnLine x0 d t0 (i * horizon / (n + 1), x) := by
  have hdeg : ∀ a b : ℝ, (C b * X + C a : ℝ[X]).natDegree ≤ 4 := fun a b =>
    natDegree_linear_le.trans (by norm_num)
  have := C94_quartic_partial hfit (Q0 := C d.c0 * X + C (x0.c0 - t0 * d.c0))
    (Q1 := C d.c1 * X + C (x0.c1 - t0 * d.c1)) (Q2 := C d.c2 * X + C (x0.c2 - t0 * d.c2))
    (hdeg _ _) (hdeg _ _) (hdeg _ _) hl
    (fun a ha => by
      have := hs a ha
      unfold OnLine at this
      rw [this]
      simp only [eval_add, eval_C, eval_mul, eval_X]
      refine ⟨by ring, by ring, by ring⟩) h
  intro i x hx
  rw [this, List.getElem?_map, Option.map_eq_some_iff] at hx
  obtain ⟨j, hj, rfl⟩ := hx
  have hij : j = i := by
    rw [List.getElem?_range (by
      by_contra hc
      rw [List.getElem?_eq_none (by simpa using hc)] at hj
      simp at hj)] at hj
    exact (Option.some.inj hj).symm
  subst hij
  simp only [OnLine, eval_add, eval_C, eval_mul, eval_X]
  ext <;> ring

/-- C104, the trajectory handed back for a constant motion: equidistant in time, on the faster motion. -/
theorem C104_trajectory {U : Type} {fit : Solver ℝ} (hfit : SoundSolver fit) (s : RungeKutta45 ℝ) (x0 d : V3 ℝ)
    (ut : List U) (dt horizon : ℝ) {samples : List (ℝ × V3 ℝ)} {xt : List (V3 ℝ)}
    (h : s.solve (fun _ _ => .ok d) x0 ut dt horizon = .ok (some samples))
    (hl : 4 < (samples.map Prod.fst).toFinset.card)
    (h' : s.solveFull fit (fun _ _ => .ok d) x0 ut dt horizon = .ok (some xt)) (h2 : 2 ≤ xt.length) :
    ∀ (i : ℕ) (x : V3 ℝ), xt[i]? = some x →
      OnLine x0 (stretched d) 0 (i * horizon / (xt.length - 1), x) := by
  obtain ⟨n, hn, hxl⟩ := C94_shape _ _ _ _ _ _ _ _ h'
  have hs := (C104_constant_partial s x0 d ut dt horizon _ h).1
  unfold RungeKutta45.solveFull at h'
  rw [h, Res.ok_bind] at h'
  dsimp only at h'
  rw [hn, Res.ok_bind] at h'
  obtain ⟨y, hy, h'⟩ := Res.bind_eq_ok.mp h'
  simp only [Res.ok.injEq, Option.some.injEq] at h'
  subst h'
  obtain ⟨k, hk⟩ : ∃ k, n.toNat = k + 2 := ⟨n.toNat - 2, by omega⟩
  rw [hk] at hy
  have hlen : (y.length : ℝ) - 1 = k + 1 := by rw [hxl, hk]; push_cast; ring
  rw [hlen]
  exact resample_line hfit x0 _ 0 horizon hs hl hy

/-! ## Backward -/

theorem stepBack_line (rhoT c : V3 ℝ) (t0 t h : ℝ) (rho y g b : V3 ℝ) (A : M3 ℝ) (r : ℝ)
    (hx : OnLine rhoT (stretched c) t0 (t, rho))
    (hy : RungeKutta45.stepBack (fun _ _ _ _ => c) rho g b A h = .ok (y, r)) :
    OnLine rhoT (stretched c) t0 (t - h, y) := by
  simp only [RungeKutta45.stepBack, fehlberg_const, Res.ok.injEq, Prod.mk.injEq] at hy
  obtain ⟨rfl, -⟩ := hy
  simp only [OnLine] at hx ⊢
  subst hx
  ext <;> simp only [V3.add, V3.smul, stretched, excess, real_add, real_mul, real_neg] <;> ring

theorem solveBack_line {U : Type} (s : RungeKutta45 ℝ) (fdx : V3 ℝ → U → M3 ℝ) (xt : List (V3 ℝ))
    (ut : List U) (edx bdx : List (V3 ℝ)) (steps : UInt32) (ms : ℕ) (horizon : ℝ)
    (rhoT c : V3 ℝ) : ∀ (fuel iter : ℕ) (t h : ℝ) (rho : V3 ℝ) (acc l : List (ℝ × V3 ℝ)),
    OnLine rhoT (stretched c) horizon (t, rho) → (∀ a ∈ acc, OnLine rhoT (stretched c) horizon a) →
    acc.getLast? = some (t, rho) →
    s.solveBackLoop (fun _ _ _ _ => c) fdx xt ut edx bdx steps ms horizon fuel iter t h rho acc = .ok (some l) →
    (∀ a ∈ l, OnLine rhoT (stretched c) horizon a) ∧
      ∃ a, l.getLast? = some a ∧ (a.1 < 0 ∨ |a.1| < 1 / 10 ^ 12) := by
  intro fuel
  induction fuel with
  | zero => intro iter t h x acc l _ _ _ hl; simp [RungeKutta45.solveBackLoop] at hl
  | succ fuel ih =>
    intro iter t h x acc l hx hacc hlast hl
    rw [RungeKutta45.solveBackLoop] at hl
    obtain ⟨i, -, hl⟩ := Res.bind_eq_ok.mp hl
    obtain ⟨e, -, hl⟩ := Res.bind_eq_ok.mp hl
    obtain ⟨b', -, hl⟩ := Res.bind_eq_ok.mp hl
    obtain ⟨x', -, hl⟩ := Res.bind_eq_ok.mp hl
    obtain ⟨u, -, hl⟩ := Res.bind_eq_ok.mp hl
    obtain ⟨⟨y, r⟩, hy, hl⟩ := Res.bind_eq_ok.mp hl
    have hy' := stepBack_line rhoT c horizon t h x y _ _ _ r hx hy
    dsimp only at hl
    generalize hb : (Flt.lt r s.epsilon || almostEqual r s.epsilon) = b at hl
    split at hl
    · simp at hl
    obtain ⟨h', -, hl⟩ := Res.bind_eq_ok.mp hl
    have e0 : (lit 0 0 : ℝ) = 0 := by simp
    rw [real_sub, e0] at hl
    have h1 : OnLine rhoT (stretched c) horizon (if b = true then t - h else t, if b = true then y else x) := by
      cases b
      · exact hx
      · exact hy'
    have h2 : ∀ a ∈ (if b = true then acc ++ [(if b = true then t - h else t, y)] else acc),
        OnLine rhoT (stretched c) horizon a := by
      intro a ha
      cases b
      · exact hacc a ha
      · simp only [if_true, List.mem_append, List.mem_singleton] at ha
        rcases ha with ha | rfl
        · exact hacc a ha
        · exact hy'
    have h3 : (if b = true then acc ++ [(if b = true then t - h else t, y)] else acc).getLast? =
        some (if b = true then t - h else t, if b = true then y else x) := by
      cases b
      · exact hlast
      · simp
    generalize (if b = true then acc ++ [(if b = true then t - h else t, y)] else acc) = acc' at hl h2 h3
    generalize (if b = true then t - h else t) = t' at hl h1 h3
    generalize (if b = true then y else x) = x' at hl h1 h3
    split at hl
    · simp at hl
    · split at hl
      · rename_i hf
        simp only [Res.ok.injEq, Option.some.injEq] at hl
        subst hl
        refine ⟨h2, _, h3, ?_⟩
        rw [Bool.or_eq_true, real_lt, real_almostEqual_eps, sub_zero] at hf
        exact hf
      · exact ih _ _ _ _ _ _ h1 h2 h3 hl

/-- C104, backward: the samples of a constant co-state derivative lie on the line through the terminal value
that is steeper by the same factor, and they reach time zero.  Missing: the factor one. -/
theorem C104_constant_back_partial {U : Type} (s : RungeKutta45 ℝ) (fdx : V3 ℝ → U → M3 ℝ) (rhoT c : V3 ℝ)
    (xt : List (V3 ℝ)) (ut : List U) (edx bdx : List (V3 ℝ)) (dt horizon : ℝ) (l : List (ℝ × V3 ℝ))
    (h : s.solveBack (fun _ _ _ _ => c) fdx rhoT xt ut edx bdx dt horizon = .ok (some l)) :
    (∀ a ∈ l, OnLine rhoT (stretched c) horizon a) ∧
      ∃ a, l.getLast? = some a ∧ (a.1 < 0 ∨ |a.1| < 1 / 10 ^ 12) := by
  unfold RungeKutta45.solveBack at h
  obtain ⟨st, -, h⟩ := Res.bind_eq_ok.mp h
  obtain ⟨ms, -, h⟩ := Res.bind_eq_ok.mp h
  dsimp only at h
  split_ifs at h
  have h0 : OnLine rhoT (stretched c) horizon (horizon, rhoT) := by simp [OnLine]
  exact solveBack_line _ _ _ _ _ _ _ _ _ _ _ _ _ _ _ _ _ _ h0 (by simpa using h0) rfl h

/-- C104, the co-states handed back for a constant derivative: equidistant in time, from zero on. -/
theorem C104_costates {U : Type} {fit : Solver ℝ} (hfit : SoundSolver fit) (s : RungeKutta45 ℝ)
    (fdx : V3 ℝ → U → M3 ℝ) (rhoT c : V3 ℝ) (xt : List (V3 ℝ)) (ut : List U) (edx bdx : List (V3 ℝ))
    (dt horizon : ℝ) {samples : List (ℝ × V3 ℝ)} {rhot : List (V3 ℝ)}
    (h : s.solveBack (fun _ _ _ _ => c) fdx rhoT xt ut edx bdx dt horizon = .ok (some samples))
    (hl : 4 < (samples.map Prod.fst).toFinset.card)
    (h' : s.solveBackFull fit (fun _ _ _ _ => c) fdx rhoT xt ut edx bdx dt horizon = .ok (some rhot))
    (n : UInt32) (hn : numSteps horizon dt = .ok n) (h2 : 2 ≤ n.toNat) :
    rhot.length = n.toNat ∧ ∀ (i : ℕ) (r : V3 ℝ), rhot[i]? = some r →
      OnLine rhoT (stretched c) horizon (i * horizon / (n.toNat - 1), r) := by
  have hs := (C104_constant_back_partial s fdx rhoT c xt ut edx bdx dt horizon _ h).1
  unfold RungeKutta45.solveBackFull at h'
  rw [h, Res.ok_bind] at h'
  dsimp only at h'
  rw [hn, Res.ok_bind] at h'
  obtain ⟨y, hy, h'⟩ := Res.bind_eq_ok.mp h'
  simp only [Res.ok.injEq, Option.some.injEq] at h'
  subst h'
  obtain ⟨k, hk⟩ : ∃ k, n.toNat = k + 2 := ⟨n.toNat - 2, by omega⟩
  rw [hk] at hy ⊢
  have hlen : ((k + 2 : ℕ) : ℝ) - 1 = k + 1 := by push_cast; ring
  rw [hlen]
  refine ⟨?_, resample_line hfit rhoT _ horizon horizon hs hl hy⟩
  unfold resample at hy
  obtain ⟨p0, -, hy⟩ := Res.bind_eq_ok.mp hy
  obtain ⟨p1, -, hy⟩ := Res.bind_eq_ok.mp hy
  obtain ⟨p2, -, hy⟩ := Res.bind_eq_ok.mp hy
  simp only [Res.ok.injEq] at hy
  rw [← hy, List.length_map, linspace_length]

/-! ## The refutation -/

/-- One iteration of a constant motion with steps of one second. -/
theorem five_iter (fuel iter : ℕ) (t : ℝ) (x : V3 ℝ) (acc : List (ℝ × V3 ℝ)) (i : UInt32)
    (hi : iter ≠ 100) (hm : acc.length < 6) (ht : RungeKutta45.timeIndex 5 t 5 = .ok i)
    {u : V3 ℝ} (hu : col burst i.toNat = .ok u) :
    stepper.solveLoop (fun _ _ => .ok ⟨1, 0, 0⟩) burst 5 6 5 (fuel + 1) iter t 1 x acc =
      if 5 < t + 1 ∨ |t + 1 - 5| < 1 / 10 ^ 12 then
        .ok (some (acc ++ [(t + 1, x.add (V3.smul (1 + 2197 / 5610168) ⟨1, 0, 0⟩))]))
      else stepper.solveLoop (fun _ _ => .ok ⟨1, 0, 0⟩) burst 5 6 5 fuel (iter + 1) (t + 1)
        (if 5 < t + 1 + 1 then 5 - (t + 1) else 1) (x.add (V3.smul (1 + 2197 / 5610168) ⟨1, 0, 0⟩))
        (acc ++ [(t + 1, x.add (V3.smul (1 + 2197 / 5610168) ⟨1, 0, 0⟩))]) :=
  burst_iter (fun _ => ⟨1, 0, 0⟩) fuel iter t x acc i 1 zero_le_one le_rfl hi hm ht hu rfl

/-- A body that moves along `x` at one metre per second for five seconds: six samples, each too far. -/
theorem five_samples : stepper.solve (fun _ _ => .ok ⟨1, 0, 0⟩) ⟨0, 0, 0⟩ burst 1 5 = .ok (some
    [(0, ⟨0, 0, 0⟩), (1, ⟨1 * (1 + 2197 / 5610168), 0, 0⟩), (2, ⟨2 * (1 + 2197 / 5610168), 0, 0⟩),
      (3, ⟨3 * (1 + 2197 / 5610168), 0, 0⟩), (4, ⟨4 * (1 + 2197 / 5610168), 0, 0⟩),
      (5, ⟨5 * (1 + 2197 / 5610168), 0, 0⟩)]) := by
  have hn : numSteps (5 : ℝ) 1 = .ok 5 := by
    rw [numSteps, real_div, real_fabs]
    exact castU32_real_of (n := 5) (by norm_num) (by norm_num) (by norm_num)
  have hc : castU32 ((5 : ℝ) / stepper.hmin) = .ok 5 :=
    castU32_real_of (n := 5) (by norm_num [stepper]) (by norm_num [stepper]) (by norm_num)
  have hms : ((5 : UInt32) + 1).toNat = 6 := rfl
  simp only [RungeKutta45.solve, hn, real_div, hc, Res.ok_bind, hms]
  rw [if_neg (by norm_num)]
  have e0 : (lit 0 0 : ℝ) = 0 := by simp
  have eh : (stepper.hmax +. stepper.hmin) / (lit 2 0 : ℝ) = 1 := by
    simp only [real_add, real_lit, stepper]; norm_num
  have emove : ∀ k v : ℝ, (⟨k * v, 0, 0⟩ : V3 ℝ).add (V3.smul v ⟨1, 0, 0⟩) = ⟨(k + 1) * v, 0, 0⟩ := by
    intro k v; ext <;> simp [V3.add, V3.smul, add_mul]
  have efirst : ∀ v : ℝ, (⟨0, 0, 0⟩ : V3 ℝ).add (V3.smul v ⟨1, 0, 0⟩) = ⟨1 * v, 0, 0⟩ := by
    intro v; ext <;> simp [V3.add, V3.smul]
  rw [e0, eh, show stepper.max_iter = 100 from rfl]
  rw [five_iter 100 0 0 _ _ 0 (by norm_num) (by simp)
    (timeIndex_five (n := 0) (by norm_num) (by norm_num) (by norm_num) (by norm_num)) rfl,
    if_neg (by norm_num [abs_of_neg]), if_neg (by norm_num), efirst, show (0 : ℝ) + 1 = 1 by norm_num]
  rw [five_iter 99 _ 1 _ _ 1 (by norm_num) (by simp)
    (timeIndex_five (n := 1) (by norm_num) (by norm_num) (by norm_num) (by norm_num)) rfl,
    if_neg (by norm_num [abs_of_neg]), if_neg (by norm_num), emove, show (1 : ℝ) + 1 = 2 by norm_num]
  rw [five_iter 98 _ 2 _ _ 2 (by norm_num) (by simp)
    (timeIndex_five (n := 2) (by norm_num) (by norm_num) (by norm_num) (by norm_num)) rfl,
    if_neg (by norm_num [abs_of_neg]), if_neg (by norm_num), emove, show (2 : ℝ) + 1 = 3 by norm_num]
  rw [five_iter 97 _ 3 _ _ 2 (by norm_num) (by simp)
    (timeIndex_five (n := 2) (by norm_num) (by norm_num) (by norm_num) (by norm_num)) rfl,
    if_neg (by norm_num [abs_of_neg]), if_neg (by norm_num), emove, show (3 : ℝ) + 1 = 4 by norm_num]
  rw [five_iter 96 _ 4 _ _ 3 (by norm_num) (by simp)
    (timeIndex_five (n := 3) (by norm_num) (by norm_num) (by norm_num) (by norm_num)) rfl,
    if_pos (by norm_num), emove, show (4 : ℝ) + 1 = 5 by norm_num]
  rfl

/-- C104 is false: the body of `five_samples` is not at `5` after five seconds. -/
theorem C104_refuted : ¬ C104_statement := by
  intro hs
  have := hs stepper ⟨0, 0, 0⟩ ⟨1, 0, 0⟩ burst 1 5 _ five_samples (5, ⟨5 * (1 + 2197 / 5610168), 0, 0⟩)
    (by simp)
  simp only [OnLine, V3.mk.injEq] at this
  norm_num at this

/-- The samples of `C104_trajectory`'s hypotheses exist: six different times. -/
example : ∃ l, stepper.solve (fun _ _ => .ok ⟨1, 0, 0⟩) ⟨0, 0, 0⟩ burst 1 5 = .ok (some l) ∧
    4 < (l.map Prod.fst).toFinset.card :=
  ⟨_, five_samples, by
    rw [List.toFinset_card_of_nodup (by norm_num)]
    simp⟩

end Ergodic
