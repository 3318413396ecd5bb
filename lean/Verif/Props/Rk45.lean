import Verif.Props.Integrator

/-!
# Properties C53–C54: the embedded Runge-Kutta-Fehlberg integrator
-/

namespace Ergodic
open Real

/-! ## C53 consistency of one step -/

/-- largest absolute entry of a 3-vector -/
noncomputable def supNorm (d : V3 ℝ) : ℝ := max (max |d.c0| |d.c1|) |d.c2|

theorem maxAbs_real (v : V3 ℝ) : RungeKutta45.maxAbs v = supNorm v := by
  have hm : ∀ a b : ℝ, fmax a b = max a b := by
    intro a b
    unfold fmax
    by_cases h : a < b
    · simp [h, max_eq_right h.le]
    · simp [h, max_eq_left (not_lt.mp h)]
  simp only [RungeKutta45.maxAbs, supNorm, hm, real_fabs]

/-- Excess of the fourth-order weights over 1, caused by `2197/4101` instead of `2197/4104`. -/
noncomputable def excess : ℝ := 2197 / 5610168

theorem fehlberg_const (d x : V3 ℝ) (h : ℝ) :
    RungeKutta45.fehlberg (fun _ => .ok d) x h =
      .ok (x.add (V3.smul (1 + excess) d), excess * supNorm d / h) := by
  simp only [RungeKutta45.fehlberg, Res.ok_bind, Res.ok.injEq, Prod.mk.injEq]
  constructor
  · ext <;> simp only [V3.add, V3.sub, V3.smul, RungeKutta45.q, excess, real_add, real_sub, real_mul,
      real_div, real_lit] <;> push_cast <;> ring
  · rw [maxAbs_real, real_div]
    congr 1
    have e : ∀ a : ℝ, excess * |a| = |excess * a| := by
      intro a; rw [abs_mul, abs_of_pos (by norm_num [excess] : 0 < excess)]
    have : supNorm (V3.smul (-excess) d) = excess * supNorm d := by
      simp only [supNorm, V3.smul, real_mul, neg_mul, abs_neg]
      rw [← e, ← e, ← e, mul_max_of_nonneg _ _ (by norm_num [excess]),
        mul_max_of_nonneg _ _ (by norm_num [excess])]
    rw [← this]
    congr 1
    ext <;> simp only [V3.add, V3.sub, V3.smul, RungeKutta45.q, excess, real_add, real_sub, real_mul,
      real_div, real_lit] <;> push_cast <;> ring

/-- Full statement of C53. -/
def C53_statement : Prop :=
  ∀ (x d u : V3 ℝ) (h : ℝ), 0 < h →
    RungeKutta45.step (fun _ (_ : V3 ℝ) => .ok d) x u h = .ok (x.add (V3.smul h d), 0)

/-- C53, what the step does: it overshoots by the factor `1 + 2197/5610168` and reports an error
proportional to the derivative.  Missing: the factor 1 and the error 0 (they hold for a zero
derivative only). -/
theorem C53_constant_partial {U : Type} (x d : V3 ℝ) (u : U) (h : ℝ) (hh : 0 < h) :
    RungeKutta45.step (fun _ (_ : U) => .ok d) x u h =
      .ok (x.add (V3.smul (h * (1 + 2197 / 5610168)) d), 2197 / 5610168 * supNorm d) := by
  simp only [RungeKutta45.step, Res.ok_bind]
  rw [fehlberg_const, Res.ok.injEq, Prod.mk.injEq]
  constructor
  · ext <;> simp only [V3.add, V3.smul, excess, real_add, real_mul] <;> ring
  · have : supNorm (V3.smul h d) = h * supNorm d := by
      simp only [supNorm, V3.smul, real_mul, abs_mul, abs_of_pos hh]
      rw [mul_max_of_nonneg _ _ hh.le, mul_max_of_nonneg _ _ hh.le]
    rw [this, excess]
    field_simp

/-- C53: the backward step has the same factor. -/
theorem C53_backward_partial (rho c g b : V3 ℝ) (A : M3 ℝ) (h : ℝ) (hh : 0 < h) :
    RungeKutta45.stepBack (fun _ _ _ _ => c) rho g b A h =
      .ok (rho.sub (V3.smul (h * (1 + 2197 / 5610168)) c), 2197 / 5610168 * supNorm c) := by
  simp only [RungeKutta45.stepBack]
  rw [fehlberg_const, Res.ok.injEq, Prod.mk.injEq]
  constructor
  · ext <;> simp only [V3.add, V3.sub, V3.smul, excess, real_add, real_sub, real_mul, real_neg] <;> ring
  · have : supNorm (V3.smul (~-. h) c) = h * supNorm c := by
      simp only [supNorm, V3.smul, real_mul, real_neg, neg_mul, abs_neg, abs_mul, abs_of_pos hh]
      rw [mul_max_of_nonneg _ _ hh.le, mul_max_of_nonneg _ _ hh.le]
    rw [this, excess]
    field_simp

/-- C53 holds for a body at rest. -/
theorem C53_rest {U : Type} (x : V3 ℝ) (u : U) (h : ℝ) (hh : 0 < h) :
    RungeKutta45.step (fun _ (_ : U) => .ok (⟨0, 0, 0⟩ : V3 ℝ)) x u h = .ok (x, 0) := by
  rw [C53_constant_partial x _ u h hh]
  simp [supNorm, V3.add, V3.smul]

/-- C53 is false: a unit derivative is overshot. -/
theorem C53_refuted : ¬ C53_statement := by
  intro hs
  have h1 := hs ⟨0, 0, 0⟩ ⟨1, 0, 0⟩ ⟨0, 0, 0⟩ 1 one_pos
  rw [C53_constant_partial _ _ _ _ one_pos] at h1
  simp only [Res.ok.injEq, Prod.mk.injEq, supNorm] at h1
  have := h1.2
  norm_num at this

theorem real_almostEqual_eps (a b : ℝ) : almostEqual a b = true ↔ |a - b| < 1 / 10 ^ 12 := by
  rw [real_almostEqual]; norm_num

/-- C53, consequence: with a tolerance below the spurious error no step is ever accepted, so a
constant motion over a horizon of at least the comparison tolerance is never integrated. -/
theorem C53_never_accepts {U : Type} (s : RungeKutta45 ℝ) (d x0 : V3 ℝ) (ut : List U) (dt horizon : ℝ)
    (hmin : 0 < s.hmin) (hmax : 0 < s.hmax) (hH : 1 / 10 ^ 12 ≤ horizon)
    (he : s.epsilon + 1 / 10 ^ 12 ≤ 2197 / 5610168 * supNorm d) (l : List (ℝ × V3 ℝ)) :
    s.solve (fun _ (_ : U) => .ok d) x0 ut dt horizon ≠ .ok (some l) := by
  have key : ∀ (steps : UInt32) (ms fuel iter : Nat) (h : ℝ) (x : V3 ℝ) (acc : List (ℝ × V3 ℝ)),
      0 < h → s.solveLoop (fun _ (_ : U) => .ok d) ut steps ms horizon fuel iter 0 h x acc ≠ .ok (some l) := by
    intro steps ms fuel
    induction fuel with
    | zero => intro iter h x acc _ hc; simp [RungeKutta45.solveLoop] at hc
    | succ fuel ih =>
      intro iter h x acc hh hc
      simp only [RungeKutta45.solveLoop, Res.bind_eq_ok, C53_constant_partial x d _ h hh,
        Res.ok.injEq] at hc
      obtain ⟨i, -, u, -, ⟨xn, r⟩, hxr, hc⟩ := hc
      simp only [Prod.mk.injEq] at hxr
      obtain ⟨-, hr⟩ := hxr
      have hna : (Flt.lt r s.epsilon || almostEqual r s.epsilon) = false := by
        have h1 : Flt.lt r s.epsilon = false := by
          rw [real_lt_false, ← hr]
          have : (0:ℝ) < 1 / 10 ^ 12 := by norm_num
          linarith
        have h2 : almostEqual r s.epsilon = false := by
          rw [Bool.eq_false_iff, ne_eq, real_almostEqual_eps, ← hr, not_lt]
          refine le_trans ?_ (le_abs_self _)
          linarith
        rw [h1, h2]; rfl
      have hnf : (Flt.lt horizon (0:ℝ) || almostEqual (0:ℝ) horizon) = false := by
        have h1 : Flt.lt horizon (0:ℝ) = false := by
          rw [real_lt_false]
          have : (0:ℝ) < 1 / 10 ^ 12 := by norm_num
          linarith
        have h2 : almostEqual (0:ℝ) horizon = false := by
          rw [Bool.eq_false_iff, ne_eq, real_almostEqual_eps, not_lt, zero_sub, abs_neg]
          exact hH.trans (le_abs_self _)
        rw [h1, h2]; rfl
      simp only [hna, Bool.false_eq_true, false_and, if_false, Res.bind_eq_ok, hnf] at hc
      obtain ⟨h', hn', hc⟩ := hc
      split at hc
      · simp at hc
      · refine ih _ _ _ _ ?_ hc
        have hp : 0 < h' := by
          simp only [RungeKutta45.nextH] at hn'
          split at hn'
          · simp at hn'
          · rw [Res.ok.injEq] at hn'
            rw [← hn']
            unfold fclamp
            split
            · exact hmin
            · split
              · exact hmax
              · rename_i h1 _
                simp only [real_lt, not_lt] at h1
                linarith
        split
        · have : (0:ℝ) < 1 / 10 ^ 12 := by norm_num
          simp only [real_sub, sub_zero]
          linarith
        · exact hp
  intro hc
  simp only [RungeKutta45.solve, Res.bind_eq_ok] at hc
  obtain ⟨n, -, ms, -, hc⟩ := hc
  split at hc
  · simp at hc
  · have e : (lit 0 0 : ℝ) = 0 := by simp
    rw [e] at hc
    refine key _ _ _ _ _ _ _ ?_ hc
    simp only [real_div, real_add, real_lit]
    push_cast
    linarith

example : (1e-5 : ℝ) + 1 / 10 ^ 12 ≤ 2197 / 5610168 * supNorm ⟨1, 0, 0⟩ := by
  norm_num [supNorm]

/-! ## C54 bookkeeping -/

theorem bind_ne_timeout {α β : Type} {r : Res α} {g : α → Res β} (h : r ≠ .timeout)
    (h' : ∀ a, r = .ok a → g a ≠ .timeout) : (r >>= g) ≠ .timeout := by
  cases r with
  | ok a => exact h' a rfl
  | throw e => simp
  | ub => simp
  | timeout => exact absurd rfl h

theorem ite_ne_timeout {α : Type} {c : Prop} [Decidable c] {a b : Res α} (ha : a ≠ .timeout)
    (hb : ¬ c → b ≠ .timeout) : (if c then a else b) ≠ .timeout := by
  split
  · exact ha
  · exact hb ‹_›

theorem col_ne_timeout {α : Type} (m : List α) (i : Nat) : col m i ≠ .timeout := by
  unfold col; split <;> simp

theorem castU32_ne_timeout {F : Type} [Flt F] (x : F) : castU32 x ≠ .timeout := by
  unfold castU32; split
  · split <;> simp
  · simp

theorem fehlberg_ne_timeout {F : Type} [Flt F] (g : V3 F → Res (V3 F)) (hg : ∀ y, g y ≠ .timeout)
    (x : V3 F) (h : F) : RungeKutta45.fehlberg g x h ≠ .timeout := by
  unfold RungeKutta45.fehlberg
  refine bind_ne_timeout (hg _) fun _ _ => bind_ne_timeout (hg _) fun _ _ =>
    bind_ne_timeout (hg _) fun _ _ => bind_ne_timeout (hg _) fun _ _ =>
    bind_ne_timeout (hg _) fun _ _ => bind_ne_timeout (hg _) fun _ _ => ?_
  simp

theorem nextH_ne_timeout {F : Type} [Flt F] (s : RungeKutta45 F) (h r : F) :
    s.nextH h r ≠ .timeout := by
  unfold RungeKutta45.nextH; dsimp only; split <;> simp

/-- C54: the forward integration ends after at most `max_iter + 1` iterations, for every arithmetic
(`timeout` is what the model returns when more would be needed). -/
theorem C54_terminates {F U : Type} [Flt F] (s : RungeKutta45 F) (f : V3 F → U → Res (V3 F))
    (hf : ∀ x u, f x u ≠ .timeout) (x0 : V3 F) (ut : List U) (dt horizon : F) :
    s.solve f x0 ut dt horizon ≠ .timeout := by
  have key : ∀ (steps : UInt32) (ms fuel iter : Nat) (t h : F) (x : V3 F) (acc : List (F × V3 F)),
      iter + (fuel + 1) = s.max_iter + 1 →
      s.solveLoop f ut steps ms horizon (fuel + 1) iter t h x acc ≠ .timeout := by
    intro steps ms fuel
    induction fuel with
    | zero =>
      intro iter t h x acc hi
      unfold RungeKutta45.solveLoop
      refine bind_ne_timeout (castU32_ne_timeout _) fun i _ => bind_ne_timeout (col_ne_timeout _ _)
        fun u _ => bind_ne_timeout (fehlberg_ne_timeout _ (fun y => bind_ne_timeout (hf y u)
          (by simp)) _ _) fun p _ => ?_
      dsimp only
      split
      · simp
      · refine bind_ne_timeout (nextH_ne_timeout _ _ _) fun h' _ => ?_
        rw [if_pos (show iter = s.max_iter by omega)]
        simp
    | succ fuel ih =>
      intro iter t h x acc hi
      unfold RungeKutta45.solveLoop
      refine bind_ne_timeout (castU32_ne_timeout _) fun i _ => bind_ne_timeout (col_ne_timeout _ _)
        fun u _ => bind_ne_timeout (fehlberg_ne_timeout _ (fun y => bind_ne_timeout (hf y u)
          (by simp)) _ _) fun p _ => ?_
      dsimp only
      split
      · simp
      · refine bind_ne_timeout (nextH_ne_timeout _ _ _) fun h' _ => ?_
        exact ite_ne_timeout (by simp) fun _ => ite_ne_timeout (by simp) fun _ =>
          ih _ _ _ _ _ (by omega)
  unfold RungeKutta45.solve
  refine bind_ne_timeout (castU32_ne_timeout _) fun n _ => bind_ne_timeout (castU32_ne_timeout _)
    fun ms _ => ?_
  dsimp only
  split
  · simp
  · exact key _ _ _ _ _ _ _ _ (by omega)

/-- C54: the backward integration ends after at most `max_iter + 1` iterations. -/
theorem C54_terminates_back {F U : Type} [Flt F] (s : RungeKutta45 F) (func : CoStateFunc F)
    (fdx : V3 F → U → M3 F) (rhoT : V3 F) (xt : List (V3 F)) (ut : List U) (edx bdx : List (V3 F))
    (dt horizon : F) : s.solveBack func fdx rhoT xt ut edx bdx dt horizon ≠ .timeout := by
  have key : ∀ (steps : UInt32) (ms fuel iter : Nat) (t h : F) (x : V3 F) (acc : List (F × V3 F)),
      iter + (fuel + 1) = s.max_iter + 1 →
      s.solveBackLoop func fdx xt ut edx bdx steps ms horizon (fuel + 1) iter t h x acc ≠ .timeout := by
    intro steps ms fuel
    induction fuel with
    | zero =>
      intro iter t h x acc hi
      unfold RungeKutta45.solveBackLoop
      refine bind_ne_timeout (castU32_ne_timeout _) fun i _ => bind_ne_timeout (col_ne_timeout _ _)
        fun _ _ => bind_ne_timeout (col_ne_timeout _ _) fun _ _ => bind_ne_timeout (col_ne_timeout _ _)
        fun _ _ => bind_ne_timeout (col_ne_timeout _ _) fun _ _ =>
          bind_ne_timeout (fehlberg_ne_timeout _ (fun y => by simp) _ _) fun p _ => ?_
      dsimp only
      split
      · simp
      · refine bind_ne_timeout (nextH_ne_timeout _ _ _) fun h' _ => ?_
        rw [if_pos (show iter = s.max_iter by omega)]
        simp
    | succ fuel ih =>
      intro iter t h x acc hi
      unfold RungeKutta45.solveBackLoop
      refine bind_ne_timeout (castU32_ne_timeout _) fun i _ => bind_ne_timeout (col_ne_timeout _ _)
        fun _ _ => bind_ne_timeout (col_ne_timeout _ _) fun _ _ => bind_ne_timeout (col_ne_timeout _ _)
        fun _ _ => bind_ne_timeout (col_ne_timeout _ _) fun _ _ =>
          bind_ne_timeout (fehlberg_ne_timeout _ (fun y => by simp) _ _) fun p _ => ?_
      dsimp only
      split
      · simp
      · refine bind_ne_timeout (nextH_ne_timeout _ _ _) fun h' _ => ?_
        exact ite_ne_timeout (by simp) fun _ => ite_ne_timeout (by simp) fun _ =>
          ih _ _ _ _ _ (by omega)
  unfold RungeKutta45.solveBack
  refine bind_ne_timeout (castU32_ne_timeout _) fun n _ => bind_ne_timeout (castU32_ne_timeout _)
    fun ms _ => ?_
  dsimp only
  split
  · simp
  · exact key _ _ _ _ _ _ _ _ (by omega)

/-- The accepted times increase strictly from 0 and end within the comparison tolerance of the
horizon without passing it. -/
def GoodTimes (horizon : ℝ) (l : List (ℝ × V3 ℝ)) : Prop :=
  (l.map Prod.fst).Pairwise (· < ·) ∧ (∀ p ∈ l, p.1 ≤ horizon) ∧ (l.map Prod.fst).head? = some 0 ∧
    ∃ p, l.getLast? = some p ∧ |p.1 - horizon| < 1 / 10 ^ 12

/-- Full statement of C54 (besides termination): integration with sensible parameters never writes
outside the allocated matrix, and the accepted times are as they should be. -/
def C54_statement : Prop :=
  ∀ (s : RungeKutta45 ℝ) (f : V3 ℝ → V3 ℝ → Res (V3 ℝ)) (x0 : V3 ℝ) (ut : List (V3 ℝ))
    (dt horizon : ℝ) (n k : UInt32), (∀ x u, ∃ d, f x u = .ok d) → 0 < s.hmin → s.hmin ≤ s.hmax →
    0 < s.epsilon → 1 / 10 ^ 12 ≤ horizon → numSteps horizon dt = .ok n → 0 < n.toNat → n.toNat ≤ ut.length →
    castU32 (horizon / s.hmin) = .ok k → k.toNat + 1 < 2 ^ 32 →
    s.solve f x0 ut dt horizon = .ok none ∨
    ∃ l, s.solve f x0 ut dt horizon = .ok (some l) ∧ GoodTimes horizon l

theorem timeIndex_ok (n : UInt32) (hn : 0 < n.toNat) (t horizon : ℝ) (h0 : 0 ≤ t) (h1 : t ≤ horizon)
    (hH : 0 < horizon) : ∃ i, RungeKutta45.timeIndex n t horizon = .ok i ∧ i.toNat < n.toNat := by
  have hsub : (n - 1).toNat = n.toNat - 1 := by
    rw [UInt32.toNat_sub_of_le]
    · rfl
    · rw [UInt32.le_iff_toNat_le]; exact hn
  have hq0 : 0 ≤ t / horizon := div_nonneg h0 hH.le
  have hq1 : t / horizon ≤ 1 := (div_le_one hH).mpr h1
  set v : ℝ := ((n.toNat - 1 : Nat) : ℝ) * (t / horizon) with hv
  have hv0 : 0 ≤ v := mul_nonneg (Nat.cast_nonneg _) hq0
  have hv1 : v ≤ ((n.toNat - 1 : Nat) : ℝ) := by
    rw [hv]; exact mul_le_of_le_one_right (Nat.cast_nonneg _) hq1
  have hr : realRound v = ((⌊v + 1 / 2⌋₊ : Nat) : ℝ) := by
    simp only [realRound, hv0, if_true]
    rw [← Int.floor_toNat]
    have : 0 ≤ ⌊v + 1 / 2⌋ := Int.floor_nonneg.mpr (by linarith)
    exact_mod_cast (Int.toNat_of_nonneg this).symm
  have hb : ⌊v + 1 / 2⌋₊ < n.toNat := by
    have : ⌊v + 1 / 2⌋₊ < n.toNat - 1 + 1 := by
      rw [Nat.floor_lt (by linarith)]
      push_cast
      linarith
    omega
  refine ⟨UInt32.ofNat ⌊v + 1 / 2⌋₊, ?_, ?_⟩
  · unfold RungeKutta45.timeIndex
    rw [hsub]
    simp only [real_floor, real_round, real_mul, real_ofInt, real_div, real_fabs, abs_of_nonneg hq0]
    rw [show ((((n.toNat - 1 : Nat) : Int)) : ℝ) * (t / horizon) = v by rw [hv]; push_cast; rfl, hr]
    rw [Int.floor_natCast]
    have := castU32_natCast (n := ⌊v + 1 / 2⌋₊) (lt_trans hb (uint32_lt n))
    exact_mod_cast this
  · rw [UInt32.toNat_ofNat_of_lt' (lt_trans hb (uint32_lt n))]; exact hb

theorem fehlberg_total {F : Type} [Flt F] (g : V3 F → Res (V3 F)) (hg : ∀ y, ∃ d, g y = .ok d)
    (x : V3 F) (h : F) : ∃ p, RungeKutta45.fehlberg g x h = .ok p := by
  choose d hd using hg
  simp [RungeKutta45.fehlberg, hd]

theorem nextH_ok (s : RungeKutta45 ℝ) (hm : s.hmin ≤ s.hmax) (h r : ℝ) :
    ∃ h', s.nextH h r = .ok h' ∧ s.hmin ≤ h' ∧ h' ≤ s.hmax := by
  unfold RungeKutta45.nextH
  dsimp only
  rw [if_neg (by rw [real_lt, not_lt]; exact hm)]
  refine ⟨_, rfl, ?_⟩
  unfold fclamp
  split_ifs with h1 h2
  · exact ⟨le_rfl, hm⟩
  · exact ⟨hm, le_rfl⟩
  · simp only [real_lt, not_lt] at h1 h2
    exact ⟨h1, h2⟩

/-- Loop invariant of the forward integration. -/
theorem solve45_inv {U : Type} (s : RungeKutta45 ℝ) (f : V3 ℝ → U → Res (V3 ℝ)) (ut : List U)
    (horizon : ℝ) (n : UInt32) (k : Nat) (hf : ∀ x u, ∃ d, f x u = .ok d) (hmin : 0 < s.hmin)
    (hm : s.hmin ≤ s.hmax) (hH : 0 < horizon) (hn : 0 < n.toNat) (hu : n.toNat ≤ ut.length)
    (hk : horizon ≤ k * s.hmin) :
    ∀ (fuel iter : Nat) (t h : ℝ) (x : V3 ℝ) (acc : List (ℝ × V3 ℝ)),
      iter + (fuel + 1) = s.max_iter + 1 → 0 ≤ t → 1 / 10 ^ 12 ≤ horizon - t → 0 < h → t + h ≤ horizon →
      (s.hmin ≤ h ∨ t + h = horizon) → 1 ≤ acc.length → ((acc.length : ℝ) - 1) * s.hmin ≤ t →
      (acc.map Prod.fst).Pairwise (· < ·) → (∀ p ∈ acc, p.1 ≤ t) →
      (acc.map Prod.fst).head? = some 0 →
      s.solveLoop f ut n (k + 1) horizon (fuel + 1) iter t h x acc = .ok none ∨
      ∃ l, s.solveLoop f ut n (k + 1) horizon (fuel + 1) iter t h x acc = .ok (some l) ∧
        GoodTimes horizon l ∧ l.length ≤ k + 1 := by
  intro fuel
  induction fuel with
  | zero =>
    intro iter t h x acc hi ht0 htg hh hth _ hl hst hp hle hhd
    left
    have ht1 : t < horizon := by
      have : (0:ℝ) < 1 / 10 ^ 12 := by norm_num
      linarith
    obtain ⟨i, hi', hilt⟩ := timeIndex_ok n hn t horizon ht0 ht1.le hH
    have hc : col ut i.toNat = .ok (ut[i.toNat]'(by omega)) := by
      rw [col_eq_ok, List.getElem?_eq_getElem]
    obtain ⟨⟨xn, r⟩, hs⟩ := fehlberg_total
      (fun y => do let d ← f y (ut[i.toNat]'(by omega)); .ok (V3.smul h d))
      (fun y => by obtain ⟨d, hd⟩ := hf y (ut[i.toNat]'(by omega)); simp [hd]) x h
    have hroom : ¬ (k + 1 ≤ acc.length) := by
      have h1 : ((acc.length : ℝ) - 1) * s.hmin < k * s.hmin := by linarith
      have h2 := lt_of_mul_lt_mul_right h1 hmin.le
      have h3 : (acc.length : ℝ) < k + 1 := by linarith
      have h4 : acc.length < k + 1 := by exact_mod_cast h3
      omega
    obtain ⟨h', hn', -, -⟩ := nextH_ok s hm h r
    have hs' : RungeKutta45.step f x (ut[i.toNat]'(by omega)) h = .ok (xn, r) := hs
    unfold RungeKutta45.solveLoop
    simp only [hi', hc, hs', Res.ok_bind]
    rw [if_neg (fun hc => hroom hc.2)]
    simp only [hn', Res.ok_bind]
    rw [if_pos (show iter = s.max_iter by omega)]
  | succ fuel ih =>
    intro iter t h x acc hi ht0 htg hh hth hor hl hst hp hle hhd
    have ht1 : t < horizon := by
      have : (0:ℝ) < 1 / 10 ^ 12 := by norm_num
      linarith
    obtain ⟨i, hi', hilt⟩ := timeIndex_ok n hn t horizon ht0 ht1.le hH
    have hc : col ut i.toNat = .ok (ut[i.toNat]'(by omega)) := by
      rw [col_eq_ok, List.getElem?_eq_getElem]
    obtain ⟨⟨xn, r⟩, hs⟩ := fehlberg_total
      (fun y => do let d ← f y (ut[i.toNat]'(by omega)); .ok (V3.smul h d))
      (fun y => by obtain ⟨d, hd⟩ := hf y (ut[i.toNat]'(by omega)); simp [hd]) x h
    have hlen : acc.length < k + 1 := by
      have h1 : ((acc.length : ℝ) - 1) * s.hmin < k * s.hmin := by linarith
      have h2 := lt_of_mul_lt_mul_right h1 hmin.le
      have h3 : (acc.length : ℝ) < k + 1 := by linarith
      exact_mod_cast h3
    have hroom : ¬ (k + 1 ≤ acc.length) := by omega
    obtain ⟨h', hn', hlo, -⟩ := nextH_ok s hm h r
    have hs' : RungeKutta45.step f x (ut[i.toNat]'(by omega)) h = .ok (xn, r) := hs
    rw [RungeKutta45.solveLoop]
    simp only [hi', hc, hs', Res.ok_bind]
    rw [if_neg (fun hc => hroom hc.2)]
    simp only [hn', Res.ok_bind]
    rw [if_neg (show ¬ iter = s.max_iter by omega)]
    have tol : (0:ℝ) < 1 / 10 ^ 12 := by norm_num
    by_cases hacc : (Flt.lt r s.epsilon || almostEqual r s.epsilon) = true
    · -- the step is accepted
      simp only [hacc, if_true, real_add]
      have hnl : Flt.lt horizon (t + h) = false := by rw [real_lt_false]; exact hth
      simp only [hnl, Bool.false_or]
      by_cases hfl : almostEqual (t + h) horizon = true
      · rw [if_pos hfl]
        right
        refine ⟨_, rfl, ⟨?_, ?_, ?_, ?_⟩, ?_⟩
        · rw [List.map_append, List.pairwise_append]
          refine ⟨hp, by simp, ?_⟩
          intro a ha b hb
          simp only [List.map_cons, List.map_nil, List.mem_singleton] at hb
          obtain ⟨p, hpm, rfl⟩ := List.mem_map.mp ha
          have := hle p hpm
          rw [hb]; linarith
        · intro p hpm
          rw [List.mem_append, List.mem_singleton] at hpm
          rcases hpm with hpm | rfl
          · exact (hle p hpm).trans (by linarith)
          · exact hth
        · rw [List.map_append, List.head?_append, hhd]; rfl
        · exact ⟨_, List.getLast?_concat .., (real_almostEqual_eps _ _).mp hfl⟩
        · simp; omega
      · rw [if_neg hfl]
        have hgap : 1 / 10 ^ 12 ≤ horizon - (t + h) := by
          rw [real_almostEqual_eps, not_lt, abs_sub_comm, abs_of_nonneg (by linarith)] at hfl
          exact hfl
        have hhm : s.hmin ≤ h := by
          rcases hor with hor | hor
          · exact hor
          · exfalso; linarith
        have hpw : ((acc ++ [(t + h, xn)]).map Prod.fst).Pairwise (· < ·) := by
          rw [List.map_append, List.pairwise_append]
          refine ⟨hp, by simp, ?_⟩
          intro a ha b hb
          simp only [List.map_cons, List.map_nil, List.mem_singleton] at hb
          obtain ⟨p, hpm, rfl⟩ := List.mem_map.mp ha
          have := hle p hpm
          rw [hb]; linarith
        have hle' : ∀ p ∈ acc ++ [(t + h, xn)], p.1 ≤ t + h := by
          intro p hpm
          rw [List.mem_append, List.mem_singleton] at hpm
          rcases hpm with hpm | rfl
          · exact (hle p hpm).trans (by linarith)
          · exact le_rfl
        have hhd' : ((acc ++ [(t + h, xn)]).map Prod.fst).head? = some 0 := by
          rw [List.map_append, List.head?_append, hhd]; rfl
        have hst' : (((acc ++ [(t + h, xn)]).length : ℝ) - 1) * s.hmin ≤ t + h := by
          rw [List.length_append]
          push_cast
          simp only [List.length_cons, List.length_nil]
          push_cast
          nlinarith
        by_cases hclip : Flt.lt horizon (t + h + h') = true
        · rw [if_pos (show ¬ almostEqual (t + h) horizon = true ∧ Flt.lt horizon (t + h + h') = true from
            ⟨hfl, hclip⟩)]
          exact ih _ _ _ _ _ (by omega) (by linarith) hgap (by simp only [real_sub]; linarith)
            (by simp only [real_sub]; linarith) (Or.inr (by simp only [real_sub]; ring)) (by simp) hst' hpw
            hle' hhd'
        · rw [if_neg (fun hc => hclip hc.2)]
          rw [real_lt, not_lt] at hclip
          exact ih _ _ _ _ _ (by omega) (by linarith) hgap (by linarith) hclip (Or.inl hlo)
            (by simp) hst' hpw hle' hhd'
    · -- the step is rejected
      have hacc' : (Flt.lt r s.epsilon || almostEqual r s.epsilon) = false := by simpa using hacc
      simp only [hacc', Bool.false_eq_true, if_false, real_add]
      have hnl : Flt.lt horizon t = false := by rw [real_lt_false]; exact ht1.le
      simp only [hnl, Bool.false_or]
      have hfl : ¬ almostEqual t horizon = true := by
        rw [real_almostEqual_eps, not_lt, abs_sub_comm, abs_of_nonneg (by linarith)]
        exact htg
      rw [if_neg hfl]
      by_cases hclip : Flt.lt horizon (t + h') = true
      · rw [if_pos (show ¬ almostEqual t horizon = true ∧ Flt.lt horizon (t + h') = true from
          ⟨hfl, hclip⟩)]
        exact ih _ _ _ _ _ (by omega) ht0 htg (by simp only [real_sub]; linarith)
          (by simp only [real_sub]; linarith) (Or.inr (by simp only [real_sub]; ring)) hl hst hp
          hle hhd
      · rw [if_neg (fun hc => hclip hc.2)]
        rw [real_lt, not_lt] at hclip
        exact ih _ _ _ _ _ (by omega) ht0 htg (by linarith) hclip (Or.inl hlo)
          hl hst hp hle hhd

/-- C54 when the horizon is a multiple of the smallest step and not shorter than the first step.
The result then has at most `horizon/hmin + 1` entries, the number allocated.  Missing: other
horizons, see the two refutations. -/
theorem C54_bookkeeping_partial {U : Type} (s : RungeKutta45 ℝ) (f : V3 ℝ → U → Res (V3 ℝ)) (x0 : V3 ℝ)
    (ut : List U) (dt horizon : ℝ) (n : UInt32) (k : Nat) (hf : ∀ x u, ∃ d, f x u = .ok d)
    (hmin : 0 < s.hmin) (hm : s.hmin ≤ s.hmax) (hH : 1 / 10 ^ 12 ≤ horizon)
    (hn : numSteps horizon dt = .ok n) (hn0 : 0 < n.toNat) (hu : n.toNat ≤ ut.length)
    (hk : horizon = k * s.hmin) (hk2 : k + 1 < 2 ^ 32) (hfirst : (s.hmax + s.hmin) / 2 ≤ horizon) :
    s.solve f x0 ut dt horizon = .ok none ∨
    ∃ l, s.solve f x0 ut dt horizon = .ok (some l) ∧ GoodTimes horizon l ∧ l.length ≤ k + 1 := by
  have hH0 : 0 < horizon := by
    have : (0:ℝ) < 1 / 10 ^ 12 := by norm_num
    linarith
  have hc : castU32 (horizon / s.hmin) = .ok (UInt32.ofNat k) := by
    rw [hk, mul_div_cancel_right₀ _ hmin.ne']
    exact castU32_natCast (by omega)
  have hms : (UInt32.ofNat k + 1).toNat = k + 1 := by
    rw [UInt32.toNat_add, UInt32.toNat_ofNat_of_lt' (show k < UInt32.size from by
      simp only [UInt32.size]; omega)]
    show (k + 1) % 2 ^ 32 = k + 1
    exact Nat.mod_eq_of_lt hk2
  have e : s.solve f x0 ut dt horizon = s.solveLoop f ut n (k + 1) horizon (s.max_iter + 1) 0 0
      ((s.hmax + s.hmin) / 2) x0 [(0, x0)] := by
    simp only [RungeKutta45.solve, hn, real_div, hc, Res.ok_bind, hms]
    rw [if_neg (by omega)]
    simp
  rw [e]
  exact solve45_inv s f ut horizon n k hf hmin hm hH0 hn0 hu hk.le _ _ _ _ _ _ (by omega) le_rfl
    (by linarith) (by linarith) (by linarith) (Or.inl (by linarith)) (by simp) (by simp) (by simp)
    (by simp) (by simp)

example : ∃ s : RungeKutta45 ℝ, 0 < s.hmin ∧ s.hmin ≤ s.hmax ∧ (1:ℝ) = (10 : ℕ) * s.hmin ∧
    (s.hmax + s.hmin) / 2 ≤ 1 := ⟨⟨1 / 10, 1 / 2, 1, 100⟩, by norm_num⟩

/-- One iteration of a body at rest when the step is accepted. -/
theorem rest_iter (s : RungeKutta45 ℝ) (he : 0 < s.epsilon) (hm : s.hmin ≤ s.hmax) (u : V3 ℝ)
    (ms fuel iter : Nat) (horizon t h : ℝ) (x : V3 ℝ) (acc : List (ℝ × V3 ℝ)) (hh : 0 < h)
    (hi : iter ≠ s.max_iter) :
    ∃ h', s.hmin ≤ h' ∧ h' ≤ s.hmax ∧
    s.solveLoop (fun _ _ => .ok ⟨0, 0, 0⟩) [u] 1 ms horizon (fuel + 1) iter t h x acc =
      if ms ≤ acc.length then .throw .logicError
      else if horizon < t + h ∨ |t + h - horizon| < 1 / 10 ^ 12 then .ok (some (acc ++ [(t + h, x)]))
      else s.solveLoop (fun _ _ => .ok ⟨0, 0, 0⟩) [u] 1 ms horizon fuel (iter + 1) (t + h)
        (if horizon < t + h + h' then horizon - (t + h) else h') x (acc ++ [(t + h, x)]) := by
  obtain ⟨h', hn', h1, h2⟩ := nextH_ok s hm h 0
  refine ⟨h', h1, h2, ?_⟩
  have ht : RungeKutta45.timeIndex 1 t horizon = .ok 0 := by
    unfold RungeKutta45.timeIndex
    have : ((1 : UInt32) - 1).toNat = 0 := rfl
    rw [this]
    simp only [real_floor, real_round, real_mul, real_ofInt]
    have e : realRound (((0 : ℕ) : ℤ) * fabs (t /. horizon)) = ((0 : ℕ) : ℝ) := by
      rw [← realRound_natCast]; norm_num
    rw [e, Int.floor_natCast]
    have := castU32_natCast (n := 0) (by norm_num)
    exact_mod_cast this
  have hc : col [u] (0 : UInt32).toNat = .ok u := rfl
  have hacc : (Flt.lt (0:ℝ) s.epsilon || almostEqual (0:ℝ) s.epsilon) = true := by
    rw [Bool.or_eq_true, real_lt]; exact Or.inl he
  rw [RungeKutta45.solveLoop]
  simp only [ht, hc, C53_rest x u h hh, Res.ok_bind, hacc, if_true, true_and, hn', real_add, real_sub]
  by_cases hms : ms ≤ acc.length
  · rw [if_pos hms, if_pos hms]
  · rw [if_neg hms, if_neg hms, if_neg hi]
    have key : (Flt.lt horizon (t + h) || almostEqual (t + h) horizon) = true ↔
        (horizon < t + h ∨ |t + h - horizon| < 1 / 10 ^ 12) := by
      rw [Bool.or_eq_true, real_lt, real_almostEqual_eps]
    by_cases hfl : horizon < t + h ∨ |t + h - horizon| < 1 / 10 ^ 12
    · rw [if_pos (key.mpr hfl), if_pos hfl]
    · rw [if_neg (fun hc => hfl (key.mp hc)), if_neg hfl]
      by_cases hcl : horizon < t + h + h'
      · rw [if_pos ⟨fun hc => hfl (key.mp hc), (real_lt _ _).mpr hcl⟩, if_pos hcl]
      · rw [if_neg (fun hc => hcl ((real_lt _ _).mp hc.2)), if_neg hcl]

/-- C54, storage: with `hmin = hmax = 0.3` and horizon 1 a body at rest needs five columns
(0, 0.3, 0.6, 0.9, 1) but only four are allocated; the integration throws. -/
theorem C54_refuted_storage (x0 u : V3 ℝ) :
    (⟨3 / 10, 3 / 10, 1, 100⟩ : RungeKutta45 ℝ).solve (fun _ (_ : V3 ℝ) => .ok ⟨0, 0, 0⟩) x0 [u] 1 1 =
      .throw .logicError := by
  have hn : numSteps (1:ℝ) 1 = .ok 1 := by
    rw [numSteps, real_div, real_fabs]
    exact castU32_real_of (n := 1) (by norm_num) (by norm_num) (by norm_num)
  have hc : castU32 ((1:ℝ) / (3 / 10)) = .ok 3 :=
    castU32_real_of (n := 3) (by norm_num) (by norm_num) (by norm_num)
  have hms : ((3 : UInt32) + 1).toNat = 4 := rfl
  simp only [RungeKutta45.solve, hn, real_div, hc, Res.ok_bind, hms]
  rw [if_neg (by norm_num)]
  have e0 : (lit 0 0 : ℝ) = 0 := by simp
  have eh : ((3 / 10 : ℝ) +. 3 / 10) / (lit 2 0 : ℝ) = 3 / 10 := by
    simp only [real_add, real_lit]; norm_num
  rw [e0, eh]
  obtain ⟨h1, a1, b1, r1⟩ := rest_iter ⟨3 / 10, 3 / 10, 1, 100⟩ one_pos le_rfl u 4 100 0 1 0 (3 / 10) x0
    [(0, x0)] (by norm_num) (by norm_num)
  have e1 : h1 = 3 / 10 := le_antisymm b1 a1
  subst e1
  rw [r1, if_neg (by simp), if_neg (by norm_num [abs_of_neg]), if_neg (by norm_num)]
  obtain ⟨h2, a2, b2, r2⟩ := rest_iter ⟨3 / 10, 3 / 10, 1, 100⟩ one_pos le_rfl u 4 99 1 1 (0 + 3 / 10)
    (3 / 10) x0 ([(0, x0)] ++ [(0 + 3 / 10, x0)]) (by norm_num) (by norm_num)
  have e2 : h2 = 3 / 10 := le_antisymm b2 a2
  subst e2
  rw [r2, if_neg (by simp), if_neg (by norm_num [abs_of_neg]), if_neg (by norm_num)]
  obtain ⟨h3, a3, b3, r3⟩ := rest_iter ⟨3 / 10, 3 / 10, 1, 100⟩ one_pos le_rfl u 4 98 2 1
    (0 + 3 / 10 + 3 / 10) (3 / 10) x0
    ([(0, x0)] ++ [(0 + 3 / 10, x0)] ++ [(0 + 3 / 10 + 3 / 10, x0)]) (by norm_num) (by norm_num)
  have e3 : h3 = 3 / 10 := le_antisymm b3 a3
  subst e3
  rw [r3, if_neg (by simp), if_neg (by norm_num [abs_of_neg]), if_pos (by norm_num)]
  obtain ⟨h4, a4, b4, r4⟩ := rest_iter ⟨3 / 10, 3 / 10, 1, 100⟩ one_pos le_rfl u 4 97 3 1
    (0 + 3 / 10 + 3 / 10 + 3 / 10) (1 - (0 + 3 / 10 + 3 / 10 + 3 / 10)) x0
    ([(0, x0)] ++ [(0 + 3 / 10, x0)] ++ [(0 + 3 / 10 + 3 / 10, x0)] ++
      [(0 + 3 / 10 + 3 / 10 + 3 / 10, x0)]) (by norm_num) (by norm_num)
  rw [r4, if_pos (by simp)]

/-- C54, times: with `hmin = 0.1`, `hmax = 10` and horizon 1 the first step of a body at rest goes
to time 5.05. -/
theorem C54_refuted_horizon (x0 u : V3 ℝ) :
    (⟨1 / 10, 10, 1, 100⟩ : RungeKutta45 ℝ).solve (fun _ (_ : V3 ℝ) => .ok ⟨0, 0, 0⟩) x0 [u] 1 1 =
      .ok (some [(0, x0), (101 / 20, x0)]) := by
  have hn : numSteps (1:ℝ) 1 = .ok 1 := by
    rw [numSteps, real_div, real_fabs]
    exact castU32_real_of (n := 1) (by norm_num) (by norm_num) (by norm_num)
  have hc : castU32 ((1:ℝ) / (1 / 10)) = .ok 10 :=
    castU32_real_of (n := 10) (by norm_num) (by norm_num) (by norm_num)
  have hms : ((10 : UInt32) + 1).toNat = 11 := rfl
  simp only [RungeKutta45.solve, hn, real_div, hc, Res.ok_bind, hms]
  rw [if_neg (by norm_num)]
  have e0 : (lit 0 0 : ℝ) = 0 := by simp
  have eh : ((10 : ℝ) +. 1 / 10) / (lit 2 0 : ℝ) = 101 / 20 := by
    simp only [real_add, real_lit]; norm_num
  rw [e0, eh]
  obtain ⟨h1, a1, b1, r1⟩ := rest_iter ⟨1 / 10, 10, 1, 100⟩ one_pos (by norm_num) u 11 100 0 1 0
    (101 / 20) x0 [(0, x0)] (by norm_num) (by norm_num)
  rw [r1, if_neg (by simp), if_pos (by norm_num)]
  simp

/-- C54 is false. -/
theorem C54_refuted : ¬ C54_statement := by
  intro hs
  have hn : numSteps (1:ℝ) 1 = .ok 1 := by
    rw [numSteps, real_div, real_fabs]
    exact castU32_real_of (n := 1) (by norm_num) (by norm_num) (by norm_num)
  have hc : castU32 ((1:ℝ) / (3 / 10)) = .ok 3 :=
    castU32_real_of (n := 3) (by norm_num) (by norm_num) (by norm_num)
  have := hs ⟨3 / 10, 3 / 10, 1, 100⟩ (fun _ _ => .ok ⟨0, 0, 0⟩) ⟨0, 0, 0⟩ [⟨0, 0, 0⟩] 1 1 1 3
    (fun _ _ => ⟨_, rfl⟩) (by norm_num) le_rfl (by norm_num) (by norm_num) hn (by decide) (by decide) hc
    (by decide)
  rw [C54_refuted_storage] at this
  simp at this

end Ergodic
