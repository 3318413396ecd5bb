import Verif.Props.Rk45Order
import Verif.Props.Running
import Verif.Spec.StepControl
import Mathlib.Analysis.SpecialFunctions.Pow.Real

/-!
# Property C106: the step-size control of the embedded integrator
-/

namespace Ergodic
open Real

/-- The length before the limits are applied. -/
noncomputable def rawH (eps h r : ℝ) : ℝ := h * (84 / 100 * (eps / r) ^ (1 / 4 : ℝ))

theorem nextH_real (s : RungeKutta45 ℝ) (h r : ℝ) :
    s.nextH h r = if s.hmax < s.hmin then .ub
      else .ok (fclamp (rawH s.epsilon h r) s.hmin s.hmax) := by
  unfold RungeKutta45.nextH rawH
  have e1 : (lit 84 2 : ℝ) = 84 / 100 := by simp only [real_lit]; norm_num
  have e2 : (lit 25 2 : ℝ) = 1 / 4 := by simp only [real_lit]; norm_num
  simp only [e1, e2, real_mul, real_div, real_pow, real_lt]

theorem rawH_pow {eps h r : ℝ} (he : 0 < eps) (hr : 0 < r) :
    rawH eps h r ^ 4 = (84 / 100) ^ 4 * eps / (r / h ^ 4) ∨ h = 0 := by
  by_cases hh : h = 0
  · exact Or.inr hh
  left
  have hq : 0 < eps / r := div_pos he hr
  have e : ((eps / r) ^ (1 / 4 : ℝ)) ^ 4 = eps / r := by
    rw [← Real.rpow_natCast, ← Real.rpow_mul hq.le]
    norm_num
  unfold rawH
  rw [mul_pow, mul_pow, e]
  have : h ^ 4 ≠ 0 := pow_ne_zero _ hh
  field_simp

theorem rawH_pos {eps h r : ℝ} (he : 0 < eps) (hr : 0 < r) (hh : 0 < h) : 0 < rawH eps h r := by
  unfold rawH
  have : 0 < (eps / r) ^ (1 / 4 : ℝ) := Real.rpow_pos_of_pos (div_pos he hr) _
  positivity

theorem pow4_lt {a b : ℝ} (ha : 0 ≤ a) (h : a < b) : a ^ 4 < b ^ 4 :=
  pow_lt_pow_left₀ h ha (by norm_num)

/-- C106: when the estimated error of a step grows with the fourth power of its length, the next
step is the one in the permitted range whose estimate comes closest to `0.84⁴` times the tolerance
(about half of it), and there is only one such step. -/
theorem C106_aims (s : RungeKutta45 ℝ) (h r : ℝ) (hh : 0 < h) (hr : 0 < r) (he : 0 < s.epsilon)
    (hmin : 0 < s.hmin) (hm : s.hmin ≤ s.hmax) :
    ∃ h', s.nextH h r = .ok h' ∧
      AimsAt (r / h ^ 4) ((84 / 100) ^ 4 * s.epsilon) s.hmin s.hmax h' ∧
      ∀ h'', AimsAt (r / h ^ 4) ((84 / 100) ^ 4 * s.epsilon) s.hmin s.hmax h'' → h'' = h' := by
  have hC : 0 < r / h ^ 4 := by positivity
  set C := r / h ^ 4 with hCd
  set T := (84 / 100 : ℝ) ^ 4 * s.epsilon with hT
  have hg0 : 0 < rawH s.epsilon h r := rawH_pos he hr hh
  have hg : C * rawH s.epsilon h r ^ 4 = T := by
    rcases rawH_pow (h := h) he hr with e | e
    · rw [e, ← hCd, ← hT]; field_simp
    · exact absurd e hh.ne'
  set g := rawH s.epsilon h r with hgd
  have mono : ∀ {a b : ℝ}, 0 ≤ a → a < b → C * a ^ 4 < C * b ^ 4 := fun ha hab =>
    mul_lt_mul_of_pos_left (pow4_lt ha hab) hC
  rw [nextH_real, if_neg (not_lt.mpr hm)]
  have key : AimsAt C T s.hmin s.hmax (fclamp g s.hmin s.hmax) := by
    unfold fclamp
    simp only [real_lt]
    split_ifs with h1 h2
    · refine ⟨le_rfl, hm, fun _ => rfl, fun hc => ?_⟩
      have := mono hg0.le h1
      linarith
    · refine ⟨hm, le_rfl, fun hc => ?_, fun _ => rfl⟩
      have := mono (hmin.le.trans hm) h2
      linarith
    · refine ⟨not_lt.mp h1, not_lt.mp h2, fun hc => ?_, fun hc => ?_⟩ <;> linarith
  refine ⟨_, rfl, key, fun h'' k => ?_⟩
  generalize fclamp g s.hmin s.hmax = h' at key
  rcases lt_trichotomy h'' h' with hl | hl | hl
  · have m := mono (hmin.le.trans k.low) hl
    by_cases c : T < C * h' ^ 4
    · have := key.over c
      have := k.low
      linarith
    · have := k.under (by linarith)
      have := key.high
      linarith
  · exact hl
  · have m := mono (hmin.le.trans key.low) hl
    by_cases c : T < C * h'' ^ 4
    · have := k.over c
      have := key.low
      linarith
    · have := key.under (by linarith)
      have := k.high
      linarith

/-- The hypotheses are met: a step with sixteen times the target is halved. -/
example : ∃ h', (RungeKutta45.mk (1/10 : ℝ) 4 1 10).nextH 2 (16 * (84/100) ^ 4) = .ok h' ∧ h' = 1 := by
  obtain ⟨h', e, -, u⟩ := C106_aims (RungeKutta45.mk (1/10 : ℝ) 4 1 10) 2 (16 * (84/100) ^ 4)
    (by norm_num) (by norm_num) (by norm_num) (by norm_num) (by norm_num)
  refine ⟨h', e, (u 1 ⟨by norm_num, by norm_num, fun c => ?_, fun c => ?_⟩).symm⟩ <;>
  norm_num at c

/-- A rejected step is followed by one at most 0.84 times as long, or by the shortest. -/
theorem C106_reject (s : RungeKutta45 ℝ) (h r : ℝ) (hh : 0 < h) (he : 0 < s.epsilon)
    (hr : s.epsilon ≤ r) (hm : s.hmin ≤ s.hmax) :
    ∃ h', s.nextH h r = .ok h' ∧ s.hmin ≤ h' ∧ h' ≤ s.hmax ∧ (h' ≤ 84 / 100 * h ∨ h' = s.hmin) := by
  obtain ⟨h', e, h1, h2⟩ := nextH_ok s hm h r
  refine ⟨h', e, h1, h2, ?_⟩
  rw [nextH_real, if_neg (not_lt.mpr hm), Res.ok.injEq] at e
  have hr0 : 0 < r := he.trans_le hr
  have hp : (s.epsilon / r) ^ (1 / 4 : ℝ) ≤ 1 :=
    Real.rpow_le_one (div_pos he hr0).le ((div_le_one hr0).mpr hr) (by norm_num)
  have hg : rawH s.epsilon h r ≤ 84 / 100 * h := by
    unfold rawH
    nlinarith
  rw [← e]
  unfold fclamp
  simp only [real_lt]
  split_ifs with h1 h2
  · exact Or.inr rfl
  · left; linarith
  · exact Or.inl hg

example : ∃ h', (RungeKutta45.mk (1/10 : ℝ) 4 1 10).nextH 2 5 = .ok h' ∧ h' ≤ 84/50 := by
  obtain ⟨h', e, -, -, h⟩ := C106_reject (RungeKutta45.mk (1/10 : ℝ) 4 1 10) 2 5
    (by norm_num) (by norm_num) (by norm_num) (by norm_num)
  refine ⟨h', e, ?_⟩
  rcases h with h | h
  · linarith
  · rw [h]; norm_num

/-- A step is followed by a shorter one (above the shortest and within the longest) exactly when
its estimate exceeds `0.84⁴` times the tolerance: an accepted step whose estimate lies in the upper
half of the tolerance is followed by a shorter one. -/
theorem C106_shorter_iff (s : RungeKutta45 ℝ) (h r : ℝ) (hr : 0 < r) (he : 0 < s.epsilon)
    (hmin : 0 < s.hmin) (h1 : s.hmin < h) (h2 : h ≤ s.hmax) :
    ∃ h', s.nextH h r = .ok h' ∧ (h' < h ↔ (84 / 100) ^ 4 * s.epsilon < r) := by
  have hh : 0 < h := hmin.trans h1
  obtain ⟨h', e, k, -⟩ := C106_aims s h r hh hr he hmin (h1.le.trans h2)
  refine ⟨h', e, ?_⟩
  have hC : 0 < r / h ^ 4 := by positivity
  have hat : r / h ^ 4 * h ^ 4 = r := by field_simp
  constructor
  · intro hl
    have m := mul_lt_mul_of_pos_left (pow4_lt (hmin.le.trans k.low) hl) hC
    rw [hat] at m
    by_contra hc
    have := k.under (by linarith)
    linarith
  · intro hc
    by_contra hl
    rw [not_lt] at hl
    have m := mul_le_mul_of_nonneg_left (pow_le_pow_left₀ hh.le hl 4) hC.le
    rw [hat] at m
    have := k.over (by linarith)
    linarith

example : ∃ h', (RungeKutta45.mk (1/10 : ℝ) 4 1 10).nextH 2 (6/10) = .ok h' ∧ h' < 2 := by
  obtain ⟨h', e, h⟩ := C106_shorter_iff (RungeKutta45.mk (1/10 : ℝ) 4 1 10) 2 (6/10)
    (by norm_num) (by norm_num) (by norm_num) (by norm_num) (by norm_num)
  exact ⟨h', e, h.mpr (by norm_num)⟩

/-- With IEEE special values a step without any estimated error is followed by the longest. -/
theorem C106_no_error (s : RungeKutta45 Dbl) (h eps lo hi : ℝ) (hh : 0 < h) (he : 0 < eps)
    (hm : lo ≤ hi) (e1 : s.epsilon = .fin eps) (e2 : s.hmin = .fin lo) (e3 : s.hmax = .fin hi) :
    s.nextH (.fin h) (.fin 0) = .ok (.fin hi) := by
  have d : (Dbl.fin eps /. Dbl.fin 0 : Dbl) = Dbl.inf false := by
    show Dbl.div _ _ = _
    simp [Dbl.div, Dbl.sgn, he.ne', he.le]
  have p : (Flt.pow (Dbl.inf false) (lit 25 2) : Dbl) = Dbl.inf false := by
    show Dbl.pow _ (Dbl.fin _) = _
    simp [Dbl.pow]
  have m : (lit 84 2 *. Dbl.inf false : Dbl) = Dbl.inf false := by
    show Dbl.mul (Dbl.fin _) _ = _
    norm_num [Dbl.mul, Dbl.sgn]
  have m' : (Dbl.fin h *. Dbl.inf false : Dbl) = Dbl.inf false := by
    show Dbl.mul (Dbl.fin _) _ = _
    simp [Dbl.mul, Dbl.sgn, hh.ne', hh.le]
  unfold RungeKutta45.nextH fclamp
  rw [e1, e2, e3]
  simp only [d, p, m, m']
  have l : Flt.lt (Dbl.fin hi) (Dbl.fin lo) = false := by
    show decide (hi < lo) = false
    simpa using hm
  have l1 : Flt.lt (Dbl.inf false) (Dbl.fin lo) = false := rfl
  have l2 : Flt.lt (Dbl.fin hi) (Dbl.inf false) = true := rfl
  simp [l, l1, l2]

example : (RungeKutta45.mk (.fin (1/10)) (.fin 4) (.fin 1) 10 : RungeKutta45 Dbl).nextH (.fin 2) (.fin 0) =
    .ok (.fin 4) :=
  C106_no_error _ 2 1 (1/10) 4 (by norm_num) (by norm_num) (by norm_num) rfl rfl rfl

/-- An estimate that is not a number makes the next length not a number: the limits do not
apply. -/
theorem C106_nan (s : RungeKutta45 Dbl) (h : Dbl) (hm : Flt.lt s.hmax s.hmin = false) :
    s.nextH h .nan = .ok .nan := by
  have d : (s.epsilon /. Dbl.nan : Dbl) = Dbl.nan := by
    show Dbl.div _ _ = _
    cases s.epsilon <;> rfl
  have p : (Flt.pow Dbl.nan (lit 25 2) : Dbl) = Dbl.nan := rfl
  have m : (lit 84 2 *. Dbl.nan : Dbl) = Dbl.nan := rfl
  have m' : (h *. Dbl.nan : Dbl) = Dbl.nan := by
    show Dbl.mul _ _ = _
    cases h <;> rfl
  have l1 : Flt.lt Dbl.nan s.hmin = false := rfl
  have l2 : Flt.lt s.hmax Dbl.nan = false := by
    show Dbl.lt _ _ = _
    cases s.hmax <;> rfl
  unfold RungeKutta45.nextH fclamp
  simp only [d, p, m, m', hm, l1, l2, Bool.false_eq_true, if_false]

/-- Limits passed in the order of the declaration (integrator.hpp:199, longest first) are
exchanged; every update of the length is then undefined. -/
theorem C106_exchanged {F : Type} [Flt F] (lo hi eps : F) (n : Nat) (h r : F)
    (hlt : Flt.lt lo hi = true) : (RungeKutta45.new hi lo eps n).nextH h r = .ub := by
  unfold RungeKutta45.nextH RungeKutta45.new
  simp [hlt]

/-! ## The control finds acceptable steps -/

/-- From a state of `P` every permitted step leads to a state of `P`, and it is accurate enough when
its length is at most `δ`. -/
def Accepts {U : Type} (s : RungeKutta45 ℝ) (f : V3 ℝ → U → Res (V3 ℝ)) (P : V3 ℝ → Prop) (δ : ℝ) : Prop :=
  ∀ x u h, P x → 0 < h → h ≤ s.hmax →
    ∃ y r, RungeKutta45.step f x u h = .ok (y, r) ∧ P y ∧ (h ≤ δ → r < s.epsilon)

/-- Loop invariant: `m` rejections since the last accepted step, each of which shortened the step
to at most 84 %, and at most `k` rejections per accepted step. -/
theorem solve45_not_none {U : Type} (s : RungeKutta45 ℝ) (f : V3 ℝ → U → Res (V3 ℝ)) (ut : List U)
    (P : V3 ℝ → Prop) (horizon δ : ℝ) (n : UInt32) (ms k N : Nat) (hmin : 0 < s.hmin) (hm : s.hmin ≤ s.hmax)
    (he : 0 < s.epsilon) (hδ : s.hmin ≤ δ) (ha : Accepts s f P δ)
    (hk : (84 / 100) ^ k * s.hmax ≤ δ) (hN : horizon ≤ N * s.hmin) (hi : (k + 1) * N ≤ s.max_iter) :
    ∀ (fuel iter m : Nat) (t h : ℝ) (x : V3 ℝ) (acc : List (ℝ × V3 ℝ)),
      P x → h ≤ s.hmax → t < horizon → 0 < h → (s.hmin ≤ h ∨ t + h = horizon) → t + h ≤ horizon →
      (h ≤ (84 / 100) ^ m * s.hmax ∨ h ≤ δ) → m ≤ k → 1 ≤ acc.length →
      ((acc.length : ℝ) - 1) * s.hmin ≤ t → iter + (k + 1) ≤ (k + 1) * acc.length + m →
      s.solveLoop f ut n ms horizon fuel iter t h x acc ≠ .ok none := by
  intro fuel
  induction fuel with
  | zero => intro iter m t h x acc _ _ _ _ _ _ _ _ _ _ _ hc; simp [RungeKutta45.solveLoop] at hc
  | succ fuel ih =>
    intro iter m t h x acc hx hhx ht hh hor hth hhb hmk hl hst hit hc
    have hlen : acc.length < N + 1 := by
      have h1 : ((acc.length : ℝ) - 1) * s.hmin < N * s.hmin := by linarith
      have h2 := lt_of_mul_lt_mul_right h1 hmin.le
      have h3 : (acc.length : ℝ) < N + 1 := by linarith
      exact_mod_cast h3
    have hne : ¬ iter = s.max_iter := by
      intro hc
      have : (k + 1) * acc.length ≤ (k + 1) * N := Nat.mul_le_mul_left _ (by omega)
      omega
    rw [RungeKutta45.solveLoop, Res.bind_eq_ok] at hc
    obtain ⟨i, -, hc⟩ := hc
    rw [Res.bind_eq_ok] at hc
    obtain ⟨u, -, hc⟩ := hc
    rw [Res.bind_eq_ok] at hc
    obtain ⟨⟨xn0, r0⟩, hs, hc⟩ := hc
    obtain ⟨xn, r, hs', hy, hsmall⟩ := ha x u h hx hh hhx
    rw [hs', Res.ok.injEq, Prod.mk.injEq] at hs
    obtain ⟨rfl, rfl⟩ := hs
    dsimp only at hc
    split at hc
    · cases hc
    rw [Res.bind_eq_ok] at hc
    obtain ⟨h', hn', hc⟩ := hc
    obtain ⟨h'', e'', hlo, hhi⟩ := nextH_ok s hm h r
    rw [hn', Res.ok.injEq] at e''
    subst e''
    by_cases hacc : (Flt.lt r s.epsilon || almostEqual r s.epsilon) = true
    · simp only [hacc, if_true, real_add] at hc
      split at hc
      · cases hc
      · rename_i hfl
        have hfl1 : t + h < horizon := by
          by_contra hcon
          have : t + h = horizon := by linarith
          apply hfl
          rw [this, Bool.or_eq_true, real_almostEqual_eps]
          right; norm_num
        have hhm : s.hmin ≤ h := by
          rcases hor with hor | hor
          · exact hor
          · linarith
        have hst' : (((acc ++ [(t + h, xn)]).length : ℝ) - 1) * s.hmin ≤ t + h := by
          rw [List.length_append]
          push_cast
          simp only [List.length_cons, List.length_nil]
          push_cast
          nlinarith
        have hit' : iter + 1 + (k + 1) ≤ (k + 1) * (acc ++ [(t + h, xn)]).length + 0 := by
          rw [List.length_append, Nat.mul_add]
          simp only [List.length_cons, List.length_nil]
          omega
        by_cases hclip : Flt.lt horizon (t + h + h') = true
        · rw [if_pos ⟨hfl, hclip⟩] at hc
          rw [real_lt] at hclip
          simp only [real_sub] at hc
          exact ih _ 0 _ _ _ _ hy (by linarith) hfl1 (by linarith) (Or.inr (by ring)) (by linarith)
            (Or.inl (by rw [pow_zero, one_mul]; linarith)) (Nat.zero_le _) (by simp) hst' hit' hc
        · rw [if_neg (fun hc => hclip hc.2)] at hc
          rw [real_lt, not_lt] at hclip
          exact ih _ 0 _ _ _ _ hy hhi hfl1 (by linarith) (Or.inl hlo) hclip
            (Or.inl (by rw [pow_zero, one_mul]; linarith)) (Nat.zero_le _) (by simp) hst' hit' hc
    · have hacc' : (Flt.lt r s.epsilon || almostEqual r s.epsilon) = false := by simpa using hacc
      have hr : s.epsilon ≤ r := by
        rw [Bool.or_eq_false_iff, real_lt_false] at hacc'
        exact hacc'.1
      have hbig : δ < h := by
        by_contra hcon
        have := hsmall (not_lt.mp hcon)
        linarith
      have hhm : h ≤ (84 / 100) ^ m * s.hmax := by
        rcases hhb with hb | hb
        · exact hb
        · linarith
      have hmk' : m + 1 ≤ k := by
        rcases Nat.lt_or_ge m k with hlt | hge
        · exact hlt
        · have : m = k := by omega
          rw [this] at hhm
          linarith
      obtain ⟨h2, e2, -, -, hsh⟩ := C106_reject s h r hh he hr hm
      rw [hn', Res.ok.injEq] at e2
      subst e2
      have hb' : h' ≤ (84 / 100) ^ (m + 1) * s.hmax ∨ h' ≤ δ := by
        rcases hsh with hsh | hsh
        · left; rw [pow_succ]; nlinarith
        · right; linarith
      simp only [hacc', Bool.false_eq_true, if_false, real_add] at hc
      split at hc
      · cases hc
      · rename_i hfl
        by_cases hclip : Flt.lt horizon (t + h') = true
        · rw [if_pos ⟨hfl, hclip⟩] at hc
          rw [real_lt] at hclip
          simp only [real_sub] at hc
          refine ih _ (m + 1) _ _ _ _ hx (by linarith) ht (by linarith) (Or.inr (by ring)) (by linarith) ?_ hmk' hl hst
            (by omega) hc
          rcases hb' with hb | hb
          · left; linarith
          · right; linarith
        · rw [if_neg (fun hc => hclip hc.2)] at hc
          rw [real_lt, not_lt] at hclip
          exact ih _ (m + 1) _ _ _ _ hx hhi ht (by linarith) (Or.inl hlo) hclip hb' hmk' hl hst (by omega) hc

/-- C106, the integration succeeds: when from the states of an invariant set every step up to the length `δ` (at least the shortest
permitted) is accurate enough, `k` rejections bring the longest step below `δ`, and the iterations
suffice for `k` rejections on each of the at most `horizon/hmin` steps, then the integration
reaches the horizon with increasing sample times. -/
theorem C106_succeeds {U : Type} (s : RungeKutta45 ℝ) (f : V3 ℝ → U → Res (V3 ℝ)) (x0 : V3 ℝ)
    (ut : List U) (P : V3 ℝ → Prop) (dt horizon δ : ℝ) (n : UInt32) (k N : Nat) (hx0 : P x0) (hf : ∀ x u, ∃ d, f x u = .ok d)
    (hmin : 0 < s.hmin) (hm : s.hmin ≤ s.hmax) (he : 0 < s.epsilon) (hH : 1 / 10 ^ 12 ≤ horizon)
    (hn : numSteps horizon dt = .ok n) (hn0 : 0 < n.toNat) (hu : n.toNat ≤ ut.length)
    (hN : horizon = N * s.hmin) (hN2 : N + 1 < 2 ^ 32) (hfirst : (s.hmax + s.hmin) / 2 ≤ horizon)
    (hδ : s.hmin ≤ δ) (ha : Accepts s f P δ) (hk : (84 / 100) ^ k * s.hmax ≤ δ)
    (hi : (k + 1) * N ≤ s.max_iter) :
    ∃ l, s.solve f x0 ut dt horizon = .ok (some l) ∧ GoodTimes horizon l ∧ l.length ≤ N + 1 := by
  rcases C54_bookkeeping_partial s f x0 ut dt horizon n N hf hmin hm hH hn hn0 hu hN hN2 hfirst with h | h
  · exfalso
    rw [RungeKutta45.solve, hn, Res.ok_bind, Res.bind_eq_ok] at h
    obtain ⟨ms, -, h⟩ := h
    dsimp only at h
    split at h
    · cases h
    · have e : (lit 0 0 : ℝ) = 0 := by simp
      have e2 : ((s.hmax +. s.hmin) /. lit 2 0 : ℝ) = (s.hmax + s.hmin) / 2 := by
        simp only [real_div, real_add, real_lit]; norm_num
      have h12 : (0:ℝ) < 1 / 10 ^ 12 := by norm_num
      rw [e, e2] at h
      refine solve45_not_none s f ut P horizon δ n _ k N hmin hm he hδ ha hk hN.le hi _ 0 0 0 _ _ _
        hx0 (by linarith) (by linarith) (by linarith) (Or.inl (by linarith)) (by linarith) (Or.inl ?_) (Nat.zero_le _)
        (by simp) (by simp) (by simp) h
      rw [pow_zero, one_mul]; linarith
  · exact h

/-- C106, on constant motion: below the spurious error of `C53_constant_partial` no step is
accepted (`C53_never_accepts`), above it the integration succeeds. -/
theorem C106_constant {U : Type} (s : RungeKutta45 ℝ) (d x0 : V3 ℝ)
    (ut : List U) (dt horizon : ℝ) (n : UInt32) (N : Nat)
    (hmin : 0 < s.hmin) (hm : s.hmin ≤ s.hmax) (he : 2197 / 5610168 * supNorm d < s.epsilon)
    (hH : 1 / 10 ^ 12 ≤ horizon) (hn : numSteps horizon dt = .ok n) (hn0 : 0 < n.toNat)
    (hu : n.toNat ≤ ut.length) (hN : horizon = N * s.hmin) (hN2 : N + 1 < 2 ^ 32)
    (hfirst : (s.hmax + s.hmin) / 2 ≤ horizon) (hi : N ≤ s.max_iter) :
    ∃ l, s.solve (fun _ (_ : U) => .ok d) x0 ut dt horizon = .ok (some l) ∧ GoodTimes horizon l := by
  have h0 : 0 ≤ supNorm d := (abs_nonneg d.c2).trans (le_max_right _ _)
  have he0 : 0 < s.epsilon := lt_of_le_of_lt (by positivity) he
  obtain ⟨l, h1, h2, -⟩ := C106_succeeds s (fun _ (_ : U) => .ok d) x0 ut (fun _ => True) dt horizon s.hmax n 0 N
    trivial (fun _ _ => ⟨d, rfl⟩) hmin hm he0 hH hn hn0 hu hN hN2 hfirst hm
    (fun x u h _ hh _ => ⟨_, _, C53_constant_partial x d u h hh, trivial, fun _ => he⟩) (by norm_num) (by omega)
  exact ⟨l, h1, h2⟩

/-! A case in which steps are rejected on the way: the decay `ẋ = -x`, with steps of up to one unit, of
which those of at most one half are accurate enough. -/

theorem supNorm_smul (c : ℝ) (d : V3 ℝ) : supNorm (V3.smul c d) = |c| * supNorm d := by
  simp only [supNorm, V3.smul, real_mul, abs_mul]
  rw [mul_max_of_nonneg _ _ (abs_nonneg c), mul_max_of_nonneg _ _ (abs_nonneg c)]

/-- growth factor of one step of the decay -/
noncomputable def decayG (h : ℝ) : ℝ :=
  1 - (1 + 2197 / 5610168) * h + (1 / 2 + 12 / 13 * (2197 / 5610168)) * h ^ 2
    - (1 / 6 + 72 / 169 * (2197 / 5610168)) * h ^ 3 + (1 / 24 + 513 / 2197 * (2197 / 5610168)) * h ^ 4
    - 1 / 104 * h ^ 5

/-- error estimate of one step of the decay from the state of norm 1 -/
noncomputable def decayR (h : ℝ) : ℝ :=
  2197 / 5610168 - 12 / 13 * (2197 / 5610168) * h + 72 / 169 * (2197 / 5610168) * h ^ 2
    - 513 / 2197 * (2197 / 5610168) * h ^ 3 - (1 / 120 - 1 / 104) * h ^ 4 + 1 / 2080 * h ^ 5

theorem decay_step (x : V3 ℝ) (u : V3 ℝ) (h : ℝ) (hh : 0 < h) :
    RungeKutta45.step (fun y (_ : V3 ℝ) => .ok (V3.smul (-1) y)) x u h =
      .ok (V3.smul (decayG h) x, |decayR h| * supNorm x) := by
  have a := C104_affine_partial (⟨⟨-1, 0, 0⟩, ⟨0, -1, 0⟩, ⟨0, 0, -1⟩⟩ : M3 ℝ) ⟨0, 0, 0⟩ x u h
  have e : ∀ y : V3 ℝ, ((⟨⟨-1, 0, 0⟩, ⟨0, -1, 0⟩, ⟨0, 0, -1⟩⟩ : M3 ℝ).mulVec y).add ⟨0, 0, 0⟩ = V3.smul (-1) y := by
    intro y
    ext <;> simp [M3.mulVec, V3.add, V3.smul, V3.dot]
  have e' : ∀ y : V3 ℝ, ((⟨⟨-1, 0, 0⟩, ⟨0, -1, 0⟩, ⟨0, 0, -1⟩⟩ : M3 ℝ).mulVec y) = V3.smul (-1) y := by
    intro y
    ext <;> simp [M3.mulVec, V3.smul, V3.dot]
  simp only [e] at a
  rw [a, Res.ok.injEq, Prod.mk.injEq]
  constructor
  · simp only [series, e']
    ext <;> simp only [V3.add, V3.smul, real_add, real_mul, decayG] <;> ring
  · have : series (⟨⟨-1, 0, 0⟩, ⟨0, -1, 0⟩, ⟨0, 0, -1⟩⟩ : M3 ℝ) h
        [-(2197 / 5610168), - 12 / 13 * (2197 / 5610168), - 72 / 169 * (2197 / 5610168),
          - 513 / 2197 * (2197 / 5610168), 1 / 120 - 1 / 104, 1 / 2080] (V3.smul (-1) x) =
        V3.smul (h * decayR h) x := by
      simp only [series, e']
      ext <;> simp only [V3.add, V3.smul, real_add, real_mul, decayR] <;> ring
    rw [this, supNorm_smul, abs_mul, abs_of_pos hh]
    field_simp

noncomputable def decayer : RungeKutta45 ℝ := ⟨1 / 10, 1, 1 / 1000, 50⟩

theorem decay_accepts : Accepts decayer (fun y (_ : V3 ℝ) => .ok (V3.smul (-1) y))
    (fun x => supNorm x ≤ 1) (1 / 2) := by
  intro x u h hx hh hh1
  have hh1 : h ≤ 1 := hh1
  have p2 : h ^ 2 ≤ 1 := pow_le_one₀ hh.le hh1
  have p3 : h ^ 3 ≤ 1 := pow_le_one₀ hh.le hh1
  have p4 : h ^ 4 ≤ 1 := pow_le_one₀ hh.le hh1
  have p5 : h ^ 5 ≤ 1 := pow_le_one₀ hh.le hh1
  have q2 : 0 ≤ h ^ 2 := by positivity
  have q3 : 0 ≤ h ^ 3 := by positivity
  have q4 : 0 ≤ h ^ 4 := by positivity
  have q5 : 0 ≤ h ^ 5 := by positivity
  have m2 : h ^ 2 ≤ h := by nlinarith
  have m4 : h ^ 4 ≤ h ^ 3 := by nlinarith
  refine ⟨_, _, decay_step x u h hh, ?_, fun hs => ?_⟩
  · show supNorm _ ≤ 1
    rw [supNorm_smul]
    have h0 : 0 ≤ supNorm x := (abs_nonneg x.c2).trans (le_max_right _ _)
    have : |decayG h| ≤ 1 := by
      rw [abs_le]
      unfold decayG
      constructor <;> nlinarith
    nlinarith
  · show _ < (1 / 1000 : ℝ)
    have h0 : 0 ≤ supNorm x := (abs_nonneg x.c2).trans (le_max_right _ _)
    have s2 : h ^ 2 ≤ 1 / 4 := by nlinarith
    have s3 : h ^ 3 ≤ 1 / 8 := by nlinarith
    have s4 : h ^ 4 ≤ 1 / 16 := by nlinarith
    have s5 : h ^ 5 ≤ 1 / 32 := by nlinarith
    have : |decayR h| ≤ 9 / 10000 := by
      rw [abs_le]
      unfold decayR
      constructor <;> linarith
    nlinarith [abs_nonneg (decayR h)]

/-- Steps of one unit are rejected, so the hypothesis with `δ = 1/2` is not met by `δ = 1`. -/
example : ¬ Accepts decayer (fun y (_ : V3 ℝ) => .ok (V3.smul (-1) y)) (fun x => supNorm x ≤ 1) 1 := by
  intro hc
  obtain ⟨y, r, e, -, h⟩ := hc ⟨1, 0, 0⟩ ⟨0, 0, 0⟩ 1 (by norm_num [supNorm]) one_pos le_rfl
  rw [decay_step _ _ _ one_pos, Res.ok.injEq, Prod.mk.injEq] at e
  have := h le_rfl
  rw [← e.2] at this
  norm_num [decayR, decayer, supNorm] at this

example : ∃ l, decayer.solve (fun y (_ : V3 ℝ) => .ok (V3.smul (-1) y)) ⟨1, 1 / 2, 0⟩
    (List.replicate 10 ⟨0, 0, 0⟩) (1 / 10) 1 = .ok (some l) ∧ GoodTimes 1 l ∧ l.length ≤ 11 := by
  obtain ⟨n, hn, e⟩ := numSteps_floor (horizon := (1:ℝ)) (dt := 1 / 10) (by norm_num) (by norm_num) (by norm_num)
  have e10 : n.toNat = 10 := by rw [e]; norm_num
  exact C106_succeeds decayer _ ⟨1, 1 / 2, 0⟩ _ (fun x => supNorm x ≤ 1) (1 / 10) 1 (1 / 2) n 4 10
    (by norm_num [supNorm]) (fun _ _ => ⟨_, rfl⟩) (by norm_num [decayer]) (by norm_num [decayer])
    (by norm_num [decayer]) (by norm_num) hn (by omega) (by simp [e10]) (by norm_num [decayer]) (by norm_num)
    (by norm_num [decayer]) (by norm_num [decayer]) decay_accepts (by norm_num [decayer])
    (by norm_num [decayer])

/-- The hypotheses of `C106_constant` are met by a unit velocity and a tolerance of 1/1000. -/
example : ∃ l, (RungeKutta45.mk (1 / 10 : ℝ) (1 / 2) (1 / 1000) 10).solve
    (fun _ (_ : V3 ℝ) => .ok ⟨1, 0, 0⟩) ⟨0, 0, 0⟩ (List.replicate 10 ⟨0, 0, 0⟩) (1 / 10) 1 = .ok (some l) ∧
    GoodTimes 1 l := by
  obtain ⟨n, hn, e⟩ := numSteps_floor (horizon := (1:ℝ)) (dt := 1 / 10) (by norm_num) (by norm_num) (by norm_num)
  have e10 : n.toNat = 10 := by rw [e]; norm_num
  exact C106_constant _ _ _ _ _ _ n 10 (by norm_num) (by norm_num) (by norm_num [supNorm]) (by norm_num) hn
    (by omega) (by simp [e10]) (by norm_num) (by norm_num) (by norm_num) le_rfl

/-! ## The same backward in time -/

/-- `Accepts` for the co-state, with the gradients, poses and controls of the given lists. -/
def AcceptsBack {U : Type} (s : RungeKutta45 ℝ) (func : CoStateFunc ℝ) (fdx : V3 ℝ → U → M3 ℝ)
    (xt : List (V3 ℝ)) (ut : List U) (edx bdx : List (V3 ℝ)) (P : V3 ℝ → Prop) (δ : ℝ) : Prop :=
  ∀ rho h e b x u, P rho → 0 < h → h ≤ s.hmax → e ∈ edx → b ∈ bdx → x ∈ xt → u ∈ ut →
    ∃ y r, RungeKutta45.stepBack func rho e b (fdx x u) h = .ok (y, r) ∧ P y ∧ (h ≤ δ → r < s.epsilon)

theorem col_mem {α : Type} {m : List α} {i : Nat} {v : α} (h : col m i = .ok v) : v ∈ m := by
  rw [col_eq_ok] at h
  exact List.mem_of_getElem? h

theorem solveBack45_not_none {U : Type} (s : RungeKutta45 ℝ) (func : CoStateFunc ℝ) (fdx : V3 ℝ → U → M3 ℝ)
    (xt : List (V3 ℝ)) (ut : List U) (edx bdx : List (V3 ℝ))
    (P : V3 ℝ → Prop) (horizon δ : ℝ) (n : UInt32) (ms k N : Nat) (hmin : 0 < s.hmin) (hm : s.hmin ≤ s.hmax)
    (he : 0 < s.epsilon) (hδ : s.hmin ≤ δ) (ha : AcceptsBack s func fdx xt ut edx bdx P δ)
    (hk : (84 / 100) ^ k * s.hmax ≤ δ) (hN : horizon ≤ N * s.hmin) (hi : (k + 1) * N ≤ s.max_iter) :
    ∀ (fuel iter m : Nat) (t h : ℝ) (x : V3 ℝ) (acc : List (ℝ × V3 ℝ)),
      P x → h ≤ s.hmax → 0 < t → 0 < h → (s.hmin ≤ h ∨ h = t) → 0 ≤ t - h →
      (h ≤ (84 / 100) ^ m * s.hmax ∨ h ≤ δ) → m ≤ k → 1 ≤ acc.length →
      ((acc.length : ℝ) - 1) * s.hmin ≤ horizon - t → iter + (k + 1) ≤ (k + 1) * acc.length + m →
      s.solveBackLoop func fdx xt ut edx bdx n ms horizon fuel iter t h x acc ≠ .ok none := by
  have e0 : (lit 0 0 : ℝ) = 0 := by simp
  intro fuel
  induction fuel with
  | zero => intro iter m t h x acc _ _ _ _ _ _ _ _ _ _ _ hc; simp [RungeKutta45.solveBackLoop] at hc
  | succ fuel ih =>
    intro iter m t h x acc hx hhx ht hh hor hth hhb hmk hl hst hit hc
    have hlen : acc.length < N + 1 := by
      have h1 : ((acc.length : ℝ) - 1) * s.hmin < N * s.hmin := by linarith
      have h2 := lt_of_mul_lt_mul_right h1 hmin.le
      have h3 : (acc.length : ℝ) < N + 1 := by linarith
      exact_mod_cast h3
    have hne : ¬ iter = s.max_iter := by
      intro hc
      have : (k + 1) * acc.length ≤ (k + 1) * N := Nat.mul_le_mul_left _ (by omega)
      omega
    rw [RungeKutta45.solveBackLoop, Res.bind_eq_ok] at hc
    obtain ⟨i, -, hc⟩ := hc
    rw [Res.bind_eq_ok] at hc
    obtain ⟨ev, c1, hc⟩ := hc
    rw [Res.bind_eq_ok] at hc
    obtain ⟨bv, c2, hc⟩ := hc
    rw [Res.bind_eq_ok] at hc
    obtain ⟨xv, c3, hc⟩ := hc
    rw [Res.bind_eq_ok] at hc
    obtain ⟨uv, c4, hc⟩ := hc
    rw [Res.bind_eq_ok] at hc
    obtain ⟨⟨xn0, r0⟩, hs, hc⟩ := hc
    obtain ⟨xn, r, hs', hy, hsmall⟩ := ha x h ev bv xv uv hx hh hhx (col_mem c1) (col_mem c2) (col_mem c3)
      (col_mem c4)
    rw [hs', Res.ok.injEq, Prod.mk.injEq] at hs
    obtain ⟨rfl, rfl⟩ := hs
    dsimp only at hc
    split at hc
    · cases hc
    rw [Res.bind_eq_ok] at hc
    obtain ⟨h', hn', hc⟩ := hc
    obtain ⟨h'', e'', hlo, hhi⟩ := nextH_ok s hm h r
    rw [hn', Res.ok.injEq] at e''
    subst e''
    by_cases hacc : (Flt.lt r s.epsilon || almostEqual r s.epsilon) = true
    · simp only [hacc, if_true, real_sub, e0] at hc
      split at hc
      · cases hc
      · rename_i hfl
        have hfl1 : 0 < t - h := by
          by_contra hcon
          have : t - h = 0 := by linarith
          apply hfl
          rw [this, Bool.or_eq_true, real_almostEqual_eps]
          right; norm_num
        have hhm : s.hmin ≤ h := by
          rcases hor with hor | hor
          · exact hor
          · linarith
        have hst' : (((acc ++ [(t - h, xn)]).length : ℝ) - 1) * s.hmin ≤ horizon - (t - h) := by
          rw [List.length_append]
          push_cast
          simp only [List.length_cons, List.length_nil]
          push_cast
          nlinarith
        have hit' : iter + 1 + (k + 1) ≤ (k + 1) * (acc ++ [(t - h, xn)]).length + 0 := by
          rw [List.length_append, Nat.mul_add]
          simp only [List.length_cons, List.length_nil]
          omega
        by_cases hclip : Flt.lt (t - h - h') 0 = true
        · rw [if_pos ⟨hfl, hclip⟩] at hc
          rw [real_lt] at hclip
          exact ih _ 0 _ _ _ _ hy (by linarith) hfl1 (by linarith) (Or.inr rfl) (by linarith)
            (Or.inl (by rw [pow_zero, one_mul]; linarith)) (Nat.zero_le _) (by simp) hst' hit' hc
        · rw [if_neg (fun hc => hclip hc.2)] at hc
          rw [real_lt, not_lt] at hclip
          exact ih _ 0 _ _ _ _ hy hhi hfl1 (by linarith) (Or.inl hlo) hclip
            (Or.inl (by rw [pow_zero, one_mul]; linarith)) (Nat.zero_le _) (by simp) hst' hit' hc
    · have hacc' : (Flt.lt r s.epsilon || almostEqual r s.epsilon) = false := by simpa using hacc
      have hr : s.epsilon ≤ r := by
        rw [Bool.or_eq_false_iff, real_lt_false] at hacc'
        exact hacc'.1
      have hbig : δ < h := by
        by_contra hcon
        have := hsmall (not_lt.mp hcon)
        linarith
      have hhm : h ≤ (84 / 100) ^ m * s.hmax := by
        rcases hhb with hb | hb
        · exact hb
        · linarith
      have hmk' : m + 1 ≤ k := by
        rcases Nat.lt_or_ge m k with hlt | hge
        · exact hlt
        · have : m = k := by omega
          rw [this] at hhm
          linarith
      obtain ⟨h2, e2, -, -, hsh⟩ := C106_reject s h r hh he hr hm
      rw [hn', Res.ok.injEq] at e2
      subst e2
      have hb' : h' ≤ (84 / 100) ^ (m + 1) * s.hmax ∨ h' ≤ δ := by
        rcases hsh with hsh | hsh
        · left; rw [pow_succ]; nlinarith
        · right; linarith
      simp only [hacc', Bool.false_eq_true, if_false, real_sub, e0] at hc
      split at hc
      · cases hc
      · rename_i hfl
        by_cases hclip : Flt.lt (t - h') 0 = true
        · rw [if_pos ⟨hfl, hclip⟩] at hc
          rw [real_lt] at hclip
          refine ih _ (m + 1) _ _ _ _ hx (by linarith) ht (by linarith) (Or.inr rfl) (by linarith) ?_ hmk' hl
            hst (by omega) hc
          rcases hb' with hb | hb
          · left; linarith
          · right; linarith
        · rw [if_neg (fun hc => hclip hc.2)] at hc
          rw [real_lt, not_lt] at hclip
          exact ih _ (m + 1) _ _ _ _ hx hhi ht (by linarith) (Or.inl hlo) hclip hb' hmk' hl hst (by omega) hc

/-- C106, the backward integration succeeds under the corresponding conditions. -/
theorem C106_succeeds_back {U : Type} (s : RungeKutta45 ℝ) (func : CoStateFunc ℝ)
    (fdx : V3 ℝ → U → M3 ℝ) (rhoT : V3 ℝ) (xt : List (V3 ℝ)) (ut : List U) (edx bdx : List (V3 ℝ))
    (P : V3 ℝ → Prop) (dt horizon δ : ℝ) (n : UInt32) (k N : Nat) (hP : P rhoT)
    (hmin : 0 < s.hmin) (hm : s.hmin ≤ s.hmax) (he : 0 < s.epsilon) (hH : 1 / 10 ^ 12 ≤ horizon)
    (hn : numSteps horizon dt = .ok n) (hn0 : 0 < n.toNat) (hx : n.toNat ≤ xt.length)
    (hu : n.toNat ≤ ut.length) (hed : n.toNat ≤ edx.length) (hbd : n.toNat ≤ bdx.length)
    (hN : horizon = N * s.hmin) (hN2 : N + 1 < 2 ^ 32) (hδ : s.hmin ≤ δ)
    (ha : AcceptsBack s func fdx xt ut edx bdx P δ) (hk : (84 / 100) ^ k * s.hmax ≤ δ)
    (hi : (k + 1) * N ≤ s.max_iter) :
    ∃ l, s.solveBack func fdx rhoT xt ut edx bdx dt horizon = .ok (some l) ∧ GoodTimesBack horizon l ∧
      l.length ≤ N + 1 := by
  rcases C54_bookkeeping_back_partial s func fdx rhoT xt ut edx bdx dt horizon n N hmin hm hH hn hn0 hx hu
    hed hbd hN hN2 with h | h
  · exfalso
    rw [RungeKutta45.solveBack, hn, Res.ok_bind, Res.bind_eq_ok] at h
    obtain ⟨ms, -, h⟩ := h
    dsimp only at h
    split at h
    · cases h
    · have h12 : (0:ℝ) < 1 / 10 ^ 12 := by norm_num
      have hN1 : s.hmin ≤ horizon := by
        rcases Nat.eq_zero_or_pos N with h0 | h0
        · rw [h0] at hN; norm_num at hN; linarith
        · rw [hN]
          have : (1:ℝ) ≤ N := by exact_mod_cast h0
          nlinarith
      refine solveBack45_not_none s func fdx xt ut edx bdx P horizon δ n _ k N hmin hm he hδ ha hk hN.le hi
        _ 0 0 _ _ _ _ hP hm (by linarith) hmin (Or.inl le_rfl) (by linarith) (Or.inr hδ) (Nat.zero_le _)
        (by simp) (by simp) (by simp) h
  · exact h

/-- The hypotheses are met by a co-state that grows at unit rate. -/
example : ∃ l, (RungeKutta45.mk (1 / 10 : ℝ) (1 / 2) (1 / 1000) 10).solveBack (fun _ e _ _ => e)
    (fun _ (_ : V3 ℝ) => ⟨⟨0, 0, 0⟩, ⟨0, 0, 0⟩, ⟨0, 0, 0⟩⟩) ⟨0, 0, 0⟩ (List.replicate 10 ⟨0, 0, 0⟩)
    (List.replicate 10 ⟨0, 0, 0⟩) (List.replicate 10 ⟨1, 0, 0⟩) (List.replicate 10 ⟨0, 0, 0⟩) (1 / 10) 1 =
      .ok (some l) ∧ GoodTimesBack 1 l ∧ l.length ≤ 11 := by
  obtain ⟨n, hn, e⟩ := numSteps_floor (horizon := (1:ℝ)) (dt := 1 / 10) (by norm_num) (by norm_num) (by norm_num)
  have e10 : n.toNat = 10 := by rw [e]; norm_num
  refine C106_succeeds_back _ _ _ _ _ _ _ _ (fun _ => True) _ _ (1 / 2) n 0 10 trivial (by norm_num)
    (by norm_num) (by norm_num) (by norm_num) hn (by omega) (by simp [e10]) (by simp [e10]) (by simp [e10])
    (by simp [e10]) (by norm_num) (by norm_num) (by norm_num) ?_ (by norm_num) (by norm_num)
  intro rho h e b x u _ hh _ he _ _ _
  refine ⟨_, _, fehlberg_const _ _ _, trivial, fun _ => ?_⟩
  rw [List.eq_of_mem_replicate he, supNorm_smul, real_neg, abs_neg, abs_of_pos hh]
  have : supNorm ⟨1, 0, 0⟩ = 1 := by norm_num [supNorm]
  rw [this, mul_one, mul_div_assoc, div_self hh.ne']
  norm_num [excess]

end Ergodic
