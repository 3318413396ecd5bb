import Verif.Props.Rk45

/-!
# Property C54, backward integration

The mirror image of `C54_bookkeeping_partial` for `RungeKutta45::solve(rhot, func, …)`
(integrator.hpp:357-453), which starts at the horizon and ends at time 0.
-/

namespace Ergodic

/-- The accepted times decrease strictly from the horizon and end within the comparison tolerance of
0 without becoming negative. -/
def GoodTimesBack (horizon : ℝ) (l : List (ℝ × V3 ℝ)) : Prop :=
  (l.map Prod.fst).Pairwise (· > ·) ∧ (∀ p ∈ l, 0 ≤ p.1) ∧
    (l.map Prod.fst).head? = some horizon ∧ ∃ p, l.getLast? = some p ∧ p.1 < 1 / 10 ^ 12

theorem stepBack_total (func : CoStateFunc ℝ) (rho g b : V3 ℝ) (A : M3 ℝ) (h : ℝ) :
    ∃ p, RungeKutta45.stepBack func rho g b A h = .ok p := by
  unfold RungeKutta45.stepBack
  exact fehlberg_total _ (fun y => ⟨_, rfl⟩) rho h

theorem col_total {α : Type} (m : List α) (i : Nat) (h : i < m.length) : ∃ v, col m i = .ok v :=
  ⟨m[i], by rw [col_eq_ok, List.getElem?_eq_getElem]⟩

/-- Loop invariant of the backward integration. -/
theorem solveBack45_inv {U : Type} (s : RungeKutta45 ℝ) (func : CoStateFunc ℝ) (fdx : V3 ℝ → U → M3 ℝ)
    (xt : List (V3 ℝ)) (ut : List U) (edx bdx : List (V3 ℝ))
    (horizon : ℝ) (n : UInt32) (k : Nat) (hmin : 0 < s.hmin)
    (hm : s.hmin ≤ s.hmax) (hH : 0 < horizon) (hn : 0 < n.toNat) (hx : n.toNat ≤ xt.length)
    (hu : n.toNat ≤ ut.length) (hed : n.toNat ≤ edx.length) (hbd : n.toNat ≤ bdx.length)
    (hk : horizon ≤ k * s.hmin) :
    ∀ (fuel iter : Nat) (t h : ℝ) (x : V3 ℝ) (acc : List (ℝ × V3 ℝ)),
      iter + (fuel + 1) = s.max_iter + 1 → t ≤ horizon → 1 / 10 ^ 12 ≤ t → 0 < h → 0 ≤ t - h →
      (s.hmin ≤ h ∨ h = t) → 1 ≤ acc.length → ((acc.length : ℝ) - 1) * s.hmin ≤ horizon - t →
      (acc.map Prod.fst).Pairwise (· > ·) → (∀ p ∈ acc, t ≤ p.1) →
      (acc.map Prod.fst).head? = some horizon →
      s.solveBackLoop func fdx xt ut edx bdx n (k + 1) horizon (fuel + 1) iter t h x acc = .ok none ∨
      ∃ l, s.solveBackLoop func fdx xt ut edx bdx n (k + 1) horizon (fuel + 1) iter t h x acc =
        .ok (some l) ∧ GoodTimesBack horizon l ∧ l.length ≤ k + 1 := by
  have tol : (0:ℝ) < 1 / 10 ^ 12 := by norm_num
  have e0 : (lit 0 0 : ℝ) = 0 := by simp
  intro fuel
  induction fuel with
  | zero =>
    intro iter t h x acc hi htH ht0 hh hth _ hl hst hp hle hhd
    left
    obtain ⟨i, hi', hilt⟩ := timeIndex_ok n hn t horizon (by linarith) htH hH
    obtain ⟨ev, c1⟩ := col_total edx i.toNat (by omega)
    obtain ⟨bv, c2⟩ := col_total bdx i.toNat (by omega)
    obtain ⟨xv, c3⟩ := col_total xt i.toNat (by omega)
    obtain ⟨uv, c4⟩ := col_total ut i.toNat (by omega)
    obtain ⟨⟨xn, r⟩, hs⟩ := stepBack_total func x ev bv (fdx xv uv) h
    have hroom : ¬ (k + 1 ≤ acc.length) := by
      have h1 : ((acc.length : ℝ) - 1) * s.hmin < k * s.hmin := by linarith
      have h2 := lt_of_mul_lt_mul_right h1 hmin.le
      have h3 : (acc.length : ℝ) < k + 1 := by linarith
      have h4 : acc.length < k + 1 := by exact_mod_cast h3
      omega
    obtain ⟨h', hn', -, -⟩ := nextH_ok s hm h r
    unfold RungeKutta45.solveBackLoop
    simp only [hi', c1, c2, c3, c4, hs, Res.ok_bind]
    rw [if_neg (fun hc => hroom hc.2)]
    simp only [hn', Res.ok_bind]
    rw [if_pos (show iter = s.max_iter by omega)]
  | succ fuel ih =>
    intro iter t h x acc hi htH ht0 hh hth hor hl hst hp hle hhd
    obtain ⟨i, hi', hilt⟩ := timeIndex_ok n hn t horizon (by linarith) htH hH
    obtain ⟨ev, c1⟩ := col_total edx i.toNat (by omega)
    obtain ⟨bv, c2⟩ := col_total bdx i.toNat (by omega)
    obtain ⟨xv, c3⟩ := col_total xt i.toNat (by omega)
    obtain ⟨uv, c4⟩ := col_total ut i.toNat (by omega)
    obtain ⟨⟨xn, r⟩, hs⟩ := stepBack_total func x ev bv (fdx xv uv) h
    have hlen : acc.length < k + 1 := by
      have h1 : ((acc.length : ℝ) - 1) * s.hmin < k * s.hmin := by linarith
      have h2 := lt_of_mul_lt_mul_right h1 hmin.le
      have h3 : (acc.length : ℝ) < k + 1 := by linarith
      exact_mod_cast h3
    have hroom : ¬ (k + 1 ≤ acc.length) := by omega
    obtain ⟨h', hn', hlo, -⟩ := nextH_ok s hm h r
    rw [RungeKutta45.solveBackLoop]
    simp only [hi', c1, c2, c3, c4, hs, Res.ok_bind]
    rw [if_neg (fun hc => hroom hc.2)]
    simp only [hn', Res.ok_bind]
    rw [if_neg (show ¬ iter = s.max_iter by omega)]
    by_cases hacc : (Flt.lt r s.epsilon || almostEqual r s.epsilon) = true
    · -- the step is accepted
      simp only [hacc, if_true, real_sub, e0]
      have hnl : Flt.lt (t - h) 0 = false := by rw [real_lt_false]; exact hth
      simp only [hnl, Bool.false_or]
      have hpw : ((acc ++ [(t - h, xn)]).map Prod.fst).Pairwise (· > ·) := by
        rw [List.map_append, List.pairwise_append]
        refine ⟨hp, by simp, ?_⟩
        intro a ha b hb
        simp only [List.map_cons, List.map_nil, List.mem_singleton] at hb
        obtain ⟨p, hpm, rfl⟩ := List.mem_map.mp ha
        have := hle p hpm
        rw [hb]; show t - h < p.1; linarith
      have hle' : ∀ p ∈ acc ++ [(t - h, xn)], t - h ≤ p.1 := by
        intro p hpm
        rw [List.mem_append, List.mem_singleton] at hpm
        rcases hpm with hpm | rfl
        · exact le_trans (by linarith) (hle p hpm)
        · exact le_rfl
      have hhd' : ((acc ++ [(t - h, xn)]).map Prod.fst).head? = some horizon := by
        rw [List.map_append, List.head?_append, hhd]; rfl
      by_cases hfl : almostEqual (t - h) 0 = true
      · rw [if_pos hfl]
        right
        refine ⟨_, rfl, ⟨hpw, fun p hpm => hth.trans (hle' p hpm), hhd', ?_⟩, ?_⟩
        · refine ⟨_, List.getLast?_concat .., ?_⟩
          have := (real_almostEqual_eps _ _).mp hfl
          rw [sub_zero, abs_of_nonneg hth] at this
          exact this
        · simp; omega
      · rw [if_neg hfl]
        have hgap : 1 / 10 ^ 12 ≤ t - h := by
          rw [real_almostEqual_eps, not_lt, sub_zero, abs_of_nonneg hth] at hfl
          exact hfl
        have hhm : s.hmin ≤ h := by
          rcases hor with hor | hor
          · exact hor
          · exfalso; linarith
        have hst' : (((acc ++ [(t - h, xn)]).length : ℝ) - 1) * s.hmin ≤ horizon - (t - h) := by
          rw [List.length_append]
          push_cast
          simp only [List.length_cons, List.length_nil]
          push_cast
          nlinarith
        by_cases hclip : Flt.lt (t - h - h') 0 = true
        · rw [if_pos (show ¬ almostEqual (t - h) 0 = true ∧ Flt.lt (t - h - h') 0 = true from
            ⟨hfl, hclip⟩)]
          exact ih _ _ _ _ _ (by omega) (by linarith) hgap (by linarith) (by linarith) (Or.inr rfl)
            (by simp) hst' hpw hle' hhd'
        · rw [if_neg (fun hc => hclip hc.2)]
          rw [real_lt, not_lt] at hclip
          exact ih _ _ _ _ _ (by omega) (by linarith) hgap (by linarith) hclip (Or.inl hlo)
            (by simp) hst' hpw hle' hhd'
    · -- the step is rejected
      have hacc' : (Flt.lt r s.epsilon || almostEqual r s.epsilon) = false := by simpa using hacc
      simp only [hacc', Bool.false_eq_true, if_false, real_sub, e0]
      have hnl : Flt.lt t 0 = false := by rw [real_lt_false]; linarith
      simp only [hnl, Bool.false_or]
      have hfl : ¬ almostEqual t 0 = true := by
        rw [real_almostEqual_eps, not_lt, sub_zero, abs_of_nonneg (by linarith)]
        exact ht0
      rw [if_neg hfl]
      by_cases hclip : Flt.lt (t - h') 0 = true
      · rw [if_pos (show ¬ almostEqual t 0 = true ∧ Flt.lt (t - h') 0 = true from ⟨hfl, hclip⟩)]
        exact ih _ _ _ _ _ (by omega) htH ht0 (by linarith) (by linarith) (Or.inr rfl) hl hst hp hle hhd
      · rw [if_neg (fun hc => hclip hc.2)]
        rw [real_lt, not_lt] at hclip
        exact ih _ _ _ _ _ (by omega) htH ht0 (by linarith) hclip (Or.inl hlo) hl hst hp hle hhd

/-- C54, backward, when the horizon is a multiple of the smallest step.  The first step is the
smallest one, so unlike forwards no bound on `hmax` is needed.  Missing: other horizons, see
`C54_refuted_storage_back`. -/
theorem C54_bookkeeping_back_partial {U : Type} (s : RungeKutta45 ℝ) (func : CoStateFunc ℝ)
    (fdx : V3 ℝ → U → M3 ℝ) (rhoT : V3 ℝ) (xt : List (V3 ℝ)) (ut : List U) (edx bdx : List (V3 ℝ))
    (dt horizon : ℝ) (n : UInt32) (k : Nat)
    (hmin : 0 < s.hmin) (hm : s.hmin ≤ s.hmax) (hH : 1 / 10 ^ 12 ≤ horizon)
    (hn : numSteps horizon dt = .ok n) (hn0 : 0 < n.toNat) (hx : n.toNat ≤ xt.length)
    (hu : n.toNat ≤ ut.length) (hed : n.toNat ≤ edx.length) (hbd : n.toNat ≤ bdx.length)
    (hk : horizon = k * s.hmin) (hk2 : k + 1 < 2 ^ 32) :
    s.solveBack func fdx rhoT xt ut edx bdx dt horizon = .ok none ∨
    ∃ l, s.solveBack func fdx rhoT xt ut edx bdx dt horizon = .ok (some l) ∧
      GoodTimesBack horizon l ∧ l.length ≤ k + 1 := by
  have hH0 : 0 < horizon := by
    have : (0:ℝ) < 1 / 10 ^ 12 := by norm_num
    linarith
  have hk0 : s.hmin ≤ horizon := by
    have h1 : 1 ≤ k := by
      rcases Nat.eq_zero_or_pos k with h | h
      · rw [h] at hk; simp at hk; linarith
      · exact h
    have h2 : (1:ℝ) ≤ k := by exact_mod_cast h1
    rw [hk]; nlinarith
  have hc : castU32 (horizon / s.hmin) = .ok (UInt32.ofNat k) := by
    rw [hk, mul_div_cancel_right₀ _ hmin.ne']
    exact castU32_natCast (by omega)
  have hms : (UInt32.ofNat k + 1).toNat = k + 1 := by
    rw [UInt32.toNat_add, UInt32.toNat_ofNat_of_lt' (show k < UInt32.size from by
      simp only [UInt32.size]; omega)]
    show (k + 1) % 2 ^ 32 = k + 1
    exact Nat.mod_eq_of_lt hk2
  have e : s.solveBack func fdx rhoT xt ut edx bdx dt horizon =
      s.solveBackLoop func fdx xt ut edx bdx n (k + 1) horizon (s.max_iter + 1) 0 horizon s.hmin rhoT
        [(horizon, rhoT)] := by
    simp only [RungeKutta45.solveBack, hn, real_div, hc, Res.ok_bind, hms]
    rw [if_neg (by omega)]
  rw [e]
  exact solveBack45_inv s func fdx xt ut edx bdx horizon n k hmin hm hH0 hn0 hx hu hed hbd hk.le _ _ _ _ _ _
    (by omega) le_rfl hH hmin (by linarith) (Or.inl le_rfl) (by simp) (by simp) (by simp)
    (by simp) (by simp)

/-- One iteration of a co-state at rest when the step is accepted. -/
theorem rest_iter_back (s : RungeKutta45 ℝ) (he : 0 < s.epsilon) (hm : s.hmin ≤ s.hmax) (u v : V3 ℝ)
    (ms fuel iter : Nat) (horizon t h : ℝ) (x : V3 ℝ) (acc : List (ℝ × V3 ℝ))
    (hi : iter ≠ s.max_iter) :
    ∃ h', s.hmin ≤ h' ∧ h' ≤ s.hmax ∧
    s.solveBackLoop (fun _ _ _ _ => ⟨0, 0, 0⟩) omniModel.fdx [v] [u] [v] [v] 1 ms horizon (fuel + 1) iter t h x acc =
      if ms ≤ acc.length then .throw .logicError
      else if t - h < 0 ∨ |t - h| < 1 / 10 ^ 12 then .ok (some (acc ++ [(t - h, x)]))
      else s.solveBackLoop (fun _ _ _ _ => ⟨0, 0, 0⟩) omniModel.fdx [v] [u] [v] [v] 1 ms horizon fuel (iter + 1)
        (t - h) (if t - h - h' < 0 then t - h else h') x (acc ++ [(t - h, x)]) := by
  obtain ⟨h', hn', h1, h2⟩ := nextH_ok s hm h 0
  refine ⟨h', h1, h2, ?_⟩
  have ht : RungeKutta45.timeIndex 1 t horizon = .ok 0 := by
    unfold RungeKutta45.timeIndex
    have : ((1 : UInt32) - 1).toNat = 0 := rfl
    rw [this]
    simp only [real_floor, real_round, real_mul, real_ofInt]
    have e : realRound (((0 : ℕ) : ℤ) * fabs (t /. horizon)) = ((0 : ℕ) : ℝ) := by
      rw [← realRound_natCast]; norm_num
    rw [e, Int.floor_natCast]
    have := castU32_natCast (n := 0) (by norm_num)
    exact_mod_cast this
  have hc : ∀ w : V3 ℝ, col [w] (0 : UInt32).toNat = .ok w := fun _ => rfl
  have hacc : (Flt.lt (0:ℝ) s.epsilon || almostEqual (0:ℝ) s.epsilon) = true := by
    rw [Bool.or_eq_true, real_lt]; exact Or.inl he
  have hst : ∀ A : M3 ℝ, RungeKutta45.stepBack (fun _ _ _ _ => (⟨0, 0, 0⟩ : V3 ℝ)) x v v A h = .ok (x, 0) := by
    intro A
    have : (fun _ : V3 ℝ => (Res.ok (V3.smul (~-. h) ⟨0, 0, 0⟩) : Res (V3 ℝ))) = fun _ => .ok ⟨0, 0, 0⟩ := by
      funext y
      simp [V3.smul]
    unfold RungeKutta45.stepBack
    rw [this, fehlberg_const]
    simp [V3.add, V3.smul, supNorm]
  have e0 : (lit 0 0 : ℝ) = 0 := by simp
  rw [RungeKutta45.solveBackLoop]
  simp only [ht, hc, hst, Res.ok_bind, hacc, if_true, true_and, hn', real_sub, e0]
  by_cases hms : ms ≤ acc.length
  · rw [if_pos hms, if_pos hms]
  · rw [if_neg hms, if_neg hms, if_neg hi]
    have key : (Flt.lt (t - h) 0 || almostEqual (t - h) 0) = true ↔
        (t - h < 0 ∨ |t - h| < 1 / 10 ^ 12) := by
      rw [Bool.or_eq_true, real_lt, real_almostEqual_eps, sub_zero]
    by_cases hfl : t - h < 0 ∨ |t - h| < 1 / 10 ^ 12
    · rw [if_pos (key.mpr hfl), if_pos hfl]
    · rw [if_neg (fun hc => hfl (key.mp hc)), if_neg hfl]
      by_cases hcl : t - h - h' < 0
      · rw [if_pos ⟨fun hc => hfl (key.mp hc), (real_lt _ _).mpr hcl⟩, if_pos hcl]
      · rw [if_neg (fun hc => hcl ((real_lt _ _).mp hc.2)), if_neg hcl]

/-- C54, backward storage: with `hmin = hmax = 0.6` and horizon 1 the times 1, 0.4, 0 need three
columns but only two are allocated; the integration throws. -/
theorem C54_refuted_storage_back (rhoT u v : V3 ℝ) :
    (⟨6 / 10, 6 / 10, 1, 100⟩ : RungeKutta45 ℝ).solveBack (fun _ _ _ _ => ⟨0, 0, 0⟩) omniModel.fdx rhoT
      [v] [u] [v] [v] 1 1 = .throw .logicError := by
  have hn : numSteps (1:ℝ) 1 = .ok 1 := by
    rw [numSteps, real_div, real_fabs]
    exact castU32_real_of (n := 1) (by norm_num) (by norm_num) (by norm_num)
  have hc : castU32 ((1:ℝ) / (6 / 10)) = .ok 1 :=
    castU32_real_of (n := 1) (by norm_num) (by norm_num) (by norm_num)
  have hms : ((1 : UInt32) + 1).toNat = 2 := rfl
  simp only [RungeKutta45.solveBack, hn, real_div, hc, Res.ok_bind, hms]
  rw [if_neg (by norm_num)]
  obtain ⟨h1, a1, b1, r1⟩ := rest_iter_back ⟨6 / 10, 6 / 10, 1, 100⟩ one_pos le_rfl u v 2 100 0 1 1 (6 / 10)
    rhoT [(1, rhoT)] (by norm_num)
  have e1 : h1 = 6 / 10 := le_antisymm b1 a1
  subst e1
  rw [r1, if_neg (by simp), if_neg (by norm_num [abs_of_pos]), if_pos (by norm_num)]
  obtain ⟨h2, a2, b2, r2⟩ := rest_iter_back ⟨6 / 10, 6 / 10, 1, 100⟩ one_pos le_rfl u v 2 99 1 1 (1 - 6 / 10)
    (1 - 6 / 10) rhoT ([(1, rhoT)] ++ [(1 - 6 / 10, rhoT)]) (by norm_num)
  rw [r2, if_pos (by simp)]

/-- `C54_bookkeeping_back_partial`: ten smallest steps in the horizon, `hmax` beyond it -/
example : ∃ (s : RungeKutta45 ℝ) (k : Nat), 0 < s.hmin ∧ s.hmin ≤ s.hmax ∧ (1:ℝ) = k * s.hmin ∧
    1 < s.hmax ∧ k + 1 < 2 ^ 32 ∧ numSteps (1:ℝ) 1 = .ok 1 :=
  ⟨⟨1 / 10, 2, 1, 100⟩, 10, by norm_num, by norm_num, by norm_num, by norm_num, by norm_num, by
    rw [numSteps, real_div, real_fabs]
    exact castU32_real_of (n := 1) (by norm_num) (by norm_num) (by norm_num)⟩

end Ergodic
