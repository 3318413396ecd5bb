import Verif.Props.Rk45Back

/-!
# Property C109: how much storage the embedded integrator needs

`RungeKutta45::solve` allocates `static_cast<unsigned>(horizon / hmin_) + 1` columns
(integrator.hpp:241-243 and 372-374).  C54 shows that this is not always enough.  Here: for every
horizon one column more is always enough, the exception is the only consequence of the missing
column, and for every horizon that is not a multiple of the smallest step there is a configuration
for which the exception is thrown.
-/

namespace Ergodic

/-- The forward integration with a matrix of `ms` columns instead of the number the code
computes. -/
def solveIn {F U : Type} [Flt F] (s : RungeKutta45 F) (f : V3 F → U → Res (V3 F)) (x0 : V3 F)
    (ut : List U) (dt horizon : F) (ms : Nat) : Res (RungeKutta45.Outcome F) := do
  let steps ← numSteps horizon dt
  s.solveLoop f ut steps ms horizon (s.max_iter + 1) 0 (lit 0 0) ((s.hmax +. s.hmin) /. lit 2 0) x0
    [(lit 0 0, x0)]

/-- The backward integration with a matrix of `ms` columns. -/
def solveBackIn {F U : Type} [Flt F] (s : RungeKutta45 F) (func : CoStateFunc F)
    (fdx : V3 F → U → M3 F) (rhoT : V3 F) (xt : List (V3 F)) (ut : List U) (edx bdx : List (V3 F))
    (dt horizon : F) (ms : Nat) : Res (RungeKutta45.Outcome F) := do
  let steps ← numSteps horizon dt
  s.solveBackLoop func fdx xt ut edx bdx steps ms horizon (s.max_iter + 1) 0 horizon s.hmin rhoT
    [(horizon, rhoT)]

theorem room_bind {α β : Type} (m : Res α) (g g' : α → Res β)
    (h : ∀ a, g a = .throw .logicError ∨ g a = g' a) :
    (m >>= g) = .throw .logicError ∨ (m >>= g) = (m >>= g') := by
  cases m with
  | ok a => exact h a
  | throw e => right; rfl
  | ub => right; rfl
  | timeout => right; rfl

/-- Either the loop runs out of columns, or it does the same with more of them. -/
theorem solveLoop_room {F U : Type} [Flt F] (s : RungeKutta45 F) (f : V3 F → U → Res (V3 F))
    (ut : List U) (n : UInt32) (ms ms' : Nat) (hms : ms ≤ ms') (horizon : F) :
    ∀ (fuel iter : Nat) (t h : F) (x : V3 F) (acc : List (F × V3 F)),
      s.solveLoop f ut n ms horizon fuel iter t h x acc = .throw .logicError ∨
      s.solveLoop f ut n ms horizon fuel iter t h x acc =
        s.solveLoop f ut n ms' horizon fuel iter t h x acc := by
  intro fuel
  induction fuel with
  | zero => intro iter t h x acc; right; rfl
  | succ fuel ih =>
    intro iter t h x acc
    rw [RungeKutta45.solveLoop, RungeKutta45.solveLoop]
    refine room_bind _ _ _ fun i => room_bind _ _ _ fun u => room_bind _ _ _ fun p => ?_
    obtain ⟨xn, r⟩ := p
    dsimp only
    by_cases h1 : (Flt.lt r s.epsilon || almostEqual r s.epsilon) = true ∧ ms ≤ acc.length
    · left; rw [if_pos h1]
    · have h1' : ¬ ((Flt.lt r s.epsilon || almostEqual r s.epsilon) = true ∧ ms' ≤ acc.length) :=
        fun hc => h1 ⟨hc.1, hms.trans hc.2⟩
      rw [if_neg h1, if_neg h1']
      refine room_bind _ _ _ fun h' => ?_
      by_cases h2 : iter = s.max_iter
      · right; rw [if_pos h2, if_pos h2]
      · rw [if_neg h2, if_neg h2]
        by_cases h3 : (Flt.lt horizon (if (Flt.lt r s.epsilon || almostEqual r s.epsilon) = true then
            t +. h else t) || almostEqual (if (Flt.lt r s.epsilon || almostEqual r s.epsilon) = true then
            t +. h else t) horizon) = true
        · right; rw [if_pos h3, if_pos h3]
        · rw [if_neg h3, if_neg h3]
          exact ih _ _ _ _ _

theorem solveBackLoop_room {F U : Type} [Flt F] (s : RungeKutta45 F) (func : CoStateFunc F)
    (fdx : V3 F → U → M3 F) (xt : List (V3 F)) (ut : List U) (edx bdx : List (V3 F))
    (n : UInt32) (ms ms' : Nat) (hms : ms ≤ ms') (horizon : F) :
    ∀ (fuel iter : Nat) (t h : F) (x : V3 F) (acc : List (F × V3 F)),
      s.solveBackLoop func fdx xt ut edx bdx n ms horizon fuel iter t h x acc = .throw .logicError ∨
      s.solveBackLoop func fdx xt ut edx bdx n ms horizon fuel iter t h x acc =
        s.solveBackLoop func fdx xt ut edx bdx n ms' horizon fuel iter t h x acc := by
  intro fuel
  induction fuel with
  | zero => intro iter t h x acc; right; rfl
  | succ fuel ih =>
    intro iter t h x acc
    rw [RungeKutta45.solveBackLoop, RungeKutta45.solveBackLoop]
    refine room_bind _ _ _ fun i => room_bind _ _ _ fun e => room_bind _ _ _ fun b =>
      room_bind _ _ _ fun xv => room_bind _ _ _ fun u => room_bind _ _ _ fun p => ?_
    obtain ⟨xn, r⟩ := p
    dsimp only
    by_cases h1 : (Flt.lt r s.epsilon || almostEqual r s.epsilon) = true ∧ ms ≤ acc.length
    · left; rw [if_pos h1]
    · have h1' : ¬ ((Flt.lt r s.epsilon || almostEqual r s.epsilon) = true ∧ ms' ≤ acc.length) :=
        fun hc => h1 ⟨hc.1, hms.trans hc.2⟩
      rw [if_neg h1, if_neg h1']
      refine room_bind _ _ _ fun h' => ?_
      by_cases h2 : iter = s.max_iter
      · right; rw [if_pos h2, if_pos h2]
      · rw [if_neg h2, if_neg h2]
        by_cases h3 : (Flt.lt (if (Flt.lt r s.epsilon || almostEqual r s.epsilon) = true then
            t -. h else t) (lit 0 0) || almostEqual (if (Flt.lt r s.epsilon || almostEqual r s.epsilon) = true
            then t -. h else t) (lit 0 0)) = true
        · right; rw [if_pos h3, if_pos h3]
        · rw [if_neg h3, if_neg h3]
          exact ih _ _ _ _ _

/-- C109, for every arithmetic: when the code's matrix is large enough the integration is the one
with any larger matrix; when it is not, the integration throws.  Nothing is written outside the matrix
and no wrong result is returned. -/
theorem C109_room {F U : Type} [Flt F] (s : RungeKutta45 F) (f : V3 F → U → Res (V3 F)) (x0 : V3 F)
    (ut : List U) (dt horizon : F) (k : UInt32) (hk : castU32 (horizon /. s.hmin) = .ok k)
    (ms : Nat) (hms : k.toNat + 1 ≤ ms) :
    s.solve f x0 ut dt horizon = .throw .logicError ∨
      s.solve f x0 ut dt horizon = solveIn s f x0 ut dt horizon ms := by
  unfold RungeKutta45.solve solveIn
  cases numSteps horizon dt with
  | ok n =>
    simp only [hk, Res.ok_bind]
    split
    · left; rfl
    · refine solveLoop_room s f ut n _ ms ?_ _ _ _ _ _ _ _
      rw [UInt32.toNat_add]
      exact (Nat.mod_le _ _).trans hms
  | throw e => right; rfl
  | ub => right; rfl
  | timeout => right; rfl

theorem C109_room_back {F U : Type} [Flt F] (s : RungeKutta45 F) (func : CoStateFunc F)
    (fdx : V3 F → U → M3 F) (rhoT : V3 F) (xt : List (V3 F)) (ut : List U) (edx bdx : List (V3 F))
    (dt horizon : F) (k : UInt32) (hk : castU32 (horizon /. s.hmin) = .ok k) (ms : Nat)
    (hms : k.toNat + 1 ≤ ms) :
    s.solveBack func fdx rhoT xt ut edx bdx dt horizon = .throw .logicError ∨
      s.solveBack func fdx rhoT xt ut edx bdx dt horizon =
        solveBackIn s func fdx rhoT xt ut edx bdx dt horizon ms := by
  unfold RungeKutta45.solveBack solveBackIn
  cases numSteps horizon dt with
  | ok n =>
    simp only [hk, Res.ok_bind]
    split
    · left; rfl
    · refine solveBackLoop_room s func fdx xt ut edx bdx n _ ms ?_ _ _ _ _ _ _ _
      rw [UInt32.toNat_add]
      exact (Nat.mod_le _ _).trans hms
  | throw e => right; rfl
  | ub => right; rfl
  | timeout => right; rfl

/-- The first step when it passes the horizon: it is accepted and ends the integration, or it is
rejected and the next one ends at the horizon at the latest. -/
theorem solve45_first {U : Type} (s : RungeKutta45 ℝ) (f : V3 ℝ → U → Res (V3 ℝ)) (ut : List U)
    (horizon : ℝ) (n : UInt32) (k : Nat) (hf : ∀ x u, ∃ d, f x u = .ok d) (hmin : 0 < s.hmin)
    (hm : s.hmin ≤ s.hmax) (hH : 1 / 10 ^ 12 ≤ horizon) (hn : 0 < n.toNat) (hu : n.toNat ≤ ut.length)
    (hk : horizon ≤ k * s.hmin) (h : ℝ) (hh : horizon < h) (x0 : V3 ℝ) :
    s.solveLoop f ut n (k + 1) horizon (s.max_iter + 1) 0 0 h x0 [(0, x0)] = .ok none ∨
    (∃ l, s.solveLoop f ut n (k + 1) horizon (s.max_iter + 1) 0 0 h x0 [(0, x0)] = .ok (some l) ∧
      GoodTimes horizon l ∧ l.length ≤ k + 1) ∨
    ∃ x1, s.solveLoop f ut n (k + 1) horizon (s.max_iter + 1) 0 0 h x0 [(0, x0)] =
      .ok (some [(0, x0), (h, x1)]) := by
  have tol : (0:ℝ) < 1 / 10 ^ 12 := by norm_num
  have hH0 : 0 < horizon := by linarith
  have hk1 : 1 ≤ k := by
    rcases Nat.eq_zero_or_pos k with h | h
    · rw [h] at hk; simp at hk; linarith
    · exact h
  obtain ⟨i, hi', hilt⟩ := timeIndex_ok n hn 0 horizon le_rfl hH0.le hH0
  have hc : col ut i.toNat = .ok (ut[i.toNat]'(by omega)) := by
    rw [col_eq_ok, List.getElem?_eq_getElem]
  obtain ⟨⟨xn, r⟩, hs⟩ := fehlberg_total
    (fun y => do let d ← f y (ut[i.toNat]'(by omega)); .ok (V3.smul h d))
    (fun y => by obtain ⟨d, hd⟩ := hf y (ut[i.toNat]'(by omega)); simp [hd]) x0 h
  obtain ⟨h', hn', hlo, -⟩ := nextH_ok s hm h r
  have hs' : RungeKutta45.step f x0 (ut[i.toNat]'(by omega)) h = .ok (xn, r) := hs
  rw [RungeKutta45.solveLoop]
  simp only [hi', hc, hs', Res.ok_bind]
  rw [if_neg (fun hc => by have := hc.2; simp at this; omega)]
  simp only [hn', Res.ok_bind]
  by_cases hz : 0 = s.max_iter
  · left; rw [if_pos hz]
  rw [if_neg hz]
  by_cases hacc : (Flt.lt r s.epsilon || almostEqual r s.epsilon) = true
  · right; right
    refine ⟨xn, ?_⟩
    simp only [hacc, if_true, real_add, zero_add]
    have : Flt.lt horizon h = true := (real_lt _ _).mpr hh
    simp [this]
  · have hacc' : (Flt.lt r s.epsilon || almostEqual r s.epsilon) = false := by simpa using hacc
    simp only [hacc', Bool.false_eq_true, if_false, real_add]
    have hnl : Flt.lt horizon 0 = false := by rw [real_lt_false]; exact hH0.le
    simp only [hnl, Bool.false_or]
    have hfl : ¬ almostEqual 0 horizon = true := by
      rw [real_almostEqual_eps, not_lt, abs_sub_comm, abs_of_nonneg (by linarith)]
      linarith
    rw [if_neg hfl]
    obtain ⟨m, hm'⟩ : ∃ m, s.max_iter = m + 1 := ⟨s.max_iter - 1, by omega⟩
    rw [show s.max_iter = m + 1 from hm']
    have go := solve45_inv s f ut horizon n k hf hmin hm hH0 hn hu hk m 1 0
    by_cases hclip : Flt.lt horizon (0 + h') = true
    · rw [if_pos (show ¬ almostEqual 0 horizon = true ∧ Flt.lt horizon (0 + h') = true from
        ⟨hfl, hclip⟩)]
      rcases go (horizon -. 0) x0 [(0, x0)] (by omega) le_rfl (by linarith)
        (by simp only [real_sub]; linarith) (by simp only [real_sub]; linarith)
        (Or.inr (by simp only [real_sub]; ring)) (by simp) (by simp) (by simp) (by simp) (by simp)
        with h | h
      · left; exact h
      · right; left; exact h
    · rw [if_neg (fun hc => hclip hc.2)]
      rw [real_lt, not_lt] at hclip
      rcases go h' x0 [(0, x0)] (by omega) le_rfl (by linarith) (by linarith) hclip (Or.inl hlo)
        (by simp) (by simp) (by simp) (by simp) (by simp) with h | h
      · left; exact h
      · right; left; exact h

/-- C109, forward: when `m` smallest steps reach the horizon, `m + 1` columns are enough.  The
integration then gives up, or returns times as they should be in at most that many columns, or —
when the first step, the mean of smallest and largest step, passes the horizon — consists of the
two ends of that step. -/
theorem C109_enough {U : Type} (s : RungeKutta45 ℝ) (f : V3 ℝ → U → Res (V3 ℝ)) (x0 : V3 ℝ)
    (ut : List U) (dt horizon : ℝ) (n : UInt32) (m : Nat) (hf : ∀ x u, ∃ d, f x u = .ok d)
    (hmin : 0 < s.hmin) (hm : s.hmin ≤ s.hmax) (hH : 1 / 10 ^ 12 ≤ horizon)
    (hn : numSteps horizon dt = .ok n) (hn0 : 0 < n.toNat) (hu : n.toNat ≤ ut.length)
    (hb : horizon ≤ m * s.hmin) :
    solveIn s f x0 ut dt horizon (m + 1) = .ok none ∨
    (∃ l, solveIn s f x0 ut dt horizon (m + 1) = .ok (some l) ∧ GoodTimes horizon l ∧
      l.length ≤ m + 1) ∨
    (horizon < (s.hmax + s.hmin) / 2 ∧ ∃ x1, solveIn s f x0 ut dt horizon (m + 1) =
      .ok (some [(0, x0), ((s.hmax + s.hmin) / 2, x1)])) := by
  have tol : (0:ℝ) < 1 / 10 ^ 12 := by norm_num
  have hH0 : 0 < horizon := by linarith
  have e : solveIn s f x0 ut dt horizon (m + 1) =
      s.solveLoop f ut n (m + 1) horizon (s.max_iter + 1) 0 0
      ((s.hmax + s.hmin) / 2) x0 [(0, x0)] := by
    simp only [solveIn, hn, Res.ok_bind]
    simp
  rw [e]
  rcases lt_or_ge horizon ((s.hmax + s.hmin) / 2) with h | h
  · rcases solve45_first s f ut horizon n m hf hmin hm hH hn0 hu hb _ h x0 with h1 | h1 | h1
    · exact Or.inl h1
    · exact Or.inr (Or.inl h1)
    · exact Or.inr (Or.inr ⟨h, h1⟩)
  · rcases solve45_inv s f ut horizon n m hf hmin hm hH0 hn0 hu hb s.max_iter 0 0
      ((s.hmax + s.hmin) / 2) x0 [(0, x0)] (by omega) le_rfl (by linarith) (by linarith) (by linarith)
      (Or.inl (by linarith)) (by simp) (by simp) (by simp) (by simp) (by simp) with h1 | h1
    · exact Or.inl h1
    · exact Or.inr (Or.inl h1)

theorem horizon_le_steps {horizon hmin : ℝ} {k : UInt32} (h0 : 0 < hmin) (hH : 0 ≤ horizon)
    (hk : castU32 (horizon / hmin) = .ok k) :
    (k.toNat : ℝ) * hmin ≤ horizon ∧ horizon < ((k.toNat + 1 : ℕ) : ℝ) * hmin := by
  have h1 := castU32_real_eq_ok hk
  rw [realTrunc_of_nonneg (div_nonneg hH h0.le), Int.floor_eq_iff] at h1
  obtain ⟨h1, h2⟩ := h1
  rw [le_div_iff₀ h0] at h1
  rw [div_lt_iff₀ h0] at h2
  push_cast at h1 h2 ⊢
  exact ⟨h1, h2⟩

/-- C109, forward, every horizon: the integration throws for lack of a column, gives up, returns
times as they should be in at most one column more than allocated, or consists of a single step
past the horizon.  With one column more it would do the same instead of throwing. -/
theorem C109_every_horizon {U : Type} (s : RungeKutta45 ℝ) (f : V3 ℝ → U → Res (V3 ℝ)) (x0 : V3 ℝ)
    (ut : List U) (dt horizon : ℝ) (n k : UInt32) (hf : ∀ x u, ∃ d, f x u = .ok d)
    (hmin : 0 < s.hmin) (hm : s.hmin ≤ s.hmax) (hH : 1 / 10 ^ 12 ≤ horizon)
    (hn : numSteps horizon dt = .ok n) (hn0 : 0 < n.toNat) (hu : n.toNat ≤ ut.length)
    (hk : castU32 (horizon / s.hmin) = .ok k) :
    ∃ o, solveIn s f x0 ut dt horizon (k.toNat + 2) = .ok o ∧
      (s.solve f x0 ut dt horizon = .throw .logicError ∨ s.solve f x0 ut dt horizon = .ok o) ∧
      (o = none ∨ (∃ l, o = some l ∧ GoodTimes horizon l ∧ l.length ≤ k.toNat + 2) ∨
        (horizon < (s.hmax + s.hmin) / 2 ∧ ∃ x1, o = some [(0, x0), ((s.hmax + s.hmin) / 2, x1)])) := by
  have tol : (0:ℝ) < 1 / 10 ^ 12 := by norm_num
  have hb := (horizon_le_steps hmin (by linarith) hk).2
  have hr := C109_room s f x0 ut dt horizon k hk (k.toNat + 2) (by omega)
  rcases C109_enough s f x0 ut dt horizon n (k.toNat + 1) hf hmin hm hH hn hn0 hu hb.le with
    h | ⟨l, h, g⟩ | ⟨h0, x1, h⟩
  · exact ⟨_, h, hr.imp id (fun e => e.trans h), Or.inl rfl⟩
  · exact ⟨_, h, hr.imp id (fun e => e.trans h), Or.inr (Or.inl ⟨l, rfl, g⟩)⟩
  · exact ⟨_, h, hr.imp id (fun e => e.trans h), Or.inr (Or.inr ⟨h0, x1, rfl⟩)⟩

/-- C109, forward, multiples of the smallest step: never a missing column, whatever the largest
step. -/
theorem C109_multiple {U : Type} (s : RungeKutta45 ℝ) (f : V3 ℝ → U → Res (V3 ℝ)) (x0 : V3 ℝ)
    (ut : List U) (dt horizon : ℝ) (n : UInt32) (k : Nat) (hf : ∀ x u, ∃ d, f x u = .ok d)
    (hmin : 0 < s.hmin) (hm : s.hmin ≤ s.hmax) (hH : 1 / 10 ^ 12 ≤ horizon)
    (hn : numSteps horizon dt = .ok n) (hn0 : 0 < n.toNat) (hu : n.toNat ≤ ut.length)
    (hk : horizon = k * s.hmin) (hk2 : k + 1 < 2 ^ 32) :
    s.solve f x0 ut dt horizon = .ok none ∨
    (∃ l, s.solve f x0 ut dt horizon = .ok (some l) ∧ GoodTimes horizon l ∧ l.length ≤ k + 1) ∨
    (horizon < (s.hmax + s.hmin) / 2 ∧ ∃ x1, s.solve f x0 ut dt horizon =
      .ok (some [(0, x0), ((s.hmax + s.hmin) / 2, x1)])) := by
  have hc : castU32 (horizon / s.hmin) = .ok (UInt32.ofNat k) := by
    rw [hk, mul_div_cancel_right₀ _ hmin.ne']
    exact castU32_natCast (by omega)
  have hms : (UInt32.ofNat k + 1).toNat = k + 1 := by
    rw [UInt32.toNat_add, UInt32.toNat_ofNat_of_lt' (show k < UInt32.size from by
      simp only [UInt32.size]; omega)]
    show (k + 1) % 2 ^ 32 = k + 1
    exact Nat.mod_eq_of_lt hk2
  have e : s.solve f x0 ut dt horizon = solveIn s f x0 ut dt horizon (k + 1) := by
    simp only [RungeKutta45.solve, solveIn, hn, real_div, hc, Res.ok_bind, hms]
    rw [if_neg (by omega)]
  rw [e]
  exact C109_enough s f x0 ut dt horizon n k hf hmin hm hH hn hn0 hu hk.le

/-- C109, backward: when `m` smallest steps reach the horizon, `m + 1` columns are enough. -/
theorem C109_enough_back {U : Type} (s : RungeKutta45 ℝ) (func : CoStateFunc ℝ)
    (fdx : V3 ℝ → U → M3 ℝ) (rhoT : V3 ℝ) (xt : List (V3 ℝ)) (ut : List U) (edx bdx : List (V3 ℝ))
    (dt horizon : ℝ) (n : UInt32) (m : Nat)
    (hmin : 0 < s.hmin) (hm : s.hmin ≤ s.hmax) (hH : s.hmin ≤ horizon) (hH1 : 1 / 10 ^ 12 ≤ horizon)
    (hn : numSteps horizon dt = .ok n) (hn0 : 0 < n.toNat) (hx : n.toNat ≤ xt.length)
    (hu : n.toNat ≤ ut.length) (hed : n.toNat ≤ edx.length) (hbd : n.toNat ≤ bdx.length)
    (hb : horizon ≤ m * s.hmin) :
    solveBackIn s func fdx rhoT xt ut edx bdx dt horizon (m + 1) = .ok none ∨
    ∃ l, solveBackIn s func fdx rhoT xt ut edx bdx dt horizon (m + 1) = .ok (some l) ∧
      GoodTimesBack horizon l ∧ l.length ≤ m + 1 := by
  have e : solveBackIn s func fdx rhoT xt ut edx bdx dt horizon (m + 1) =
      s.solveBackLoop func fdx xt ut edx bdx n (m + 1) horizon (s.max_iter + 1) 0 horizon s.hmin rhoT
        [(horizon, rhoT)] := by
    simp only [solveBackIn, hn, Res.ok_bind]
  rw [e]
  exact solveBack45_inv s func fdx xt ut edx bdx horizon n m hmin hm (by linarith) hn0 hx hu hed hbd hb
    _ _ _ _ _ _ (by omega) le_rfl hH1 hmin (by linarith) (Or.inl le_rfl) (by simp) (by simp)
    (by simp) (by simp) (by simp)

/-- C109, backward, every horizon of at least one smallest step. -/
theorem C109_every_horizon_back {U : Type} (s : RungeKutta45 ℝ) (func : CoStateFunc ℝ)
    (fdx : V3 ℝ → U → M3 ℝ) (rhoT : V3 ℝ) (xt : List (V3 ℝ)) (ut : List U) (edx bdx : List (V3 ℝ))
    (dt horizon : ℝ) (n k : UInt32)
    (hmin : 0 < s.hmin) (hm : s.hmin ≤ s.hmax) (hH : s.hmin ≤ horizon) (hH1 : 1 / 10 ^ 12 ≤ horizon)
    (hn : numSteps horizon dt = .ok n) (hn0 : 0 < n.toNat) (hx : n.toNat ≤ xt.length)
    (hu : n.toNat ≤ ut.length) (hed : n.toNat ≤ edx.length) (hbd : n.toNat ≤ bdx.length)
    (hk : castU32 (horizon / s.hmin) = .ok k) :
    ∃ o, solveBackIn s func fdx rhoT xt ut edx bdx dt horizon (k.toNat + 2) = .ok o ∧
      (s.solveBack func fdx rhoT xt ut edx bdx dt horizon = .throw .logicError ∨
        s.solveBack func fdx rhoT xt ut edx bdx dt horizon = .ok o) ∧
      (o = none ∨ ∃ l, o = some l ∧ GoodTimesBack horizon l ∧ l.length ≤ k.toNat + 2) := by
  have hb := (horizon_le_steps hmin (by linarith) hk).2
  have hr := C109_room_back s func fdx rhoT xt ut edx bdx dt horizon k hk (k.toNat + 2) (by omega)
  rcases C109_enough_back s func fdx rhoT xt ut edx bdx dt horizon n (k.toNat + 1) hmin hm hH hH1 hn
    hn0 hx hu hed hbd hb.le with h | ⟨l, h, g⟩
  · exact ⟨_, h, hr.imp id (fun e => e.trans h), Or.inl rfl⟩
  · exact ⟨_, h, hr.imp id (fun e => e.trans h), Or.inr ⟨l, rfl, g⟩⟩

/-- The loop of a body at rest with only one step size, `d` steps before the matrix is full. -/
theorem rest_runs_out (hs eps : ℝ) (mi : Nat) (h0 : 0 < hs) (he : 0 < eps) (u x : V3 ℝ)
    (horizon : ℝ) (k : Nat) (hlo : k * hs + 1 / 10 ^ 12 ≤ horizon) :
    ∀ (d j iter fuel : Nat) (h : ℝ) (acc : List (ℝ × V3 ℝ)), j + d = k → acc.length = j + 1 →
      0 < h → (0 < d → h = hs) → iter + fuel = mi → iter + d < mi →
      (⟨hs, hs, eps, mi⟩ : RungeKutta45 ℝ).solveLoop (fun _ _ => .ok ⟨0, 0, 0⟩) [u] 1 (k + 1) horizon
        (fuel + 1) iter (j * hs) h x acc = .throw .logicError := by
  have tol : (0:ℝ) < 1 / 10 ^ 12 := by norm_num
  intro d
  induction d with
  | zero =>
    intro j iter fuel h acc hj hl hh _ hi hd
    obtain ⟨h1, -, -, r1⟩ := rest_iter ⟨hs, hs, eps, mi⟩ he le_rfl u (k + 1) fuel iter horizon (j * hs) h x acc
      hh (by show iter ≠ mi; omega)
    rw [r1, if_pos (by omega)]
  | succ d ih =>
    intro j iter fuel h acc hj hl hh hhs hi hd
    obtain rfl := hhs (by omega)
    obtain ⟨h1, a1, b1, r1⟩ := rest_iter ⟨h, h, eps, mi⟩ he le_rfl u (k + 1) fuel iter horizon (j * h) h x acc
      hh (by show iter ≠ mi; omega)
    obtain rfl : h1 = h := le_antisymm b1 a1
    have hle : ((j + 1 : ℕ) : ℝ) ≤ k := by exact_mod_cast (by omega : j + 1 ≤ k)
    have ht : j * h1 + h1 = ((j + 1 : ℕ) : ℝ) * h1 := by push_cast; ring
    have hgap : ((j + 1 : ℕ) : ℝ) * h1 + 1 / 10 ^ 12 ≤ horizon := by nlinarith
    rw [r1, if_neg (by omega), ht]
    rw [if_neg (by
      rintro (hc | hc)
      · linarith
      · rw [abs_sub_comm, abs_of_nonneg (by linarith)] at hc
        linarith)]
    obtain ⟨fuel, rfl⟩ : ∃ g, fuel = g + 1 := ⟨fuel - 1, by omega⟩
    refine ih (j + 1) (iter + 1) fuel _ _ (by omega) (by simp [hl]) ?_ ?_ (by omega) (by omega)
    · split_ifs
      · linarith
      · exact hh
    · intro hd'
      rw [if_neg]
      have h2 : ((j + 2 : ℕ) : ℝ) ≤ k := by exact_mod_cast (by omega : j + 2 ≤ k)
      have h3 : ((j + 1 : ℕ) : ℝ) * h1 + h1 = ((j + 2 : ℕ) : ℝ) * h1 := by push_cast; ring
      rw [h3]
      nlinarith

/-- C109: for every step size and every horizon that is not a multiple of it (up to the comparison
tolerance) the exception is thrown: with that step size as smallest and largest, for a body at
rest. -/
theorem C109_throws (hs eps dt horizon : ℝ) (mi k : Nat) (h0 : 0 < hs) (he : 0 < eps)
    (hlo : k * hs + 1 / 10 ^ 12 ≤ horizon) (hhi : horizon < (k + 1) * hs) (hk : k + 1 < 2 ^ 32)
    (hn : numSteps horizon dt = .ok 1) (hmi : k < mi) (x0 u : V3 ℝ) :
    (⟨hs, hs, eps, mi⟩ : RungeKutta45 ℝ).solve (fun _ (_ : V3 ℝ) => .ok ⟨0, 0, 0⟩) x0 [u] dt horizon =
      .throw .logicError := by
  have tol : (0:ℝ) < 1 / 10 ^ 12 := by norm_num
  have hc : castU32 (horizon / hs) = .ok (UInt32.ofNat k) :=
    castU32_real_of (by rw [le_div_iff₀ h0]; linarith) (by rw [div_lt_iff₀ h0]; exact hhi) (by omega)
  have hms : (UInt32.ofNat k + 1).toNat = k + 1 := by
    rw [UInt32.toNat_add, UInt32.toNat_ofNat_of_lt' (show k < UInt32.size from by
      simp only [UInt32.size]; omega)]
    show (k + 1) % 2 ^ 32 = k + 1
    exact Nat.mod_eq_of_lt hk
  have e0 : (lit 0 0 : ℝ) = 0 := by simp
  have eh : (hs +. hs) / (lit 2 0 : ℝ) = hs := by
    simp only [real_add, real_lit]; norm_num
  simp only [RungeKutta45.solve, hn, real_div, hc, Res.ok_bind, hms]
  rw [if_neg (by omega), e0, eh]
  have := rest_runs_out hs eps mi h0 he u x0 horizon k hlo k 0 0 mi hs [(0, x0)] (by omega) (by simp) h0
    (fun _ => rfl) (by omega) (by omega)
  simpa using this

/-- The same for a co-state at rest. -/
theorem rest_runs_out_back (hs eps : ℝ) (mi : Nat) (h0 : 0 < hs) (he : 0 < eps) (u v x : V3 ℝ)
    (horizon : ℝ) (k : Nat) (hlo : k * hs + 1 / 10 ^ 12 ≤ horizon) :
    ∀ (d j iter fuel : Nat) (t h : ℝ) (acc : List (ℝ × V3 ℝ)), j + d = k → acc.length = j + 1 →
      t = horizon - j * hs → (0 < d → h = hs) → iter + fuel = mi → iter + d < mi →
      (⟨hs, hs, eps, mi⟩ : RungeKutta45 ℝ).solveBackLoop (fun _ _ _ _ => ⟨0, 0, 0⟩) omniModel.fdx [v] [u] [v]
        [v] 1 (k + 1) horizon (fuel + 1) iter t h x acc = .throw .logicError := by
  have tol : (0:ℝ) < 1 / 10 ^ 12 := by norm_num
  intro d
  induction d with
  | zero =>
    intro j iter fuel t h acc hj hl _ _ hi hd
    obtain ⟨h1, -, -, r1⟩ := rest_iter_back ⟨hs, hs, eps, mi⟩ he le_rfl u v (k + 1) fuel iter horizon t h x acc
      (by show iter ≠ mi; omega)
    rw [r1, if_pos (by omega)]
  | succ d ih =>
    intro j iter fuel t h acc hj hl ht hhs hi hd
    obtain rfl := hhs (by omega)
    obtain ⟨h1, a1, b1, r1⟩ := rest_iter_back ⟨h, h, eps, mi⟩ he le_rfl u v (k + 1) fuel iter horizon t h x acc
      (by show iter ≠ mi; omega)
    obtain rfl : h1 = h := le_antisymm b1 a1
    have hle : ((j + 1 : ℕ) : ℝ) ≤ k := by exact_mod_cast (by omega : j + 1 ≤ k)
    have ht' : t - h1 = horizon - ((j + 1 : ℕ) : ℝ) * h1 := by rw [ht]; push_cast; ring
    have hgap : 1 / 10 ^ 12 ≤ t - h1 := by rw [ht']; nlinarith
    rw [r1, if_neg (by omega)]
    rw [if_neg (by
      rintro (hc | hc)
      · linarith
      · rw [abs_of_nonneg (by linarith)] at hc
        linarith)]
    obtain ⟨fuel, rfl⟩ : ∃ g, fuel = g + 1 := ⟨fuel - 1, by omega⟩
    refine ih (j + 1) (iter + 1) fuel _ _ _ (by omega) (by simp [hl]) ht' ?_ (by omega) (by omega)
    intro hd'
    rw [if_neg]
    have h2 : ((j + 2 : ℕ) : ℝ) ≤ k := by exact_mod_cast (by omega : j + 2 ≤ k)
    have h3 : t - h1 - h1 = horizon - ((j + 2 : ℕ) : ℝ) * h1 := by rw [ht]; push_cast; ring
    rw [h3]
    nlinarith

theorem C109_throws_back (hs eps dt horizon : ℝ) (mi k : Nat) (h0 : 0 < hs) (he : 0 < eps)
    (hlo : k * hs + 1 / 10 ^ 12 ≤ horizon) (hhi : horizon < (k + 1) * hs) (hk : k + 1 < 2 ^ 32)
    (hn : numSteps horizon dt = .ok 1) (hmi : k < mi) (rhoT u v : V3 ℝ) :
    (⟨hs, hs, eps, mi⟩ : RungeKutta45 ℝ).solveBack (fun _ _ _ _ => ⟨0, 0, 0⟩) omniModel.fdx rhoT
      [v] [u] [v] [v] dt horizon = .throw .logicError := by
  have tol : (0:ℝ) < 1 / 10 ^ 12 := by norm_num
  have hc : castU32 (horizon / hs) = .ok (UInt32.ofNat k) :=
    castU32_real_of (by rw [le_div_iff₀ h0]; linarith) (by rw [div_lt_iff₀ h0]; exact hhi) (by omega)
  have hms : (UInt32.ofNat k + 1).toNat = k + 1 := by
    rw [UInt32.toNat_add, UInt32.toNat_ofNat_of_lt' (show k < UInt32.size from by
      simp only [UInt32.size]; omega)]
    show (k + 1) % 2 ^ 32 = k + 1
    exact Nat.mod_eq_of_lt hk
  simp only [RungeKutta45.solveBack, hn, real_div, hc, Res.ok_bind, hms]
  rw [if_neg (by omega)]
  exact rest_runs_out_back hs eps mi h0 he u v rhoT horizon k hlo k 0 0 mi horizon hs [(horizon, rhoT)]
    (by omega) (by simp) (by simp) (fun _ => rfl) (by omega) (by omega)

/-- `C109_every_horizon` and `C109_throws` apply to a horizon of 1 with steps of 0.3 … -/
example : castU32 ((1:ℝ) / (3 / 10)) = .ok 3 ∧ ((3:ℕ):ℝ) * (3 / 10) + 1 / 10 ^ 12 ≤ 1 ∧
    (1:ℝ) < ((3:ℕ) + 1) * (3 / 10) ∧ numSteps (1:ℝ) 1 = .ok 1 :=
  ⟨castU32_real_of (n := 3) (by norm_num) (by norm_num) (by norm_num), by norm_num, by norm_num, by
    rw [numSteps, real_div, real_fabs]
    exact castU32_real_of (n := 1) (by norm_num) (by norm_num) (by norm_num)⟩

/-- … where the third outcome of `C109_enough` is excluded, -/
example : ¬ ((1:ℝ) < (3 / 10 + 3 / 10) / 2) := by norm_num

/-- and `C109_multiple` to one of 1 with steps from 0.1 to 10, where it is not. -/
example : (1:ℝ) = (10:ℕ) * (1 / 10) ∧ (1:ℝ) < (10 + 1 / 10) / 2 := by norm_num

end Ergodic
