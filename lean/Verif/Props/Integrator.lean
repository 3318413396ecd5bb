import Verif.Lemmas.Rk4
import Verif.Props.Numerics
import Verif.Props.Validate
import Verif.Model.ErgodicControl

/-!
# Properties C50–C52: fixed-step integration
-/

namespace Ergodic
open Real

/-! ## C50 accuracy of one RK4 step -/

/-- C50: for an affine system `ẋ = A x + b` the step is the degree-4 Taylor polynomial of the exact
solution: with `d = A x + b`, `x + h d + h²/2 A d + h³/6 A² d + h⁴/24 A³ d`. -/
theorem C50_affine {U : Type} (dt : ℝ) (A : M3 ℝ) (b x : V3 ℝ) (u : U) :
    RungeKutta.step dt (fun y (_ : U) => .ok ((A.mulVec y).add b)) x u = .ok
      (let d := (A.mulVec x).add b
       ((((x.add (V3.smul dt d)).add (V3.smul (dt ^ 2 / 2) (A.mulVec d))).add
        (V3.smul (dt ^ 3 / 6) (A.mulVec (A.mulVec d)))).add
        (V3.smul (dt ^ 4 / 24) (A.mulVec (A.mulVec (A.mulVec d)))))) := by
  simp only [RungeKutta.step, Res.ok_bind, mulVec_add, mulVec_smul, Res.ok.injEq]
  ext <;> simp only [V3.add, V3.smul, real_add, real_mul, real_div, real_lit] <;> push_cast <;> ring

/-- C50: for a constant derivative the step is exact. -/
theorem C50_constant {U : Type} (dt : ℝ) (d x : V3 ℝ) (u : U) :
    RungeKutta.step dt (fun _ (_ : U) => .ok d) x u = .ok (x.add (V3.smul dt d)) := by
  simp only [RungeKutta.step, Res.ok_bind, Res.ok.injEq]
  ext <;> simp only [V3.add, V3.smul, real_add, real_mul, real_div, real_lit] <;> push_cast <;> ring

/-- C50: the heading advances exactly. -/
theorem C50_heading (dt : ℝ) (x u y : V3 ℝ)
    (h : RungeKutta.step dt omniModel.f x u = .ok y) : y.c2 = (flow x u dt).c2 := by
  rw [flow_heading]; exact (omni_step_mid dt x u y h).2.2

/-- C50: the position differs from the exact motion by at most `|v| |dt| (w dt)⁴ / 2880`. -/
theorem C50_error (dt : ℝ) (x u y : V3 ℝ) (h : RungeKutta.step dt omniModel.f x u = .ok y) :
    sqrt ((y.c0 - (flow x u dt).c0) ^ 2 + (y.c1 - (flow x u dt).c1) ^ 2) ≤
      sqrt (u.c0 ^ 2 + u.c1 ^ 2) * |dt| * (u.c2 * dt) ^ 4 / 2880 := by
  obtain ⟨hy0, hy1, -⟩ := omni_step_mid dt x u y h
  by_cases hz : dt * u.c2 = 0
  · have e0 : y.c0 - (flow x u dt).c0 = 0 ∧ y.c1 - (flow x u dt).c1 = 0 := by
      rw [hy0, hy1, hz]
      rcases mul_eq_zero.mp hz with h0 | h0
      · rw [h0, flow_zero]; simp
      · unfold flow; simp [h0]
        constructor <;> ring
    rw [e0.1, e0.2]; simp; positivity
  · have hdt : dt ≠ 0 := left_ne_zero_of_mul hz
    have hw : u.c2 ≠ 0 := right_ne_zero_of_mul hz
    obtain ⟨hf0, hf1⟩ := flow_mid x u dt hw hdt
    have hd : dt * u.c2 / 2 ≠ 0 := by simpa using hz
    have hE := simpson_bound _ hd
    generalize hEdef : (2 + cos (dt * u.c2 / 2)) / 3 - sin (dt * u.c2 / 2) / (dt * u.c2 / 2) = E at hE
    have e : (y.c0 - (flow x u dt).c0) ^ 2 + (y.c1 - (flow x u dt).c1) ^ 2 =
        (u.c0 ^ 2 + u.c1 ^ 2) * (dt * E) ^ 2 := by
      rw [hy0, hy1, hf0, hf1, ← hEdef]
      have := sin_sq_add_cos_sq (x.c2 + dt * u.c2 / 2)
      linear_combination (dt ^ 2 * (u.c0 ^ 2 + u.c1 ^ 2) *
        ((2 + cos (dt * u.c2 / 2)) / 3 - sin (dt * u.c2 / 2) / (dt * u.c2 / 2)) ^ 2) * this
    rw [e, sqrt_mul (by positivity), sqrt_sq_eq_abs, abs_mul]
    have : |E| ≤ (u.c2 * dt) ^ 4 / 2880 := by
      refine hE.trans (le_of_eq ?_)
      ring
    calc sqrt (u.c0 ^ 2 + u.c1 ^ 2) * (|dt| * |E|)
        ≤ sqrt (u.c0 ^ 2 + u.c1 ^ 2) * (|dt| * ((u.c2 * dt) ^ 4 / 2880)) := by gcongr
      _ = _ := by ring

/-- C50: a differential drive step is the omni-directional step without lateral velocity. -/
theorem C50_cart (dt : ℝ) (x u y : V3 ℝ) (h : RungeKutta.step dt cartModel.f x u = .ok y) :
    RungeKutta.step dt omniModel.f x ⟨u.c0, 0, u.c2⟩ = .ok y := by
  have hu : almostEqual u.c1 (lit 0 0) = true := by
    by_contra hc
    simp only [RungeKutta.step, cartModel, SimpleCart.f] at h
    rw [if_pos hc] at h
    simp at h
  have hf : ∀ z : V3 ℝ, cartModel.f z u = omniModel.f z ⟨u.c0, 0, u.c2⟩ := by
    intro z
    simp only [cartModel, omniModel, SimpleCart.f, Omni.f]
    rw [if_neg (not_not.mpr hu)]
    simp
  rw [← h]
  simp only [RungeKutta.step, hf]

example : ∃ y, RungeKutta.step (1 / 10) omniModel.f (⟨0, 0, 0⟩ : V3 ℝ) ⟨1, 2, 3⟩ = .ok y :=
  ⟨_, omni_step _ _ _⟩

/-! ## C51 forward simulation -/

variable {F : Type} [Flt F] {U : Type}

theorem col_eq_ok {α : Type} {m : List α} {i : Nat} {v : α} : col m i = .ok v ↔ m[i]? = some v := by
  unfold col; split <;> simp_all

theorem solveLoop_spec (dt : F) (f : V3 F → U → Res (V3 F)) (ut : List U) :
    ∀ (n i : Nat) (x : V3 F) (xs : List (V3 F)), RungeKutta.solveLoop dt f ut n i x = .ok xs →
    xs.length = n ∧ ∀ j, j < n → ∃ xp u y, (x :: xs)[j]? = some xp ∧ ut[i + j]? = some u ∧
      RungeKutta.step dt f xp u = .ok y ∧ xs[j]? = some ⟨y.c0, y.c1, normalizeAnglePI y.c2⟩ := by
  intro n
  induction n with
  | zero =>
    intro i x xs h
    simp only [RungeKutta.solveLoop, Res.ok.injEq] at h
    subst h
    exact ⟨rfl, fun j hj => absurd hj (by omega)⟩
  | succ n ih =>
    intro i x xs h
    simp only [RungeKutta.solveLoop, Res.bind_eq_ok, Res.ok.injEq] at h
    obtain ⟨u, hu, y, hy, rest, hr, rfl⟩ := h
    obtain ⟨hl, hs⟩ := ih _ _ _ hr
    refine ⟨by simp [hl], ?_⟩
    intro j hj
    cases j with
    | zero => exact ⟨x, u, y, rfl, by simpa using col_eq_ok.mp hu, hy, rfl⟩
    | succ j =>
      obtain ⟨xp, u', y', h1, h2, h3, h4⟩ := hs j (by omega)
      refine ⟨xp, u', y', by simpa using h1, ?_, h3, by simpa using h4⟩
      rw [show i + (j + 1) = i + 1 + j by omega]; exact h2

/-- C51: one state per step; each is the RK4 step of the previous one (the first: of `x0`) under the
control column of the same index, with its heading wrapped. -/
theorem C51_structure (dt horizon : F) (f : V3 F → U → Res (V3 F)) (x0 : V3 F) (ut : List U)
    (xs : List (V3 F)) (h : RungeKutta.solve dt f x0 ut horizon = .ok xs) :
    ∃ n, numSteps horizon dt = .ok n ∧ xs.length = n.toNat ∧
    ∀ i, i < n.toNat → ∃ xp u y, (x0 :: xs)[i]? = some xp ∧ ut[i]? = some u ∧
      RungeKutta.step dt f xp u = .ok y ∧ xs[i]? = some ⟨y.c0, y.c1, normalizeAnglePI y.c2⟩ := by
  simp only [RungeKutta.solve, Res.bind_eq_ok] at h
  obtain ⟨n, hn, hl⟩ := h
  obtain ⟨h1, h2⟩ := solveLoop_spec dt f ut _ _ _ _ hl
  exact ⟨n, hn, h1, fun i hi => by simpa using h2 i hi⟩

/-- C51: the number of states is `⌊|horizon/dt|⌋`. -/
theorem C51_count (dt horizon : ℝ) (f : V3 ℝ → U → Res (V3 ℝ)) (x0 : V3 ℝ) (ut : List U)
    (xs : List (V3 ℝ)) (h : RungeKutta.solve dt f x0 ut horizon = .ok xs) :
    xs.length = ⌊|horizon / dt|⌋₊ := by
  obtain ⟨n, hn, hl, -⟩ := C51_structure dt horizon f x0 ut xs h
  rw [numSteps, real_div, real_fabs] at hn
  have := castU32_real_eq_ok hn
  rw [realTrunc_of_nonneg (abs_nonneg _)] at this
  rw [hl, ← Int.floor_toNat, this]; simp

/-- C51: every heading is in `[-π, π)`. -/
theorem C51_headings (dt horizon : ℝ) (f : V3 ℝ → U → Res (V3 ℝ)) (x0 : V3 ℝ) (ut : List U)
    (xs : List (V3 ℝ)) (h : RungeKutta.solve dt f x0 ut horizon = .ok xs) :
    ∀ x ∈ xs, -π ≤ x.c2 ∧ x.c2 < π := by
  intro x hx
  obtain ⟨n, -, hl, hs⟩ := C51_structure dt horizon f x0 ut xs h
  obtain ⟨i, hi, rfl⟩ := List.getElem_of_mem hx
  obtain ⟨xp, u, y, -, -, -, h4⟩ := hs i (by omega)
  rw [List.getElem?_eq_getElem hi, Option.some.injEq] at h4
  rw [h4]
  exact C13_range y.c2

/-- C51: state `i` depends only on the start and on control columns `0..i`; horizons may differ. -/
theorem C51_causal (dt horizon horizon' : F) (f : V3 F → U → Res (V3 F)) (x0 : V3 F)
    (ut ut' : List U) (xs xs' : List (V3 F)) (h : RungeKutta.solve dt f x0 ut horizon = .ok xs)
    (h' : RungeKutta.solve dt f x0 ut' horizon' = .ok xs') (i : Nat) (hi : i < xs.length)
    (hi' : i < xs'.length) (hu : ∀ j, j ≤ i → ut[j]? = ut'[j]?) : xs[i]? = xs'[i]? := by
  obtain ⟨n, -, hl, hs⟩ := C51_structure dt horizon f x0 ut xs h
  obtain ⟨n', -, hl', hs'⟩ := C51_structure dt horizon' f x0 ut' xs' h'
  induction i with
  | zero =>
    obtain ⟨xp, u, y, h1, h2, h3, h4⟩ := hs 0 (by omega)
    obtain ⟨xp', u', y', h1', h2', h3', h4'⟩ := hs' 0 (by omega)
    have e1 : xp = xp' := by simp at h1 h1'; rw [← h1, ← h1']
    have e2 : u = u' := by
      have := hu 0 le_rfl
      rw [h2, h2'] at this; simpa using this
    subst e1 e2
    rw [h3, Res.ok.injEq] at h3'
    rw [h4, h4', h3']
  | succ i ih =>
    have hp := ih (by omega) (by omega) (fun j hj => hu j (by omega))
    obtain ⟨xp, u, y, h1, h2, h3, h4⟩ := hs (i + 1) (by omega)
    obtain ⟨xp', u', y', h1', h2', h3', h4'⟩ := hs' (i + 1) (by omega)
    have e1 : xp = xp' := by
      rw [List.getElem?_cons_succ] at h1 h1'
      rw [hp, h1'] at h1; simpa using h1.symm
    have e2 : u = u' := by
      have := hu (i + 1) le_rfl
      rw [h2, h2'] at this; simpa using this
    subst e1 e2
    rw [h3, Res.ok.injEq] at h3'
    rw [h4, h4', h3']

theorem step_total (dt : F) (f : V3 F → U → Res (V3 F)) (u : U) (hf : ∀ x, ∃ d, f x u = .ok d)
    (x : V3 F) : ∃ y, RungeKutta.step dt f x u = .ok y := by
  obtain ⟨k1, h1⟩ := hf x
  obtain ⟨k2, h2⟩ := hf (x.add (V3.smul dt (V3.smul (lit 5 1) k1)))
  obtain ⟨k3, h3⟩ := hf (x.add (V3.smul dt (V3.smul (lit 5 1) k2)))
  obtain ⟨k4, h4⟩ := hf (x.add (V3.smul dt k3))
  simp [RungeKutta.step, h1, h2, h3, h4]

/-- C51: with a model that throws on none of the control columns, the simulation succeeds when there are at least as many
control columns as steps, and throws otherwise. -/
theorem C51_total (dt horizon : F) (f : V3 F → U → Res (V3 F)) (x0 : V3 F) (ut : List U)
    (hf : ∀ x, ∀ u ∈ ut, ∃ d, f x u = .ok d) (n : UInt32) (hn : numSteps horizon dt = .ok n) :
    ((∃ xs, RungeKutta.solve dt f x0 ut horizon = .ok xs) ↔ n.toNat ≤ ut.length) ∧
    (ut.length < n.toNat → RungeKutta.solve dt f x0 ut horizon = .throw .logicError) := by
  have key : ∀ (m i : Nat) (x : V3 F),
      (i + m ≤ ut.length → ∃ xs, RungeKutta.solveLoop dt f ut m i x = .ok xs) ∧
      (ut.length < i + m → i ≤ ut.length →
        RungeKutta.solveLoop dt f ut m i x = .throw .logicError) := by
    intro m
    induction m with
    | zero => intro i x; exact ⟨fun _ => ⟨[], rfl⟩, fun h h' => by omega⟩
    | succ m ih =>
      intro i x
      constructor
      · intro hle
        have hc : col ut i = .ok (ut[i]'(by omega)) := by
          rw [col_eq_ok, List.getElem?_eq_getElem]
        obtain ⟨y, hy⟩ := step_total dt f (ut[i]'(by omega)) (fun y => hf y _ (List.getElem_mem _)) x
        obtain ⟨xs, hxs⟩ := (ih (i + 1) { y with c2 := normalizeAnglePI y.c2 }).1 (by omega)
        exact ⟨{ y with c2 := normalizeAnglePI y.c2 } :: xs, by
          simp [RungeKutta.solveLoop, hc, hy, hxs]⟩
      · intro hlt hi
        by_cases he : i = ut.length
        · have hc : col ut i = .throw .logicError := by
            unfold col; rw [List.getElem?_eq_none (by omega)]
          simp [RungeKutta.solveLoop, hc]
        · have hc : col ut i = .ok (ut[i]'(by omega)) := by
            rw [col_eq_ok, List.getElem?_eq_getElem]
          obtain ⟨y, hy⟩ := step_total dt f (ut[i]'(by omega)) (fun y => hf y _ (List.getElem_mem _)) x
          have hxs := (ih (i + 1) { y with c2 := normalizeAnglePI y.c2 }).2 (by omega) (by omega)
          simp [RungeKutta.solveLoop, hc, hy, hxs]
  have hs : RungeKutta.solve dt f x0 ut horizon = RungeKutta.solveLoop dt f ut n.toNat 0 x0 := by
    simp [RungeKutta.solve, hn]
  rw [hs]
  refine ⟨⟨?_, fun h => (key n.toNat 0 x0).1 (by omega)⟩, fun h => (key n.toNat 0 x0).2 (by omega)
    (by omega)⟩
  rintro ⟨xs, hxs⟩
  by_contra hc
  rw [(key n.toNat 0 x0).2 (by omega) (by omega)] at hxs
  simp at hxs

/-- C50/C51: along a whole simulation with a constant twist the heading stays exact and the position
errors of the single steps at most add up: after `i + 1` steps the position is within
`(i + 1) |v| |dt| (w dt)⁴ / 2880` of the exact motion. -/
theorem C51_global_error (dt horizon : ℝ) (x0 u : V3 ℝ) (ut xs : List (V3 ℝ))
    (h : RungeKutta.solve dt omniModel.f x0 ut horizon = .ok xs) (hc : ∀ v ∈ ut, v = u)
    (i : Nat) (x : V3 ℝ) (hx : xs[i]? = some x) :
    SameHeading x.c2 (flow x0 u ((i + 1) * dt)).c2 ∧
    sqrt ((x.c0 - (flow x0 u ((i + 1) * dt)).c0) ^ 2 + (x.c1 - (flow x0 u ((i + 1) * dt)).c1) ^ 2) ≤
      (i + 1) * (sqrt (u.c0 ^ 2 + u.c1 ^ 2) * |dt| * (u.c2 * dt) ^ 4 / 2880) := by
  obtain ⟨n, -, hl, hs⟩ := C51_structure dt horizon _ x0 ut xs h
  have tri : ∀ a b c d : ℝ, sqrt ((a + c) ^ 2 + (b + d) ^ 2) ≤ sqrt (a ^ 2 + b ^ 2) + sqrt (c ^ 2 + d ^ 2) := by
    intro a b c d
    rw [sqrt_le_left (by positivity)]
    have h1 := sq_sqrt (by positivity : 0 ≤ a ^ 2 + b ^ 2)
    have h2 := sq_sqrt (by positivity : 0 ≤ c ^ 2 + d ^ 2)
    have h3 : a * c + b * d ≤ sqrt (a ^ 2 + b ^ 2) * sqrt (c ^ 2 + d ^ 2) := by
      rw [← sqrt_mul (by positivity)]
      apply le_sqrt_of_sq_le
      nlinarith [sq_nonneg (a * d - b * c)]
    nlinarith
  induction i generalizing x with
  | zero =>
    have hi : 0 < xs.length := by
      rw [List.getElem?_eq_some_iff] at hx; exact hx.1
    obtain ⟨xp, u', y, h1, h2, h3, h4⟩ := hs 0 (by omega)
    rw [List.getElem?_cons_zero, Option.some.injEq] at h1
    subst h1
    have hu := hc u' (List.mem_of_getElem? h2)
    subst hu
    rw [hx, Option.some.injEq] at h4
    subst h4
    have e : ((0 : ℕ) : ℝ) + 1 = 1 := by norm_num
    rw [e, one_mul, one_mul]
    refine ⟨?_, C50_error dt x0 u' y h3⟩
    have := C13_same_direction y.c2
    simp only
    rw [← C50_heading dt x0 u' y h3]; exact this
  | succ i ih =>
    have hi : i + 1 < xs.length := by
      rw [List.getElem?_eq_some_iff] at hx; exact hx.1
    obtain ⟨xp, u', y, h1, h2, h3, h4⟩ := hs (i + 1) (by omega)
    rw [List.getElem?_cons_succ] at h1
    have hu := hc u' (List.mem_of_getElem? h2)
    subst hu
    rw [hx, Option.some.injEq] at h4
    subst h4
    obtain ⟨ihh, ihp⟩ := ih xp h1
    -- the exact motion from the simulated pose, compared with the exact motion from the exact pose
    have hadd : flow x0 u' ((((i + 1 : ℕ) : ℝ) + 1) * dt) =
        flow (flow x0 u' (((i : ℝ) + 1) * dt)) u' dt := by
      rw [← flow_add]; congr 1; push_cast; ring
    rw [hadd]
    generalize flow x0 u' (((i : ℝ) + 1) * dt) = z at ihh ihp
    obtain ⟨k, hk⟩ := ihh
    have hcos : ∀ t, cos (xp.c2 + t) = cos (z.c2 + t) := by
      intro t; rw [hk, show z.c2 + k * (2 * π) + t = z.c2 + t + k * (2 * π) by ring, cos_add_int_mul_two_pi]
    have hsin : ∀ t, sin (xp.c2 + t) = sin (z.c2 + t) := by
      intro t; rw [hk, show z.c2 + k * (2 * π) + t = z.c2 + t + k * (2 * π) by ring, sin_add_int_mul_two_pi]
    have hcos0 := hcos 0
    have hsin0 := hsin 0
    rw [add_zero, add_zero] at hcos0 hsin0
    have hd0 : (flow xp u' dt).c0 - xp.c0 = (flow z u' dt).c0 - z.c0 := by
      unfold flow; split
      · simp only [hcos0, hsin0]; ring
      · simp only [hcos, hsin, hcos0, hsin0]; ring
    have hd1 : (flow xp u' dt).c1 - xp.c1 = (flow z u' dt).c1 - z.c1 := by
      unfold flow; split
      · simp only [hcos0, hsin0]; ring
      · simp only [hcos, hsin, hcos0, hsin0]; ring
    refine ⟨?_, ?_⟩
    · obtain ⟨k', hk'⟩ := C13_same_direction y.c2
      refine ⟨k' + k, ?_⟩
      simp only
      rw [hk', C50_heading dt xp u' y h3, flow_heading, flow_heading, hk]
      push_cast; ring
    · have he := C50_error dt xp u' y h3
      have t1 := tri (y.c0 - (flow xp u' dt).c0) (y.c1 - (flow xp u' dt).c1) (xp.c0 - z.c0)
        (xp.c1 - z.c1)
      have e0 : y.c0 - (flow xp u' dt).c0 + (xp.c0 - z.c0) = y.c0 - (flow z u' dt).c0 := by linarith
      have e1 : y.c1 - (flow xp u' dt).c1 + (xp.c1 - z.c1) = y.c1 - (flow z u' dt).c1 := by linarith
      rw [e0, e1] at t1
      simp only
      push_cast
      linarith

example : ∃ xs, RungeKutta.solve (1 / 10 : ℝ) omniModel.f ⟨0, 0, 0⟩ [⟨1, 2, 3⟩, ⟨1, 2, 3⟩] (1 / 5) = .ok xs := by
  have hn : numSteps (1 / 5 : ℝ) (1 / 10) = .ok 2 := by
    rw [numSteps, real_div, real_fabs]
    exact castU32_real_of (n := 2) (by norm_num) (by norm_num) (by norm_num)
  exact (C51_total _ _ _ _ _ (fun _ _ _ => ⟨_, rfl⟩) 2 hn).1.mpr (by simp)

/-! ## C52 the backward pass -/

theorem solveBackLoop_spec (dt : F) (func : CoStateFunc F) (fdx : V3 F → U → M3 F)
    (xt : List (V3 F)) (ut : List U) (edx bdx : List (V3 F)) :
    ∀ (n : Nat) (rho : V3 F) (acc rs : List (V3 F)), acc.head?.getD rho = rho →
    RungeKutta.solveBackLoop dt func fdx xt ut edx bdx n rho acc = .ok rs →
    rs.length = n + acc.length ∧ rs.drop n = acc ∧ ∀ j, j < n → ∃ e b x u, edx[j]? = some e ∧ bdx[j]? = some b ∧
      xt[j]? = some x ∧ ut[j]? = some u ∧
      rs[j]? = some (RungeKutta.stepBack dt func (rs[j + 1]?.getD rho) e b (fdx x u)) := by
  intro n
  induction n with
  | zero =>
    intro rho acc rs hh h
    simp only [RungeKutta.solveBackLoop, Res.ok.injEq] at h
    subst h
    exact ⟨by simp, by simp, fun j hj => absurd hj (by omega)⟩
  | succ n ih =>
    intro rho acc rs hh h
    simp only [RungeKutta.solveBackLoop, Res.bind_eq_ok] at h
    obtain ⟨e, he, b, hb, x, hx, u, hu, hrest⟩ := h
    obtain ⟨hl, hd, hs⟩ := ih _ _ _ (by simp) hrest
    have hn : rs[n]? = some (RungeKutta.stepBack dt func rho e b (fdx x u)) := by
      have := congrArg List.head? hd
      rw [List.head?_drop] at this
      simpa using this
    have hdn : rs.drop (n + 1) = acc := by
      have := congrArg List.tail hd
      rw [List.tail_drop] at this
      simpa using this
    have hn1 : rs[n + 1]?.getD rho = rho := by
      have := congrArg List.head? hdn
      rw [List.head?_drop] at this
      rw [this]; exact hh
    refine ⟨by simp at hl ⊢; omega, hdn, ?_⟩
    intro j hj
    by_cases hjn : j = n
    · subst hjn
      exact ⟨e, b, x, u, col_eq_ok.mp he, col_eq_ok.mp hb, col_eq_ok.mp hx, col_eq_ok.mp hu,
        by rw [hn1]; exact hn⟩
    · obtain ⟨e', b', x', u', h1, h2, h3, h4, h5⟩ := hs j (by omega)
      refine ⟨e', b', x', u', h1, h2, h3, h4, ?_⟩
      rw [h5]
      have : j + 1 < rs.length := by simp at hl; omega
      rw [List.getElem?_eq_getElem this]; rfl

/-- C52: one co-state per step; co-state `i` is the backward RK4 step of co-state `i+1`, the last one
of the terminal value, with the gradients and the Jacobian of column `i`. -/
theorem C52_structure (dt horizon : F) (func : CoStateFunc F) (fdx : V3 F → U → M3 F) (rhoT : V3 F)
    (xt : List (V3 F)) (ut : List U) (edx bdx rs : List (V3 F))
    (h : RungeKutta.solveBack dt func fdx rhoT xt ut edx bdx horizon = .ok rs) :
    ∃ n, numSteps horizon dt = .ok n ∧ rs.length = n.toNat ∧ ∀ i, i < n.toNat →
      ∃ e b x u, edx[i]? = some e ∧ bdx[i]? = some b ∧ xt[i]? = some x ∧ ut[i]? = some u ∧
        rs[i]? = some (RungeKutta.stepBack dt func (rs[i + 1]?.getD rhoT) e b (fdx x u)) := by
  simp only [RungeKutta.solveBack, Res.bind_eq_ok] at h
  obtain ⟨n, hn, hl⟩ := h
  obtain ⟨h1, -, h2⟩ := solveBackLoop_spec dt func fdx xt ut edx bdx _ _ _ _ (by simp) hl
  exact ⟨n, hn, by simpa using h1, h2⟩

/-- C52: co-state `i` depends only on the columns from `i` on. -/
theorem C52_anticausal (dt horizon : F) (func : CoStateFunc F) (fdx : V3 F → U → M3 F) (rhoT : V3 F)
    (xt xt' : List (V3 F)) (ut ut' : List U) (edx bdx edx' bdx' rs rs' : List (V3 F))
    (h : RungeKutta.solveBack dt func fdx rhoT xt ut edx bdx horizon = .ok rs)
    (h' : RungeKutta.solveBack dt func fdx rhoT xt' ut' edx' bdx' horizon = .ok rs') (i : Nat)
    (hx : ∀ j, i ≤ j → xt[j]? = xt'[j]?) (hu : ∀ j, i ≤ j → ut[j]? = ut'[j]?)
    (he : ∀ j, i ≤ j → edx[j]? = edx'[j]?) (hb : ∀ j, i ≤ j → bdx[j]? = bdx'[j]?) :
    rs[i]? = rs'[i]? := by
  obtain ⟨n, hn, hl, hs⟩ := C52_structure dt horizon func fdx rhoT xt ut edx bdx rs h
  obtain ⟨n', hn', hl', hs'⟩ := C52_structure dt horizon func fdx rhoT xt' ut' edx' bdx' rs' h'
  rw [hn, Res.ok.injEq] at hn'
  subst hn'
  have key : ∀ k j, i ≤ j → n.toNat ≤ j + k → rs[j]? = rs'[j]? := by
    intro k
    induction k with
    | zero => intro j _ hj; rw [List.getElem?_eq_none (by omega), List.getElem?_eq_none (by omega)]
    | succ k ih =>
      intro j hij hj
      by_cases hjn : n.toNat ≤ j
      · rw [List.getElem?_eq_none (by omega), List.getElem?_eq_none (by omega)]
      · obtain ⟨e, b, x, u, h1, h2, h3, h4, h5⟩ := hs j (by omega)
        obtain ⟨e', b', x', u', h1', h2', h3', h4', h5'⟩ := hs' j (by omega)
        rw [he j hij, h1', Option.some.injEq] at h1
        rw [hb j hij, h2', Option.some.injEq] at h2
        rw [hx j hij, h3', Option.some.injEq] at h3
        rw [hu j hij, h4', Option.some.injEq] at h4
        subst h1 h2 h3 h4
        rw [h5, h5', ih (j + 1) (by omega) (by omega)]
  exact key n.toNat i le_rfl (by omega)

theorem mulVec_neg (A : M3 ℝ) (v : V3 ℝ) : A.mulVec v.neg = (A.mulVec v).neg := by
  ext <;> simp only [M3.mulVec, V3.dot, V3.neg, real_add, real_neg, real_mul] <;> ring

/-- C52: the backward step is the degree-4 Taylor polynomial of the co-state equation
`ρ̇ = -g - b - Aᵀρ` run backward in time. -/
theorem C52_taylor (dt : ℝ) (rho g b : V3 ℝ) (A : M3 ℝ) :
    RungeKutta.stepBack dt rhodot rho g b A =
      (let d := (g.neg.sub b).sub (A.t.mulVec rho)
       let d2 := (A.t.mulVec d).neg
       let d3 := (A.t.mulVec d2).neg
       let d4 := (A.t.mulVec d3).neg
       ((((rho.sub (V3.smul dt d)).add (V3.smul (dt ^ 2 / 2) d2)).sub (V3.smul (dt ^ 3 / 6) d3)).add
        (V3.smul (dt ^ 4 / 24) d4))) := by
  simp only [RungeKutta.stepBack, rhodot, mulVec_sub, mulVec_smul, mulVec_neg]
  ext <;> simp only [V3.add, V3.sub, V3.neg, V3.smul, real_add, real_sub, real_neg, real_mul, real_div,
    real_lit] <;> push_cast <;> ring

/-- linear combination of 3-vectors -/
def V3.lin (a : ℝ) (v : V3 ℝ) (c : ℝ) (w : V3 ℝ) : V3 ℝ :=
  ⟨a * v.c0 + c * w.c0, a * v.c1 + c * w.c1, a * v.c2 + c * w.c2⟩

theorem stepBack_lin (dt a c : ℝ) (rho rho' g g' b b' : V3 ℝ) (A : M3 ℝ) :
    RungeKutta.stepBack dt rhodot (V3.lin a rho c rho') (V3.lin a g c g') (V3.lin a b c b') A =
      V3.lin a (RungeKutta.stepBack dt rhodot rho g b A) c
        (RungeKutta.stepBack dt rhodot rho' g' b' A) := by
  have hl : ∀ v w : V3 ℝ, A.t.mulVec (V3.lin a v c w) = V3.lin a (A.t.mulVec v) c (A.t.mulVec w) := by
    intro v w
    ext <;> simp only [M3.mulVec, V3.dot, V3.lin, real_add, real_mul] <;> ring
  rw [C52_taylor, C52_taylor, C52_taylor]
  simp only [mulVec_sub, mulVec_neg, hl]
  ext <;> simp only [V3.add, V3.sub, V3.neg, V3.smul, V3.lin, real_add, real_sub, real_neg,
    real_mul] <;> ring

/-- C52: the co-states are linear in the gradients and the terminal value. -/
theorem C52_linear (dt horizon a c : ℝ) (fdx : V3 ℝ → U → M3 ℝ) (xt : List (V3 ℝ)) (ut : List U)
    (rhoT rhoT' : V3 ℝ) (edx bdx edx' bdx' rs rs' : List (V3 ℝ))
    (h : RungeKutta.solveBack dt rhodot fdx rhoT xt ut edx bdx horizon = .ok rs)
    (h' : RungeKutta.solveBack dt rhodot fdx rhoT' xt ut edx' bdx' horizon = .ok rs') :
    RungeKutta.solveBack dt rhodot fdx (V3.lin a rhoT c rhoT') xt ut
      (List.zipWith (fun v w => V3.lin a v c w) edx edx')
      (List.zipWith (fun v w => V3.lin a v c w) bdx bdx') horizon =
      .ok (List.zipWith (fun v w => V3.lin a v c w) rs rs') := by
  have key : ∀ (n : Nat) (rho rho' : V3 ℝ) (acc acc' rs rs' : List (V3 ℝ)),
      acc.length = acc'.length →
      RungeKutta.solveBackLoop dt rhodot fdx xt ut edx bdx n rho acc = .ok rs →
      RungeKutta.solveBackLoop dt rhodot fdx xt ut edx' bdx' n rho' acc' = .ok rs' →
      RungeKutta.solveBackLoop dt rhodot fdx xt ut
        (List.zipWith (fun v w => V3.lin a v c w) edx edx')
        (List.zipWith (fun v w => V3.lin a v c w) bdx bdx') n (V3.lin a rho c rho')
        (List.zipWith (fun v w => V3.lin a v c w) acc acc') =
      .ok (List.zipWith (fun v w => V3.lin a v c w) rs rs') := by
    intro n
    induction n with
    | zero =>
      intro rho rho' acc acc' rs rs' _ h h'
      simp only [RungeKutta.solveBackLoop, Res.ok.injEq] at h h' ⊢
      rw [h, h']
    | succ n ih =>
      intro rho rho' acc acc' rs rs' hlen h h'
      simp only [RungeKutta.solveBackLoop, Res.bind_eq_ok] at h h'
      obtain ⟨e, he, b, hb, x, hx, u, hu, hrest⟩ := h
      obtain ⟨e', he', b', hb', x', hx', u', hu', hrest'⟩ := h'
      rw [hx, Res.ok.injEq] at hx'
      rw [hu, Res.ok.injEq] at hu'
      subst hx' hu'
      have hE : col (List.zipWith (fun v w => V3.lin a v c w) edx edx') n = .ok (V3.lin a e c e') := by
        rw [col_eq_ok, List.getElem?_zipWith, col_eq_ok.mp he, col_eq_ok.mp he']
      have hB : col (List.zipWith (fun v w => V3.lin a v c w) bdx bdx') n = .ok (V3.lin a b c b') := by
        rw [col_eq_ok, List.getElem?_zipWith, col_eq_ok.mp hb, col_eq_ok.mp hb']
      simp only [RungeKutta.solveBackLoop, hE, hB, hx, hu, Res.ok_bind, stepBack_lin]
      have := ih _ _ _ _ _ _ (by simp [hlen]) hrest hrest'
      simpa using this
  simp only [RungeKutta.solveBack, Res.bind_eq_ok] at h h' ⊢
  obtain ⟨n, hn, hr⟩ := h
  obtain ⟨n', hn', hr'⟩ := h'
  rw [hn, Res.ok.injEq] at hn'
  subst hn'
  refine ⟨n, hn, ?_⟩
  have := key _ _ _ [] [] _ _ rfl hr hr'
  simpa using this

/-- C52: without gradients and with a zero terminal value all co-states are zero. -/
theorem C52_zero (dt horizon : ℝ) (fdx : V3 ℝ → U → M3 ℝ) (xt : List (V3 ℝ)) (ut : List U)
    (edx bdx rs : List (V3 ℝ)) (he : ∀ v ∈ edx, v = ⟨0, 0, 0⟩) (hb : ∀ v ∈ bdx, v = ⟨0, 0, 0⟩)
    (h : RungeKutta.solveBack dt rhodot fdx ⟨0, 0, 0⟩ xt ut edx bdx horizon = .ok rs) :
    ∀ r ∈ rs, r = ⟨0, 0, 0⟩ := by
  have hz : ∀ A : M3 ℝ, RungeKutta.stepBack dt rhodot ⟨0, 0, 0⟩ ⟨0, 0, 0⟩ ⟨0, 0, 0⟩ A = ⟨0, 0, 0⟩ := by
    intro A
    have := stepBack_lin dt 0 0 ⟨0, 0, 0⟩ ⟨0, 0, 0⟩ ⟨0, 0, 0⟩ ⟨0, 0, 0⟩ ⟨0, 0, 0⟩ ⟨0, 0, 0⟩ A
    simpa [V3.lin] using this
  obtain ⟨n, hn, hl, hs⟩ := C52_structure dt horizon _ fdx _ xt ut edx bdx rs h
  have key : ∀ k j, n.toNat ≤ j + k → rs[j]?.getD ⟨0, 0, 0⟩ = ⟨0, 0, 0⟩ := by
    intro k
    induction k with
    | zero => intro j hj; rw [List.getElem?_eq_none (by omega)]; rfl
    | succ k ih =>
      intro j hj
      by_cases hjn : n.toNat ≤ j
      · rw [List.getElem?_eq_none (by omega)]; rfl
      · obtain ⟨e, b, x, u, h1, h2, -, -, h5⟩ := hs j (by omega)
        rw [h5, ih (j + 1) (by omega), he e (List.mem_of_getElem? h1), hb b (List.mem_of_getElem? h2), hz]
        rfl
  intro r hr
  obtain ⟨j, hj, rfl⟩ := List.getElem_of_mem hr
  have := key n.toNat j (by omega)
  rw [List.getElem?_eq_getElem hj] at this
  simpa using this

/-- The backward pass succeeds when every list has at least as many columns as there are steps. -/
theorem C52_total (dt horizon : F) (func : CoStateFunc F) (fdx : V3 F → U → M3 F) (rhoT : V3 F)
    (xt : List (V3 F)) (ut : List U) (edx bdx : List (V3 F)) (n : UInt32)
    (hn : numSteps horizon dt = .ok n) (hx : n.toNat ≤ xt.length) (hu : n.toNat ≤ ut.length)
    (he : n.toNat ≤ edx.length) (hb : n.toNat ≤ bdx.length) :
    ∃ rs, RungeKutta.solveBack dt func fdx rhoT xt ut edx bdx horizon = .ok rs := by
  have hc : ∀ {α : Type} (l : List α) (i : Nat) (h : i < l.length), col l i = .ok l[i] := by
    intro α l i h; rw [col_eq_ok, List.getElem?_eq_getElem]
  have key : ∀ (m : Nat) (rho : V3 F) (acc : List (V3 F)), m ≤ n.toNat →
      ∃ rs, RungeKutta.solveBackLoop dt func fdx xt ut edx bdx m rho acc = .ok rs := by
    intro m
    induction m with
    | zero => intro rho acc _; exact ⟨acc, rfl⟩
    | succ m ih =>
      intro rho acc hm
      simp only [RungeKutta.solveBackLoop, hc edx m (by omega), hc bdx m (by omega),
        hc xt m (by omega), hc ut m (by omega), Res.ok_bind]
      exact ih _ _ (by omega)
  obtain ⟨rs, hrs⟩ := key n.toNat rhoT [] le_rfl
  exact ⟨rs, by simp [RungeKutta.solveBack, hn, hrs]⟩

example : numSteps (1 / 5 : ℝ) (1 / 10) = .ok 2 := by
  rw [numSteps, real_div, real_fabs]
  exact castU32_real_of (n := 2) (by norm_num) (by norm_num) (by norm_num)

end Ergodic
