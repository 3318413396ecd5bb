import Verif.Model.Association
import Verif.Spec.Association
import Verif.Props.RoundedGradient
import Verif.Props.ErgodicUpdate
import Verif.Props.NodeControl
import Verif.Props.Shipped
import Verif.Props.RoundedMotion

/-!
# Property C127: the control update with rounding, whatever the association
-/

namespace Ergodic
open Matrix
variable {M : Machine}

/-! ## products -/

/-- A dot product of approximate with exact numbers. -/
theorem dot_any {f E φ e : Fin 3 → ℝ} (hf : ∀ i, |f i - E i| ≤ e i) {d : RDbl M}
    (hd : IsDot ⟨.fin (f 0), .fin (f 1), .fin (f 2)⟩ ⟨.fin (φ 0), .fin (φ 1), .fin (φ 2)⟩ d) :
    ∃ v, d = .fin v ∧ |v - ∑ i, E i * φ i| ≤
      ∑ i, |φ i| * (e i + |f i| * (4 / 2 ^ 51)) + 12 * tiny := by
  obtain ⟨v, rfl, h⟩ := C123_products (M := M) (l := [0, 1, 2]) (f := f) (E := E) (φ := φ) (e := e)
    (B := fun i => |f i|) (by norm_num) (fun a _ => hf a) (fun a _ => le_rfl) (s := d) hd
  refine ⟨v, rfl, ?_⟩
  simp only [List.map_cons, List.map_nil, List.sum_cons, List.sum_nil, List.length_cons,
    List.length_nil] at h
  simp only [Fin.sum_univ_three]
  norm_num at h ⊢
  refine le_trans (le_of_eq ?_) (h.trans (le_of_eq ?_))
  · congr 1; ring
  · ring

theorem dot_comm_fin (a b : Fin 3 → ℝ) (d : RDbl M) :
    IsDot ⟨.fin (a 0), .fin (a 1), .fin (a 2)⟩ ⟨.fin (b 0), .fin (b 1), .fin (b 2)⟩ d ↔
    IsDot ⟨.fin (b 0), .fin (b 1), .fin (b 2)⟩ ⟨.fin (a 0), .fin (a 1), .fin (a 2)⟩ d := by
  simp only [IsDot, RDbl.mul_fin, mul_comm]

/-- Two dot products in a row: first `n` numbers `∑ k, X j k * y k`, then their sum with the weights
`z j`. -/
theorem dot_dot {X : Fin 3 → Fin 3 → ℝ} {y z : Fin 3 → ℝ} {p : Fin 3 → RDbl M} {d : RDbl M}
    (hp : ∀ j, IsDot ⟨.fin (X j 0), .fin (X j 1), .fin (X j 2)⟩ ⟨.fin (y 0), .fin (y 1), .fin (y 2)⟩ (p j))
    (hd : IsDot ⟨p 0, p 1, p 2⟩ ⟨.fin (z 0), .fin (z 1), .fin (z 2)⟩ d ∨
      IsDot ⟨.fin (z 0), .fin (z 1), .fin (z 2)⟩ ⟨p 0, p 1, p 2⟩ d) :
    ∃ v, d = .fin v ∧ |v - ∑ j, (∑ k, X j k * y k) * z j| ≤
      9 / 2 ^ 51 * ∑ j, ∑ k, |X j k| * |y k| * |z j| + 13 * tiny * (1 + ∑ j, |z j|) := by
  have ht := tiny_pos
  have h1 : ∀ j, ∃ v, p j = .fin v ∧ |v - ∑ k, X j k * y k| ≤
      4 / 2 ^ 51 * ∑ k, |X j k| * |y k| + 12 * tiny := by
    intro j
    obtain ⟨v, hv, h⟩ := dot_any (f := X j) (E := X j) (e := fun _ => 0) (fun i => by simp) (hp j)
    refine ⟨v, hv, h.trans (le_of_eq ?_)⟩
    simp only [Fin.sum_univ_three]
    ring
  choose f hf he using h1
  rw [hf 0, hf 1, hf 2] at hd
  rw [dot_comm_fin z f, or_self] at hd
  obtain ⟨v, hv, h⟩ := dot_any he hd
  refine ⟨v, hv, h.trans ?_⟩
  have hs : ∀ j, |∑ k, X j k * y k| ≤ ∑ k, |X j k| * |y k| := fun j =>
    (Finset.abs_sum_le_sum_abs _ _).trans (le_of_eq (Finset.sum_congr rfl fun k _ => abs_mul _ _))
  have hfs : ∀ j, |f j| ≤ (1 + 4 / 2 ^ 51) * ∑ k, |X j k| * |y k| + 12 * tiny := by
    intro j
    have : |f j| ≤ |f j - ∑ k, X j k * y k| + |∑ k, X j k * y k| := by
      simpa using abs_add_le (f j - ∑ k, X j k * y k) (∑ k, X j k * y k)
    linarith [he j, hs j]
  have hS : ∀ j, 0 ≤ ∑ k, |X j k| * |y k| := fun j =>
    Finset.sum_nonneg fun k _ => mul_nonneg (abs_nonneg _) (abs_nonneg _)
  have hterm : ∀ j, |z j| * ((4 / 2 ^ 51 * ∑ k, |X j k| * |y k| + 12 * tiny) + |f j| * (4 / 2 ^ 51)) ≤
      9 / 2 ^ 51 * ∑ k, |X j k| * |y k| * |z j| + 13 * tiny * |z j| := by
    intro j
    rw [← Finset.sum_mul]
    have : (4 / 2 ^ 51 * ∑ k, |X j k| * |y k| + 12 * tiny) + |f j| * (4 / 2 ^ 51) ≤
        9 / 2 ^ 51 * ∑ k, |X j k| * |y k| + 13 * tiny := by
      have := mul_le_mul_of_nonneg_right (hfs j) (show (0 : ℝ) ≤ 4 / 2 ^ 51 by norm_num)
      have h0 := hS j
      nlinarith
    have := mul_le_mul_of_nonneg_left this (abs_nonneg (z j))
    linarith
  have := Finset.sum_le_sum fun j (_ : j ∈ Finset.univ) => hterm j
  rw [Finset.sum_add_distrib, ← Finset.mul_sum, ← Finset.mul_sum] at this
  linarith

/-- One row of the product of three, in either association. -/
theorem row_any {r rho : V3 ℝ} {B : M3 ℝ} {d : RDbl M}
    (h : (∃ p, IsRow (finV r) (finM B).t p ∧ IsDot p (finV rho) d) ∨
      ∃ v, IsMulVec (finM B).t (finV rho) v ∧ IsDot (finV r) v d) :
    ∃ w, d = .fin w ∧ |w - ∑ j, ∑ k, toVec r j * toMat B k j * toVec rho k| ≤
      9 / 2 ^ 51 * ∑ j, ∑ k, |toVec r j| * |toMat B k j| * |toVec rho k| +
        13 * tiny * (1 + ∑ j, |toVec r j| + ∑ k, |toVec rho k|) := by
  have ht := tiny_pos
  have n1 : 0 ≤ ∑ j, |toVec r j| := Finset.sum_nonneg fun _ _ => abs_nonneg _
  have n2 : 0 ≤ ∑ k, |toVec rho k| := Finset.sum_nonneg fun _ _ => abs_nonneg _
  rcases h with ⟨p, ⟨h0, h1, h2⟩, hd⟩ | ⟨v, ⟨h0, h1, h2⟩, hd⟩
  · obtain ⟨w, hw, e⟩ := dot_dot (M := M) (X := fun k j => toMat B k j) (y := toVec r) (z := toVec rho)
      (p := ![p.c0, p.c1, p.c2]) (d := d)
      (by
        intro j
        rw [dot_comm_fin]
        fin_cases j
        exacts [h0, h1, h2]) (.inl hd)
    refine ⟨w, hw, le_trans (le_of_eq ?_) (e.trans ?_)⟩
    · congr 1
      simp only [Fin.sum_univ_three]
      ring
    · have : ∑ j, ∑ k, |toMat B j k| * |toVec r k| * |toVec rho j| =
          ∑ j, ∑ k, |toVec r j| * |toMat B k j| * |toVec rho k| := by
        simp only [Fin.sum_univ_three]
        ring
      rw [this]
      nlinarith
  · obtain ⟨w, hw, e⟩ := dot_dot (M := M) (X := fun j k => toMat B k j) (y := toVec rho) (z := toVec r)
      (p := ![v.c0, v.c1, v.c2]) (d := d)
      (by intro j; fin_cases j; exacts [h0, h1, h2]) (.inr hd)
    refine ⟨w, hw, le_trans (le_of_eq ?_) (e.trans ?_)⟩
    · congr 1
      simp only [Fin.sum_univ_three]
      ring
    · have : ∑ j, ∑ k, |toMat B k j| * |toVec rho k| * |toVec r j| =
          ∑ j, ∑ k, |toVec r j| * |toMat B k j| * |toVec rho k| := by
        simp only [Fin.sum_univ_three]
        ring
      rw [this]
      nlinarith

theorem direction_apply (R B : M3 ℝ) (rho : V3 ℝ) (i : Fin 3) :
    direction R B rho i = -∑ j, ∑ k, toMat R i j * toMat B k j * toVec rho k := by
  simp only [direction, Matrix.mulVec, dotProduct, Matrix.mul_apply, Matrix.neg_apply,
    Matrix.transpose_apply, Fin.sum_univ_three]
  ring

/-- C127: whatever the association, the place of the sign and the order of the additions, the
direction of the update is finite and off the exact one by at most `directionError`. -/
theorem C127_direction {R B : M3 ℝ} {rho : V3 ℝ} {d : V3 (RDbl M)}
    (h : IsDirection (finM R) (finM B) (finV rho) d) :
    ∃ v : V3 ℝ, d = finV v ∧ ∀ i, |toVec v i - direction R B rho i| ≤ directionError R B rho i := by
  -- a row with the sign inside
  have pos : ∀ (r : V3 ℝ) (i : Fin 3) (d : RDbl M), toMat R i = toVec r →
      ((∃ p, IsRow (finV r).neg (finM B).t p ∧ IsDot p (finV rho) d) ∨
        ∃ v, IsMulVec (finM B).t (finV rho) v ∧ IsDot (finV r).neg v d) →
      ∃ w, d = .fin w ∧ |w - direction R B rho i| ≤ directionError R B rho i := by
    intro r i d hr hh
    obtain ⟨w, hw, e⟩ := row_any (r := ⟨-r.c0, -r.c1, -r.c2⟩) hh
    have hn : ∀ j, toVec (⟨-r.c0, -r.c1, -r.c2⟩ : V3 ℝ) j = -toVec r j := by
      intro j; fin_cases j <;> rfl
    simp only [hn, abs_neg, neg_mul, Finset.sum_neg_distrib] at e
    refine ⟨w, hw, ?_⟩
    rw [direction_apply, directionError]
    simp only [hr]
    exact e
  -- a row with the sign outside
  have neg : ∀ (r : V3 ℝ) (i : Fin 3) (d : RDbl M), toMat R i = toVec r →
      ((∃ p, IsRow (finV r) (finM B).t p ∧ IsDot p (finV rho) d) ∨
        ∃ v, IsMulVec (finM B).t (finV rho) v ∧ IsDot (finV r) v d) →
      ∃ w, ~-. d = .fin w ∧ |w - direction R B rho i| ≤ directionError R B rho i := by
    intro r i d hr hh
    obtain ⟨w, rfl, e⟩ := row_any hh
    refine ⟨-w, rfl, ?_⟩
    rw [direction_apply, directionError]
    simp only [hr]
    rw [← abs_neg]
    refine le_trans (le_of_eq ?_) e
    congr 1
    ring
  have fin : ∀ d : V3 (RDbl M), (∃ w, d.c0 = .fin w ∧ |w - direction R B rho 0| ≤ directionError R B rho 0) →
      (∃ w, d.c1 = .fin w ∧ |w - direction R B rho 1| ≤ directionError R B rho 1) →
      (∃ w, d.c2 = .fin w ∧ |w - direction R B rho 2| ≤ directionError R B rho 2) →
      ∃ v : V3 ℝ, d = finV v ∧ ∀ i, |toVec v i - direction R B rho i| ≤ directionError R B rho i := by
    rintro ⟨d0, d1, d2⟩ ⟨w0, rfl, e0⟩ ⟨w1, rfl, e1⟩ ⟨w2, rfl, e2⟩
    exact ⟨⟨w0, w1, w2⟩, rfl, fun i => by fin_cases i; exacts [e0, e1, e2]⟩
  cases h with
  | left p h hd =>
    exact fin d (pos R.r0 0 _ rfl (.inl ⟨_, h.1, hd.1⟩)) (pos R.r1 1 _ rfl (.inl ⟨_, h.2.1, hd.2.1⟩))
      (pos R.r2 2 _ rfl (.inl ⟨_, h.2.2, hd.2.2⟩))
  | right v h hd =>
    exact fin d (pos R.r0 0 _ rfl (.inr ⟨_, h, hd.1⟩)) (pos R.r1 1 _ rfl (.inr ⟨_, h, hd.2.1⟩))
      (pos R.r2 2 _ rfl (.inr ⟨_, h, hd.2.2⟩))
  | leftNeg p w h hw hd =>
    subst hd
    exact fin _ (neg R.r0 0 _ rfl (.inl ⟨_, h.1, hw.1⟩)) (neg R.r1 1 _ rfl (.inl ⟨_, h.2.1, hw.2.1⟩))
      (neg R.r2 2 _ rfl (.inl ⟨_, h.2.2, hw.2.2⟩))
  | rightNeg v w h hw hd =>
    subst hd
    exact fin _ (neg R.r0 0 _ rfl (.inr ⟨_, h, hw.1⟩)) (neg R.r1 1 _ rfl (.inr ⟨_, h, hw.2.1⟩))
      (neg R.r2 2 _ rfl (.inr ⟨_, h, hw.2.2⟩))

/-! ## the model is one of the ways, and in exact arithmetic there is only one result -/

section any
variable {F : Type} [Flt F]

theorem isDot_dot (a b : V3 F) : IsDot a b (a.dot b) :=
  ⟨.add (.add (.term _) (.term _)) (.term _), List.Perm.refl _, rfl⟩

theorem isMulVec_mulVec (m : M3 F) (v : V3 F) : IsMulVec m v (m.mulVec v) :=
  ⟨isDot_dot _ _, isDot_dot _ _, isDot_dot _ _⟩

end any

theorem isSum_real (l : List ℝ) (s : ℝ) : IsSum l s ↔ s = l.sum := by
  constructor
  · rintro ⟨t, hp, rfl⟩
    rw [← hp.sum_eq]
    clear hp
    induction t with
    | zero => simp [SumTree.eval, SumTree.terms]
    | term x => simp [SumTree.eval, SumTree.terms]
    | add a b iha ihb => simp only [SumTree.eval, SumTree.terms, List.sum_append, real_add, iha, ihb]
  · rintro rfl
    have := C123_fsum l
    rwa [show fsum l = l.sum from by
      rw [fsum]
      simp only [real_lit, real_add]
      rw [List.sum_eq_foldl]
      norm_num] at this

theorem isDot_real (a b : V3 ℝ) (d : ℝ) : IsDot a b d ↔ d = a.dot b := by
  rw [IsDot, isSum_real]
  simp only [List.sum_cons, List.sum_nil, V3.dot, real_mul, real_add]
  constructor <;> rintro rfl <;> ring

/-- C127: in exact arithmetic every association gives the result of the model. -/
theorem C127_exact (e : ErgodicControl ℝ) (x rho u : V3 ℝ) :
    e.IsNewControl x rho u ↔ e.newControl x rho = .ok u := by
  have key : ∀ d, IsDirection e.Rinv (e.model.fdu x) rho d ↔
      d = (e.Rinv.neg.mul (e.model.fdu x).t).mulVec rho := by
    intro d
    constructor
    · intro h
      cases h with
      | left p h hd =>
        simp only [IsMul, IsRow, IsMulVec, isDot_real] at h hd
        obtain ⟨⟨a, b, c⟩, ⟨a', b', c'⟩, a'', b'', c''⟩ := h
        obtain ⟨h0, h1, h2⟩ := hd
        ext <;> simp only [h0, h1, h2, a, b, c, a', b', c', a'', b'', c'', M3.mulVec, M3.mul, V3.dot]
      | right v h hd =>
        simp only [IsMulVec, isDot_real] at h hd
        obtain ⟨a, b, c⟩ := h
        obtain ⟨h0, h1, h2⟩ := hd
        ext <;> simp only [h0, h1, h2, a, b, c, M3.mulVec, M3.mul, V3.dot, M3.t, M3.neg, V3.neg, real_add,
          real_mul, real_neg] <;> ring
      | leftNeg p w h hw hd =>
        simp only [IsMul, IsRow, IsMulVec, isDot_real] at h hw
        obtain ⟨⟨a, b, c⟩, ⟨a', b', c'⟩, a'', b'', c''⟩ := h
        obtain ⟨h0, h1, h2⟩ := hw
        subst hd
        ext <;> simp only [h0, h1, h2, a, b, c, a', b', c', a'', b'', c'', M3.mulVec, M3.mul, V3.dot, M3.t,
          M3.neg, V3.neg, real_add, real_mul, real_neg] <;> ring
      | rightNeg v w h hw hd =>
        simp only [IsMulVec, isDot_real] at h hw
        obtain ⟨a, b, c⟩ := h
        obtain ⟨h0, h1, h2⟩ := hw
        subst hd
        ext <;> simp only [h0, h1, h2, a, b, c, M3.mulVec, M3.mul, V3.dot, M3.t, M3.neg, V3.neg, real_add,
          real_mul, real_neg] <;> ring
    · rintro rfl
      exact .left _ ⟨⟨isDot_dot _ _, isDot_dot _ _, isDot_dot _ _⟩, ⟨isDot_dot _ _, isDot_dot _ _, isDot_dot _ _⟩,
        isDot_dot _ _, isDot_dot _ _, isDot_dot _ _⟩ (isMulVec_mulVec _ _)
  simp only [ErgodicControl.IsNewControl, key, exists_eq_left, ErgodicControl.newControl, Res.bind_eq_ok,
    Res.ok.injEq]
  constructor
  · rintro ⟨h0, h1, h2⟩
    exact ⟨_, h0, _, h1, _, h2, rfl⟩
  · rintro ⟨u0, h0, u1, h1, u2, h2, rfl⟩
    exact ⟨h0, h1, h2⟩

/-- C127: in any arithmetic the model's result is one of the results. -/
theorem C127_model {F : Type} [Flt F] (e : ErgodicControl F) (x rho u : V3 F)
    (h : e.newControl x rho = .ok u) : e.IsNewControl x rho u := by
  simp only [ErgodicControl.newControl, Res.bind_eq_ok, Res.ok.injEq] at h
  obtain ⟨u0, h0, u1, h1, u2, h2, rfl⟩ := h
  exact ⟨_, .left _ ⟨⟨isDot_dot _ _, isDot_dot _ _, isDot_dot _ _⟩,
    ⟨isDot_dot _ _, isDot_dot _ _, isDot_dot _ _⟩, isDot_dot _ _, isDot_dot _ _, isDot_dot _ _⟩
    (isMulVec_mulVec _ _), h0, h1, h2⟩

/-! ## the update against the minimiser of the Hamiltonian -/

/-- A clamped number. -/
noncomputable def clampTo (lo hi x : ℝ) : ℝ := max lo (min x hi)

theorem clampTo_near (lo hi x y : ℝ) : |clampTo lo hi x - clampTo lo hi y| ≤ |x - y| := by
  unfold clampTo
  refine (abs_max_sub_max_le_max _ _ _ _).trans ?_
  simp only [sub_self, abs_zero]
  refine max_le (abs_nonneg _) ((abs_min_sub_min_le_max _ _ _ _).trans ?_)
  simp

theorem clamp_rounded {d lo hi : ℝ} {u : RDbl M}
    (h : ErgodicControl.clampR (.fin d : RDbl M) (.fin lo) (.fin hi) = .ok u) :
    lo ≤ hi ∧ u = .fin (clampTo lo hi d) := by
  unfold ErgodicControl.clampR fclamp at h
  by_cases h0 : Flt.lt (.fin hi : RDbl M) (.fin lo) = true
  · rw [if_pos h0] at h; simp at h
  · rw [if_neg h0, Res.ok.injEq] at h
    rw [RDbl.lt_fin, not_lt] at h0
    refine ⟨h0, ?_⟩
    subst h
    unfold clampTo
    by_cases h1 : d < lo
    · rw [if_pos ((RDbl.lt_fin _ _).mpr h1), min_eq_left (by linarith), max_eq_left h1.le]
    · rw [if_neg (by rw [RDbl.lt_fin]; exact h1)]
      rw [not_lt] at h1
      by_cases h2 : hi < d
      · rw [if_pos ((RDbl.lt_fin _ _).mpr h2), min_eq_right h2.le, max_eq_right h0]
      · rw [if_neg (by rw [RDbl.lt_fin]; exact h2)]
        rw [not_lt] at h2
        rw [min_eq_left h2, max_eq_right h1]

theorem clamp_real (d lo hi : ℝ) (h : lo ≤ hi) :
    ErgodicControl.clampR d lo hi = .ok (clampTo lo hi d) := by
  unfold ErgodicControl.clampR fclamp clampTo
  rw [if_neg (by rw [real_lt]; linarith)]
  congr 1
  by_cases h1 : d < lo
  · rw [if_pos (by rw [real_lt]; exact h1), min_eq_left (by linarith), max_eq_left h1.le]
  · rw [if_neg (by rw [real_lt]; exact h1)]
    rw [not_lt] at h1
    by_cases h2 : hi < d
    · rw [if_pos (by rw [real_lt]; exact h2), min_eq_right h2.le, max_eq_right h]
    · rw [if_neg (by rw [real_lt]; exact h2)]
      rw [not_lt] at h2
      rw [min_eq_left h2, max_eq_right h1]

theorem clampTo_mem {lo hi : ℝ} (h : lo ≤ hi) (x : ℝ) : lo ≤ clampTo lo hi x ∧ clampTo lo hi x ≤ hi :=
  ⟨le_max_left _ _, max_le h (min_le_right _ _)⟩

/-- One entry of the direction with a diagonal weight, against the exact weight and matrix. -/
theorem diagonal_error {R B B' : M3 ℝ} {rho : V3 ℝ} {i : Fin 3} {w : ℝ} (hw : 0 < w)
    (hR : ∀ j, toMat R i j = if j = i then M.rnd (1 / w) else 0)
    (hB : ∀ k, |toMat B k i| ≤ 1) (hB' : ∀ k, |toMat B k i - toMat B' k i| ≤ 1 / 2 ^ 51) {d : ℝ}
    (hd : |d - direction R B rho i| ≤ directionError R B rho i) :
    |d - -((∑ k, toMat B' k i * toVec rho k) / w)| ≤ updateError w rho := by
  have ht := tiny_pos
  have ht1 := tiny_le 60 (by norm_num)
  set r := M.rnd (1 / w) with hr
  have hW : 0 < 1 / w := by positivity
  have hr0 : 0 ≤ r := M.rnd_nonneg hW.le
  have hre : |r - 1 / w| ≤ (1 / w) / 2 ^ 53 + tiny := by
    have := M.near (1 / w)
    rwa [abs_of_pos hW] at this
  have hS : absTotal rho = ∑ k, |toVec rho k| := by
    simp [absTotal, toVec, Fin.sum_univ_three]
  set S := absTotal rho with hSd
  have hS0 : 0 ≤ S := by rw [hS]; exact Finset.sum_nonneg fun _ _ => abs_nonneg _
  -- the exact direction
  have e1 : direction R B rho i = -(r * ∑ k, toMat B k i * toVec rho k) := by
    rw [direction_apply]
    simp only [hR, ite_mul, zero_mul, Finset.sum_ite_irrel, Finset.sum_const_zero]
    rw [Finset.sum_ite_eq' Finset.univ i, if_pos (Finset.mem_univ _), Finset.mul_sum]
    simp only [mul_assoc]
  have e2 : directionError R B rho i ≤ 9 / 2 ^ 51 * (r * S) + 13 * tiny * (1 + r + S) := by
    unfold directionError
    simp only [hR, apply_ite abs, abs_zero, abs_of_nonneg hr0, ite_mul, zero_mul, Finset.sum_ite_irrel,
      Finset.sum_const_zero]
    rw [Finset.sum_ite_eq' Finset.univ i, if_pos (Finset.mem_univ _), Finset.sum_ite_eq' Finset.univ i,
      if_pos (Finset.mem_univ _), ← hS]
    have : ∑ k, r * |toMat B k i| * |toVec rho k| ≤ r * S := by
      rw [hS, Finset.mul_sum]
      refine Finset.sum_le_sum fun k _ => ?_
      have := mul_le_mul_of_nonneg_left (hB k) hr0
      rw [mul_one] at this
      exact mul_le_mul_of_nonneg_right this (abs_nonneg _)
    have := mul_le_mul_of_nonneg_left this (show (0 : ℝ) ≤ 9 / 2 ^ 51 by norm_num)
    linarith
  set c := ∑ k, toMat B k i * toVec rho k with hc
  set c' := ∑ k, toMat B' k i * toVec rho k with hc'
  have hcS : |c| ≤ S := by
    rw [hS]
    refine (Finset.abs_sum_le_sum_abs _ _).trans (Finset.sum_le_sum fun k _ => ?_)
    rw [abs_mul]
    have := mul_le_mul_of_nonneg_right (hB k) (abs_nonneg (toVec rho k))
    linarith
  have hcc : |c - c'| ≤ S / 2 ^ 51 := by
    rw [hc, hc', ← Finset.sum_sub_distrib, hS, div_eq_mul_inv, Finset.sum_mul]
    refine (Finset.abs_sum_le_sum_abs _ _).trans (Finset.sum_le_sum fun k _ => ?_)
    rw [← sub_mul, abs_mul]
    have := mul_le_mul_of_nonneg_right (hB' k) (abs_nonneg (toVec rho k))
    rw [one_div] at this
    linarith
  have hsplit : d - -(c' / w) = (d - -(r * c)) + -((r - 1 / w) * c) + -((1 / w) * (c - c')) := by
    field_simp
    ring
  rw [e1] at hd
  have a1 : |(r - 1 / w) * c| ≤ ((1 / w) / 2 ^ 53 + tiny) * S := by
    rw [abs_mul]
    exact mul_le_mul hre hcS (abs_nonneg _) (by positivity)
  have a2 : |(1 / w) * (c - c')| ≤ (1 / w) * (S / 2 ^ 51) := by
    rw [abs_mul, abs_of_pos hW]
    exact mul_le_mul_of_nonneg_left hcc hW.le
  have hru : r ≤ (1 / w) * (1 + 1 / 2 ^ 53) + tiny := by
    have := (abs_le.mp hre).2
    linarith
  have b1 : |d - -(c' / w)| ≤ |d - -(r * c)| + |(r - 1 / w) * c| + |(1 / w) * (c - c')| := by
    rw [hsplit]
    refine (abs_add_le _ _).trans ?_
    rw [abs_neg]
    refine add_le_add_left ?_ _
    refine (abs_add_le _ _).trans ?_
    rw [abs_neg]
  have hrS : r * S ≤ ((1 / w) * (1 + 1 / 2 ^ 53) + tiny) * S := mul_le_mul_of_nonneg_right hru hS0
  have htr : tiny * r ≤ tiny * ((1 / w) * (1 + 1 / 2 ^ 53) + tiny) := mul_le_mul_of_nonneg_left hru ht.le
  have htt : tiny * tiny ≤ tiny * (1 / 2 ^ 60) := mul_le_mul_of_nonneg_left ht1 ht.le
  have e3 : S / w = (1 / w) * S := by ring
  have e4 : 2 / w = 2 * (1 / w) := by ring
  unfold updateError
  rw [← hSd, e3, e4]
  have p1 : 0 ≤ (1 / w) * S := by positivity
  have p2 : 0 ≤ tiny * S := by positivity
  have p3 : 0 ≤ tiny * (1 / w) := by positivity
  generalize 1 / w = W at *
  nlinarith

theorem inBox_le (lo u hi : V3 ℝ) : InBox lo u hi ↔ (lo.c0 ≤ u.c0 ∧ u.c0 ≤ hi.c0) ∧
    (lo.c1 ≤ u.c1 ∧ u.c1 ≤ hi.c1) ∧ (lo.c2 ≤ u.c2 ∧ u.c2 ≤ hi.c2) := by
  have hAt : ∀ a b : ℝ, AtMost a b ↔ a ≤ b := by
    intro a b; simp only [AtMost, real_lt]; exact le_iff_lt_or_eq.symm
  simp only [InBox, hAt]

/-- The exact minimiser. -/
theorem minimiser {R rho lo hi : V3 ℝ} {B : M3 ℝ} (h0 : 0 < R.c0) (h1 : 0 < R.c1) (h2 : 0 < R.c2)
    (l0 : lo.c0 ≤ hi.c0) (l1 : lo.c1 ≤ hi.c1) (l2 : lo.c2 ≤ hi.c2) :
    Minimises R rho B lo hi
      ⟨clampTo lo.c0 hi.c0 (-((∑ k, toMat B k 0 * toVec rho k) / R.c0)),
       clampTo lo.c1 hi.c1 (-((∑ k, toMat B k 1 * toVec rho k) / R.c1)),
       clampTo lo.c2 hi.c2 (-((∑ k, toMat B k 2 * toVec rho k) / R.c2))⟩ := by
  refine ⟨(inBox_le _ _ _).mpr ⟨clampTo_mem l0 _, clampTo_mem l1 _, clampTo_mem l2 _⟩, fun v hv => ?_⟩
  obtain ⟨⟨a0, b0⟩, ⟨a1, b1⟩, ⟨a2, b2⟩⟩ := (inBox_le _ _ _).mp hv
  have m0 := clamp_min _ _ _ _ _ v.c0 h0 (clamp_real (-((∑ k, toMat B k 0 * toVec rho k) / R.c0)) _ _ l0) a0 b0
  have m1 := clamp_min _ _ _ _ _ v.c1 h1 (clamp_real (-((∑ k, toMat B k 1 * toVec rho k) / R.c1)) _ _ l1) a1 b1
  have m2 := clamp_min _ _ _ _ _ v.c2 h2 (clamp_real (-((∑ k, toMat B k 2 * toVec rho k) / R.c2)) _ _ l2) a2 b2
  simp only [hamiltonian]
  generalize clampTo lo.c0 hi.c0 _ = m at *
  generalize clampTo lo.c1 hi.c1 _ = n at *
  generalize clampTo lo.c2 hi.c2 _ = o at *
  simp only [Fin.sum_univ_three, toMat, toVec] at m0 m1 m2
  simp at m0 m1 m2
  linarith

theorem trig_near (hT : AccurateTrig M) (t : ℝ) :
    |M.cos t - Real.cos t| ≤ 1 / 2 ^ 51 ∧ |M.sin t - Real.sin t| ≤ 1 / 2 ^ 51 := by
  have ht := tiny_le 60 (by norm_num)
  refine ⟨(hT.cos t).trans (by norm_num), (hT.sin t).trans ?_⟩
  have := Real.abs_sin_le_one t
  norm_num at ht ⊢
  linarith

/-- C127, omni-directional robot: with finite weights, limits, pose and co-state, the rounded control
update, whatever the association, lies within the limits and within `updateError` of the minimiser of
the exact Hamiltonian. -/
theorem C127_omni (hT : AccurateTrig M) {e : ErgodicControl (RDbl M)} {w lo hi x rho : V3 ℝ}
    {u : V3 (RDbl M)} (hm : e.model = omniModel)
    (hR : e.Rinv = diag3 (lit 1 0 /. .fin w.c0) (lit 1 0 /. .fin w.c1) (lit 1 0 /. .fin w.c2))
    (h0 : 0 < w.c0) (h1 : 0 < w.c1) (h2 : 0 < w.c2) (hlo : e.umin = finV lo) (hhi : e.umax = finV hi)
    (h : e.IsNewControl (finV x) (finV rho) u) :
    ∃ v m : V3 ℝ, u = finV v ∧ InBox lo v hi ∧ Minimises w rho (Omni.fdu x) lo hi m ∧
      |v.c0 - m.c0| ≤ updateError w.c0 rho ∧ |v.c1 - m.c1| ≤ updateError w.c1 rho ∧
      |v.c2 - m.c2| ≤ updateError w.c2 rho := by
  obtain ⟨d, hd, c0, c1, c2⟩ := h
  have one : M.rnd 1 = 1 := by simp
  have neg1 : M.rnd 0 = 0 := M.rnd_zero
  obtain ⟨tc, ts⟩ := trig_near hT x.c2
  -- the machine's matrices
  have eR : e.Rinv = finM ⟨⟨M.rnd (1 / w.c0), 0, 0⟩, ⟨0, M.rnd (1 / w.c1), 0⟩, ⟨0, 0, M.rnd (1 / w.c2)⟩⟩ := by
    rw [hR]
    simp [diag3, finM, finV, RDbl.div_fin _ h0.ne', RDbl.div_fin _ h1.ne', RDbl.div_fin _ h2.ne', one, neg1]
  have eB : e.model.fdu (finV x) = finM ⟨⟨M.cos x.c2, -M.sin x.c2, 0⟩, ⟨M.sin x.c2, M.cos x.c2, 0⟩,
      ⟨0, 0, 1⟩⟩ := by
    rw [hm]
    simp [omniModel, Omni.fdu, finM, finV, one, neg1]
  rw [eR, eB] at hd
  obtain ⟨v, rfl, hv⟩ := C127_direction hd
  rw [hlo, hhi] at c0 c1 c2
  obtain ⟨l0, r0⟩ := clamp_rounded c0
  obtain ⟨l1, r1⟩ := clamp_rounded c1
  obtain ⟨l2, r2⟩ := clamp_rounded c2
  have bB : ∀ k i, |toMat (⟨⟨M.cos x.c2, -M.sin x.c2, 0⟩, ⟨M.sin x.c2, M.cos x.c2, 0⟩, ⟨0, 0, 1⟩⟩ : M3 ℝ) k i| ≤ 1 := by
    have a := M.sin_le x.c2
    have b := M.cos_le x.c2
    intro k i
    fin_cases k <;> fin_cases i <;> simp [toMat, a, b]
  have nB : ∀ k i, |toMat (⟨⟨M.cos x.c2, -M.sin x.c2, 0⟩, ⟨M.sin x.c2, M.cos x.c2, 0⟩, ⟨0, 0, 1⟩⟩ : M3 ℝ) k i -
      toMat (Omni.fdu x) k i| ≤ 1 / 2 ^ 51 := by
    have ts' : |-M.sin x.c2 - -Real.sin x.c2| ≤ 1 / 2 ^ 51 := by
      rw [← abs_neg]; refine le_trans (le_of_eq ?_) ts; congr 1; ring
    intro k i
    fin_cases k <;> fin_cases i <;>
      simp only [toMat, Omni.fdu, real_cos, real_sin, real_neg, real_lit] <;>
      first
        | exact tc
        | exact ts
        | exact ts'
        | (simp; try positivity)
  refine ⟨⟨clampTo lo.c0 hi.c0 v.c0, clampTo lo.c1 hi.c1 v.c1, clampTo lo.c2 hi.c2 v.c2⟩, _, ?_, ?_,
    minimiser h0 h1 h2 l0 l1 l2, ?_, ?_, ?_⟩
  · ext1
    exacts [r0, r1, r2]
  · exact (inBox_le _ _ _).mpr ⟨clampTo_mem l0 _, clampTo_mem l1 _, clampTo_mem l2 _⟩
  · exact (clampTo_near _ _ _ _).trans (diagonal_error (M := M) (i := 0) h0
      (by intro j; fin_cases j <;> simp [toMat]) (fun k => bB k 0) (fun k => nB k 0) (hv 0))
  · exact (clampTo_near _ _ _ _).trans (diagonal_error (M := M) (i := 1) h1
      (by intro j; fin_cases j <;> simp [toMat]) (fun k => bB k 1) (fun k => nB k 1) (hv 1))
  · exact (clampTo_near _ _ _ _).trans (diagonal_error (M := M) (i := 2) h2
      (by intro j; fin_cases j <;> simp [toMat]) (fun k => bB k 2) (fun k => nB k 2) (hv 2))

/-- C127, cart: the same, with no lateral control at all. -/
theorem C127_cart (hT : AccurateTrig M) {e : ErgodicControl (RDbl M)} {w0 w1 : ℝ} {lo hi x rho : V3 ℝ}
    {u : V3 (RDbl M)} (hm : e.model = cartModel)
    (hR : e.Rinv = diag3 (lit 1 0 /. .fin w0) (lit 0 0) (lit 1 0 /. .fin w1))
    (h0 : 0 < w0) (h1 : 0 < w1) (hlo : e.umin = finV lo) (hhi : e.umax = finV hi)
    (hl : lo.c1 = 0) (hh : hi.c1 = 0) (h : e.IsNewControl (finV x) (finV rho) u) :
    ∃ v m : V3 ℝ, u = finV v ∧ InBox lo v hi ∧ Minimises ⟨w0, 1, w1⟩ rho (SimpleCart.fdu x) lo hi m ∧
      |v.c0 - m.c0| ≤ updateError w0 rho ∧ v.c1 = 0 ∧ |v.c2 - m.c2| ≤ updateError w1 rho := by
  obtain ⟨d, hd, c0, c1, c2⟩ := h
  have one : M.rnd 1 = 1 := by simp
  have neg1 : M.rnd 0 = 0 := M.rnd_zero
  obtain ⟨tc, ts⟩ := trig_near hT x.c2
  have eR : e.Rinv = finM ⟨⟨M.rnd (1 / w0), 0, 0⟩, ⟨0, 0, 0⟩, ⟨0, 0, M.rnd (1 / w1)⟩⟩ := by
    rw [hR]
    simp [diag3, finM, finV, RDbl.div_fin _ h0.ne', RDbl.div_fin _ h1.ne', one, neg1]
  have eB : e.model.fdu (finV x) = finM ⟨⟨M.cos x.c2, 0, 0⟩, ⟨M.sin x.c2, 0, 0⟩, ⟨0, 0, 1⟩⟩ := by
    rw [hm]
    simp [cartModel, SimpleCart.fdu, finM, finV, one, neg1]
  rw [eR, eB] at hd
  obtain ⟨v, rfl, hv⟩ := C127_direction hd
  rw [hlo, hhi] at c0 c1 c2
  obtain ⟨l0, r0⟩ := clamp_rounded c0
  obtain ⟨l1, r1⟩ := clamp_rounded c1
  obtain ⟨l2, r2⟩ := clamp_rounded c2
  have bB : ∀ k i, |toMat (⟨⟨M.cos x.c2, 0, 0⟩, ⟨M.sin x.c2, 0, 0⟩, ⟨0, 0, 1⟩⟩ : M3 ℝ) k i| ≤ 1 := by
    have a := M.sin_le x.c2
    have b := M.cos_le x.c2
    intro k i
    fin_cases k <;> fin_cases i <;> simp [toMat, a, b]
  have nB : ∀ k i, |toMat (⟨⟨M.cos x.c2, 0, 0⟩, ⟨M.sin x.c2, 0, 0⟩, ⟨0, 0, 1⟩⟩ : M3 ℝ) k i -
      toMat (SimpleCart.fdu x) k i| ≤ 1 / 2 ^ 51 := by
    intro k i
    fin_cases k <;> fin_cases i <;>
      simp only [toMat, SimpleCart.fdu, real_cos, real_sin, real_lit] <;>
      first
        | exact tc
        | exact ts
        | (simp; try positivity)
  refine ⟨⟨clampTo lo.c0 hi.c0 v.c0, clampTo lo.c1 hi.c1 v.c1, clampTo lo.c2 hi.c2 v.c2⟩, _, ?_, ?_,
    minimiser h0 one_pos h1 l0 l1 l2, ?_, ?_, ?_⟩
  · ext1
    exacts [r0, r1, r2]
  · exact (inBox_le _ _ _).mpr ⟨clampTo_mem l0 _, clampTo_mem l1 _, clampTo_mem l2 _⟩
  · exact (clampTo_near _ _ _ _).trans (diagonal_error (M := M) (i := 0) h0
      (by intro j; fin_cases j <;> simp [toMat]) (fun k => bB k 0) (fun k => nB k 0) (hv 0))
  · have := clampTo_mem l1 v.c1
    rw [hl, hh] at this ⊢
    exact le_antisymm this.2 this.1
  · exact (clampTo_near _ _ _ _).trans (diagonal_error (M := M) (i := 2) h1
      (by intro j; fin_cases j <;> simp [toMat]) (fun k => bB k 2) (fun k => nB k 2) (hv 2))

/-! ## for a node -/

theorem node_ec_any {F : Type} [Flt F] {p : Params F} {n n' : Node F} {o out : List (Out F)}
    {es : List (Event F)} {ec : ErgodicControl F} {collision : Collision F} {dwa : DynamicWindow F}
    {target : Target F}
    (hs : (n.expl, o) = Expl.start ec collision dwa target p.map_frame_id p.val_dt p.val_horizon)
    (hr : n.run es = .ok (n', out)) : EcReach ec n'.expl.ec := by
  cases hu : n.up with
  | true =>
    have h1 := (node_run_up n n' hu es out hr).1
    rw [show n.expl = _ from congrArg Prod.fst hs, run_iff_trace] at h1
    obtain ⟨os, ht, rfl⟩ := h1
    exact ht.inv.ec_reach
  | false =>
    rw [node_run_down n hu es] at hr
    simp only [Res.ok.injEq, Prod.mk.injEq] at hr
    rw [← hr.1, show n.expl = _ from congrArg Prod.fst hs]
    exact .setTarget _ .start

/-- C127 for an omni-directional robot: after any history, with finite positive weights and finite
limits, every rounded update at a finite pose and co-state is within `updateError` of the best control
within the configured limits. -/
theorem C127_node_omni (hT : AccurateTrig M) {p : Params (RDbl M)} {n n' : Node (RDbl M)}
    {o out : List (Out (RDbl M))} {es : List (Event (RDbl M))} (hn : Node.omni p = .ok (n, o))
    (hr : n.run es = .ok (n', out)) {w lo hi x rho : V3 ℝ} {ws : List (RDbl M)}
    (hw : p.control_weights = .fin w.c0 :: .fin w.c1 :: .fin w.c2 :: ws)
    (h0 : 0 < w.c0) (h1 : 0 < w.c1) (h2 : 0 < w.c2)
    (hlo : (⟨p.min_vel_x, p.min_vel_y, p.min_rot_vel⟩ : V3 (RDbl M)) = finV lo)
    (hhi : (⟨p.max_vel_x, p.max_vel_y, p.max_rot_vel⟩ : V3 (RDbl M)) = finV hi)
    {u : V3 (RDbl M)} (hu : n'.expl.ec.IsNewControl (finV x) (finV rho) u) :
    ∃ v m : V3 ℝ, u = finV v ∧ InBox lo v hi ∧ Minimises w rho (Omni.fdu x) lo hi m ∧
      |v.c0 - m.c0| ≤ updateError w.c0 rho ∧ |v.c1 - m.c1| ≤ updateError w.c1 rho ∧
      |v.c2 - m.c2| ≤ updateError w.c2 rho := by
  obtain ⟨a0, a1, a2, gs, collision, ec, dwa, ⟨e0, e1, e2, -, -⟩, hec, -, hs, -⟩ := omni_parts hn
  rw [hw] at e0 e1 e2
  simp only [List.getElem?_cons_zero, List.getElem?_cons_succ, Option.some.injEq] at e0 e1 e2
  subst e0 e1 e2
  have hi' := EcBuilt.inv ⟨ec, hec, node_ec_any hs hr⟩
  exact C127_omni hT hi'.model_eq hi'.Rinv_eq h0 h1 h2 (hi'.umin_eq.trans hlo) (hi'.umax_eq.trans hhi) hu

/-- C127 for a cart. -/
theorem C127_node_cart (hT : AccurateTrig M) {p : Params (RDbl M)} {n n' : Node (RDbl M)}
    {o out : List (Out (RDbl M))} {es : List (Event (RDbl M))} (hn : Node.cart p = .ok (n, o))
    (hr : n.run es = .ok (n', out)) {w0 w1 : ℝ} {lo hi x rho : V3 ℝ} {ws : List (RDbl M)}
    (hw : p.control_weights = .fin w0 :: .fin w1 :: ws) (h0 : 0 < w0) (h1 : 0 < w1)
    (hlo : (⟨p.min_vel_x, .fin 0, p.min_rot_vel⟩ : V3 (RDbl M)) = finV lo)
    (hhi : (⟨p.max_vel_x, .fin 0, p.max_rot_vel⟩ : V3 (RDbl M)) = finV hi)
    {u : V3 (RDbl M)} (hu : n'.expl.ec.IsNewControl (finV x) (finV rho) u) :
    ∃ v m : V3 ℝ, u = finV v ∧ InBox lo v hi ∧ Minimises ⟨w0, 1, w1⟩ rho (SimpleCart.fdu x) lo hi m ∧
      |v.c0 - m.c0| ≤ updateError w0 rho ∧ v.c1 = 0 ∧ |v.c2 - m.c2| ≤ updateError w1 rho := by
  obtain ⟨a0, a1, gs, collision, ec, dwa, ⟨e0, e1, -, -⟩, hec, -, hs, -⟩ := cart_parts hn
  rw [hw] at e0 e1
  simp only [List.getElem?_cons_zero, List.getElem?_cons_succ, Option.some.injEq] at e0 e1
  subst e0 e1
  have hi' := EcBuilt.inv ⟨ec, hec, node_ec_any hs hr⟩
  have z : (lit 0 0 : RDbl M) = .fin 0 := by simp [M.rnd_zero]
  refine C127_cart hT hi'.model_eq hi'.Rinv_eq h0 h1 (by rw [hi'.umin_eq, z]; exact hlo)
    (by rw [hi'.umax_eq, z]; exact hhi) ?_ ?_ hu
  · exact (RDbl.fin_inj.mp (congrArg V3.c1 hlo)).symm
  · exact (RDbl.fin_inj.mp (congrArg V3.c1 hhi)).symm

/-- C127 with the shipped configuration of the omni-directional robot: with co-states up to a thousand,
every update is within `10^-10` of the best control within the limits of the configuration, after any
history and whatever the association. -/
theorem C127_shipped (hT : AccurateTrig M) : ∃ (n : Node (RDbl M)) (o : List (Out (RDbl M))),
    (omniYaml : Launch (RDbl M)).omni = .ok (n, o) ∧
    ∀ (es : List (Event (RDbl M))) (n' : Node (RDbl M)) (out : List (Out (RDbl M))),
      n.run es = .ok (n', out) → ∀ x rho : V3 ℝ, absTotal rho ≤ 1000 →
      (∃ u, n'.expl.ec.newControl (finV x) (finV rho) = .ok u) ∧
      ∀ u, n'.expl.ec.IsNewControl (finV x) (finV rho) u →
      ∃ v m : V3 ℝ, u = finV v ∧ InBox ⟨-1, -1, -2⟩ v ⟨1, 1, 2⟩ ∧
        Minimises ⟨1, 1, M.rnd (1 / 2)⟩ rho (Omni.fdu x) ⟨-1, -1, -2⟩ ⟨1, 1, 2⟩ m ∧
        |v.c0 - m.c0| ≤ 1 / 10 ^ 10 ∧ |v.c1 - m.c1| ≤ 1 / 10 ^ 10 ∧ |v.c2 - m.c2| ≤ 1 / 10 ^ 10 := by
  obtain ⟨n, o, hn, hu⟩ := omni_starts (M := M) 1 (M.rnd (5 / 2)) 8 1 1 (M.rnd (1 / 2))
  refine ⟨n, o, ((C88_launch _ _).2).mpr ⟨show (i2u 10).toNat ≤ 46340 by decide, _, omniYaml_params, hn⟩, ?_⟩
  intro es n' out hr x rho hrho
  have hhalf : (49 : ℝ) / 100 ≤ M.rnd (1 / 2) := by
    have := (abs_le.mp (M.near (1 / 2))).1
    have ht := tiny_le 60 (by norm_num)
    rw [abs_of_pos (by norm_num)] at this
    norm_num at this ht ⊢
    linarith
  constructor
  · obtain ⟨a0, a1, a2, gs, collision, ec, dwa, -, hec, -, hs, -⟩ := omni_parts hn
    have hi' := EcBuilt.inv ⟨ec, hec, node_ec_any hs hr⟩
    have l1 : Flt.lt (.fin 1 : RDbl M) (.fin (-1)) = false := by rw [RDbl.lt_fin_false]; norm_num
    have l2 : Flt.lt (.fin 2 : RDbl M) (.fin (-2)) = false := by rw [RDbl.lt_fin_false]; norm_num
    have e1 := hi'.umin_eq
    have e2 := hi'.umax_eq
    simp only [shippedParams] at e1 e2
    simp [ErgodicControl.newControl, ErgodicControl.clampR, e1, e2, l1, l2]
  intro u hu
  obtain ⟨v, m, rfl, hv, hm, b0, b1, b2⟩ := C127_node_omni hT hn hr (w := ⟨1, 1, M.rnd (1 / 2)⟩)
    (lo := ⟨-1, -1, -2⟩) (hi := ⟨1, 1, 2⟩) (ws := []) rfl one_pos one_pos (by linarith) rfl rfl hu
  have hS : 0 ≤ absTotal rho := by unfold absTotal; positivity
  have small : ∀ w : ℝ, 49 / 100 ≤ w → updateError w rho ≤ 1 / 10 ^ 10 := by
    intro w hw
    have ht := tiny_le 60 (by norm_num)
    have ht0 := tiny_pos
    have h1 : absTotal rho / w ≤ 1000 / (49 / 100) := div_le_div₀ (by norm_num) hrho (by norm_num) hw
    have h2 : 2 / w ≤ 2 / (49 / 100) := div_le_div_of_nonneg_left (by norm_num) (by norm_num) hw
    have h3 : tiny * (1 + 2 / w + absTotal rho) ≤ (1 / 2 ^ 60) * (1 + 2 / (49 / 100) + 1000) := by
      refine mul_le_mul ht (by linarith) ?_ (by norm_num)
      have : 0 < w := by linarith
      positivity
    unfold updateError
    norm_num at h1 h3 ⊢
    linarith
  exact ⟨v, m, rfl, hv, hm, b0.trans (small _ (by norm_num)), b1.trans (small _ (by norm_num)),
    b2.trans (small _ hhalf)⟩

/-- Not vacuous: binary64, no events yet, a pose and a co-state. -/
example : ∃ (n : Node (RDbl ieee)) (v m : V3 ℝ),
    n.expl.ec.newControl (finV ⟨1, 2, 3⟩) (finV ⟨1 / 2, -(1 / 3), 7⟩) = .ok (finV v) ∧
    Minimises ⟨1, 1, ieee.rnd (1 / 2)⟩ ⟨1 / 2, -(1 / 3), 7⟩ (Omni.fdu ⟨1, 2, 3⟩) ⟨-1, -1, -2⟩ ⟨1, 1, 2⟩ m ∧
    |v.c0 - m.c0| ≤ 1 / 10 ^ 10 := by
  obtain ⟨n, o, -, h⟩ := C127_shipped ieee_trig
  obtain ⟨⟨u, hu⟩, h⟩ := h [] n [] rfl ⟨1, 2, 3⟩ ⟨1 / 2, -(1 / 3), 7⟩ (by norm_num [absTotal, abs_of_pos])
  obtain ⟨v, m, rfl, -, hm, b, -⟩ := h u (C127_model _ _ _ _ hu)
  exact ⟨n, v, m, hu, hm, b⟩

/-- Not vacuous: the cart in binary64. -/
example : ∃ (p : Params (RDbl ieee)) (n : Node (RDbl ieee)) (o : List (Out (RDbl ieee))),
    Node.cart p = .ok (n, o) ∧ p.control_weights = [.fin 1, .fin 2] ∧
    ∀ u, n.expl.ec.IsNewControl (finV ⟨1, 2, 3⟩) (finV ⟨1, 1, 1⟩) u → ∃ v m : V3 ℝ, u = finV v ∧
      Minimises ⟨1, 1, 2⟩ ⟨1, 1, 1⟩ (SimpleCart.fdu ⟨1, 2, 3⟩) ⟨-1, 0, -2⟩ ⟨1, 0, 2⟩ m ∧ v.c1 = 0 ∧
      |v.c2 - m.c2| ≤ updateError 2 ⟨1, 1, 1⟩ := by
  obtain ⟨n, o, hn, -⟩ := cart_starts (M := ieee) 1 1 0 1 2
  refine ⟨_, n, o, hn, rfl, fun u hu => ?_⟩
  obtain ⟨v, m, rfl, -, hm, -, hz, b⟩ := C127_node_cart ieee_trig hn (es := []) rfl (w0 := 1) (w1 := 2)
    (lo := ⟨-1, 0, -2⟩) (hi := ⟨1, 0, 2⟩) (ws := []) rfl one_pos two_pos rfl rfl hu
  exact ⟨v, m, rfl, hm, hz, b⟩

/-! ## the association does matter -/

/-- In binary64 the association changes the result. -/
theorem C127_association_matters : ∃ (R B : M3 (RDbl ieee)) (rho d d' : V3 (RDbl ieee)),
    IsDirection R B rho d ∧ IsDirection R B rho d' ∧ d ≠ d' := by
  have z : ieee.rnd 0 = 0 := ieee.rnd_zero
  have h1 : ieee.rnd (-((1 + 1 / 2 ^ 30) * (1 + 1 / 2 ^ 23))) = -(1 + 1 / 2 ^ 23 + 1 / 2 ^ 30) := by
    rw [ieee.neg]
    congr 1
    refine (Ieee.rnd_tie (2 ^ 52 + 2 ^ 29 + 2 ^ 22) (-52) (by decide) (by norm_num) ?_ ?_ (.inl ?_)).trans ?_
    · rw [abs_of_pos (by positivity)]; norm_num
    · rw [abs_of_pos (by positivity)]; norm_num
    · norm_num
    · norm_num
  have h1' : ieee.rnd (-(1 + 1 / 2 ^ 23 + 1 / 2 ^ 30)) = -(1 + 1 / 2 ^ 23 + 1 / 2 ^ 30) :=
    Ieee.rnd_rep (-(2 ^ 52 + 2 ^ 29 + 2 ^ 22)) (-52) (by norm_num) (by norm_num) (by norm_num)
  have h2 : ieee.rnd (-(1 + 1 / 2 ^ 23 + 1 / 2 ^ 30) * 3) = -(3 + 3 / 2 ^ 23 + 3 / 2 ^ 30) :=
    (Ieee.rnd_rep (-(3 * (2 ^ 51 + 2 ^ 28 + 2 ^ 21))) (-51) (by norm_num) (by norm_num) (by norm_num)).trans
      (by norm_num)
  have h2' : ieee.rnd (-(3 + 3 / 2 ^ 23 + 3 / 2 ^ 30)) = -(3 + 3 / 2 ^ 23 + 3 / 2 ^ 30) :=
    Ieee.rnd_rep (-(3 * (2 ^ 51 + 2 ^ 28 + 2 ^ 21))) (-51) (by norm_num) (by norm_num) (by norm_num)
  have h3 : ieee.rnd ((1 + 1 / 2 ^ 23) * 3) = 3 + 3 / 2 ^ 23 :=
    (Ieee.rnd_rep (3 * (2 ^ 51 + 2 ^ 28)) (-51) (by norm_num) (by norm_num) (by norm_num)).trans (by norm_num)
  have h3' : ieee.rnd (3 + 3 / 2 ^ 23) = 3 + 3 / 2 ^ 23 :=
    Ieee.rnd_rep (3 * (2 ^ 51 + 2 ^ 28)) (-51) (by norm_num) (by norm_num) (by norm_num)
  have h4 : ieee.rnd (-((1 + 1 / 2 ^ 30) * (3 + 3 / 2 ^ 23))) =
      -(3 + 3 / 2 ^ 23 + 3 / 2 ^ 30 + 1 / 2 ^ 51) := by
    rw [ieee.neg]
    congr 1
    refine (Ieee.rnd_eq (3 * (2 ^ 51 + 2 ^ 28 + 2 ^ 21) + 1) (-51) (by norm_num) ?_ ?_ ?_).trans ?_
    · rw [abs_of_pos (by positivity)]; norm_num
    · rw [abs_of_pos (by positivity)]; norm_num
    · rw [abs_lt]; norm_num
    · norm_num
  have h4' : ieee.rnd (-(3 + 3 / 2 ^ 23 + 3 / 2 ^ 30 + 1 / 2 ^ 51)) =
      -(3 + 3 / 2 ^ 23 + 3 / 2 ^ 30 + 1 / 2 ^ 51) :=
    Ieee.rnd_rep (-(3 * (2 ^ 51 + 2 ^ 28 + 2 ^ 21) + 1)) (-51) (by norm_num) (by norm_num) (by norm_num)
  let R : M3 (RDbl ieee) := finM ⟨⟨1 + 1 / 2 ^ 30, 0, 0⟩, ⟨0, 0, 0⟩, ⟨0, 0, 0⟩⟩
  let B : M3 (RDbl ieee) := finM ⟨⟨1 + 1 / 2 ^ 23, 0, 0⟩, ⟨0, 0, 0⟩, ⟨0, 0, 0⟩⟩
  let rho : V3 (RDbl ieee) := finV ⟨3, 0, 0⟩
  refine ⟨R, B, rho, (R.neg.mul B.t).mulVec rho, R.neg.mulVec (B.t.mulVec rho),
    .left _ ⟨⟨isDot_dot _ _, isDot_dot _ _, isDot_dot _ _⟩, ⟨isDot_dot _ _, isDot_dot _ _, isDot_dot _ _⟩,
      isDot_dot _ _, isDot_dot _ _, isDot_dot _ _⟩ (isMulVec_mulVec _ _),
    .right _ (isMulVec_mulVec _ _) (isMulVec_mulVec _ _), fun h => ?_⟩
  have h0 := congrArg V3.c0 h
  simp only [R, B, rho, finM, finV, M3.mulVec, M3.mul, M3.neg, M3.t, V3.neg, V3.dot, RDbl.neg_fin,
    RDbl.mul_fin, RDbl.add_fin, neg_zero, mul_zero, zero_mul, add_zero, neg_mul, z] at h0
  rw [h1, h1', h1', h3, h3', h3', h4, h4', h4'] at h0
  rw [h2, h2', h2', RDbl.fin_inj] at h0
  norm_num at h0

end Ergodic
