import Verif.Spec.RoundedControl
import Verif.Props.ErgodicControl
import Verif.Props.RoundedWindow
import Verif.Props.RoundedAngle

/-!
# Property C96: the ergodic controller with rounding

C59 is about exact arithmetic, and with special values alone a command can be NaN.  Here the
controller runs on rounded numbers: with finite inputs and the target in sight every number it
computes is finite, so its commands are finite and within the limits.
-/

namespace Ergodic
variable {M : Machine}

/-! ## closure of the finite numbers -/

namespace Num

theorem add {a b : RDbl M} (ha : Num a) (hb : Num b) : Num (a +. b) := by
  obtain ⟨r, rfl⟩ := ha; obtain ⟨s, rfl⟩ := hb; exact ⟨_, RDbl.add_fin r s⟩
theorem sub {a b : RDbl M} (ha : Num a) (hb : Num b) : Num (a -. b) := by
  obtain ⟨r, rfl⟩ := ha; obtain ⟨s, rfl⟩ := hb; exact ⟨_, RDbl.sub_fin r s⟩
theorem mul {a b : RDbl M} (ha : Num a) (hb : Num b) : Num (a *. b) := by
  obtain ⟨r, rfl⟩ := ha; obtain ⟨s, rfl⟩ := hb; exact ⟨_, RDbl.mul_fin r s⟩
theorem div {a : RDbl M} {b : ℝ} (ha : Num a) (hb : b ≠ 0) : Num (a /. .fin b) := by
  obtain ⟨r, rfl⟩ := ha; exact ⟨_, RDbl.div_fin r hb⟩
theorem neg {a : RDbl M} (ha : Num a) : Num (~-. a) := by
  obtain ⟨r, rfl⟩ := ha; exact ⟨_, RDbl.neg_fin r⟩
theorem sin {a : RDbl M} (ha : Num a) : Num (Flt.sin a) := by
  obtain ⟨r, rfl⟩ := ha; exact ⟨_, RDbl.sin_fin r⟩
theorem cos {a : RDbl M} (ha : Num a) : Num (Flt.cos a) := by
  obtain ⟨r, rfl⟩ := ha; exact ⟨_, RDbl.cos_fin r⟩
theorem exp {a : RDbl M} (ha : Num a) : Num (Flt.exp a) := by
  obtain ⟨r, rfl⟩ := ha; exact ⟨_, RDbl.exp_fin r⟩
theorem lit (m : Int) (e : Nat) : Num (lit m e : RDbl M) := ⟨_, RDbl.lit_fin m e⟩
theorem ofInt (n : Int) : Num (Flt.ofInt n : RDbl M) := ⟨_, RDbl.ofInt_fin n⟩
theorem pi : Num (Flt.pi : RDbl M) := ⟨_, RDbl.pi_fin⟩
theorem wrap {a : RDbl M} (ha : Num a) : Num (normalizeAnglePI a) := by
  obtain ⟨r, rfl⟩ := ha; exact ⟨_, normalize_rd r⟩
theorem b2f (b : Bool) : Num (b2f b : RDbl M) := by
  cases b <;> exact lit _ _

theorem foldl {α : Type} (f : α → RDbl M) (l : List α) (h : ∀ a ∈ l, Num (f a)) :
    ∀ s : RDbl M, Num s → Num (l.foldl (fun s x => s +. f x) s) := by
  induction l with
  | nil => intro s hs; exact hs
  | cons a l ih =>
    intro s hs
    rw [List.foldl_cons]
    exact ih (fun b hb => h b (List.mem_cons_of_mem _ hb)) _ (hs.add (h a List.mem_cons_self))

theorem fsum {l : List (RDbl M)} (h : ∀ x ∈ l, Num x) : Num (fsum l) :=
  foldl id l h _ (lit 0 0)

end Num

/-- Closure under the arithmetic of the controller. -/
macro "num" : tactic => `(tactic| repeat' first
  | assumption | exact Num.lit _ _ | exact Num.ofInt _ | exact Num.pi | exact Num.b2f _
  | apply Num.add | apply Num.sub | apply Num.mul | apply Num.neg | apply Num.sin
  | apply Num.cos | apply Num.exp | apply Num.wrap)

namespace V3Num

theorem zero : V3Num (V3.zero : V3 (RDbl M)) := ⟨.lit _ _, .lit _ _, .lit _ _⟩
theorem add {a b : V3 (RDbl M)} (ha : V3Num a) (hb : V3Num b) : V3Num (a.add b) :=
  ⟨ha.1.add hb.1, ha.2.1.add hb.2.1, ha.2.2.add hb.2.2⟩
theorem sub {a b : V3 (RDbl M)} (ha : V3Num a) (hb : V3Num b) : V3Num (a.sub b) :=
  ⟨ha.1.sub hb.1, ha.2.1.sub hb.2.1, ha.2.2.sub hb.2.2⟩
theorem smul {s : RDbl M} {a : V3 (RDbl M)} (hs : Num s) (ha : V3Num a) : V3Num (V3.smul s a) :=
  ⟨hs.mul ha.1, hs.mul ha.2.1, hs.mul ha.2.2⟩
theorem neg {a : V3 (RDbl M)} (ha : V3Num a) : V3Num a.neg := ⟨ha.1.neg, ha.2.1.neg, ha.2.2.neg⟩
theorem dot {a b : V3 (RDbl M)} (ha : V3Num a) (hb : V3Num b) : Num (a.dot b) :=
  ((ha.1.mul hb.1).add (ha.2.1.mul hb.2.1)).add (ha.2.2.mul hb.2.2)

end V3Num

namespace M3Num

theorem mulVec {m : M3 (RDbl M)} {v : V3 (RDbl M)} (hm : M3Num m) (hv : V3Num v) :
    V3Num (m.mulVec v) := ⟨hm.1.dot hv, hm.2.1.dot hv, hm.2.2.dot hv⟩
theorem t {m : M3 (RDbl M)} (h : M3Num m) : M3Num m.t :=
  ⟨⟨h.1.1, h.2.1.1, h.2.2.1⟩, ⟨h.1.2.1, h.2.1.2.1, h.2.2.2.1⟩, ⟨h.1.2.2, h.2.1.2.2, h.2.2.2.2⟩⟩
theorem neg {m : M3 (RDbl M)} (h : M3Num m) : M3Num m.neg := ⟨h.1.neg, h.2.1.neg, h.2.2.neg⟩
theorem mul {a b : M3 (RDbl M)} (ha : M3Num a) (hb : M3Num b) : M3Num (a.mul b) := by
  have hb := hb.t
  exact ⟨⟨ha.1.dot hb.1, ha.1.dot hb.2.1, ha.1.dot hb.2.2⟩,
    ⟨ha.2.1.dot hb.1, ha.2.1.dot hb.2.1, ha.2.1.dot hb.2.2⟩,
    ⟨ha.2.2.dot hb.1, ha.2.2.dot hb.2.1, ha.2.2.dot hb.2.2⟩⟩

end M3Num

/-- Both motion models of the package keep numbers finite. -/
theorem omni_num : ModelNum (omniModel : TwistModel (RDbl M)) := by
  refine ⟨?_, ?_, ?_⟩
  · rintro x u d ⟨h0, h1, h2⟩ ⟨k0, k1, k2⟩ h
    obtain rfl := Res.ok.inj h
    refine ⟨?_, ?_, ?_⟩ <;> unfold Omni.f <;> num
  · rintro x u ⟨h0, h1, h2⟩ ⟨k0, k1, k2⟩
    refine ⟨⟨?_, ?_, ?_⟩, ⟨?_, ?_, ?_⟩, ?_, ?_, ?_⟩ <;> simp only [omniModel, Omni.fdx] <;> num
  · rintro x ⟨h0, h1, h2⟩
    refine ⟨⟨?_, ?_, ?_⟩, ⟨?_, ?_, ?_⟩, ?_, ?_, ?_⟩ <;> simp only [omniModel, Omni.fdu] <;> num

theorem cart_num : ModelNum (cartModel : TwistModel (RDbl M)) := by
  refine ⟨?_, ?_, ?_⟩
  · rintro x u d ⟨h0, h1, h2⟩ ⟨k0, k1, k2⟩ h
    simp only [cartModel, SimpleCart.f] at h
    split at h
    · simp at h
    · obtain rfl := Res.ok.inj h
      refine ⟨?_, ?_, ?_⟩ <;> num
  · rintro x u ⟨h0, h1, h2⟩ ⟨k0, k1, k2⟩
    refine ⟨⟨?_, ?_, ?_⟩, ⟨?_, ?_, ?_⟩, ?_, ?_, ?_⟩ <;> simp only [cartModel, SimpleCart.fdx] <;> num
  · rintro x ⟨h0, h1, h2⟩
    refine ⟨⟨?_, ?_, ?_⟩, ⟨?_, ?_, ?_⟩, ?_, ?_, ?_⟩ <;> simp only [cartModel, SimpleCart.fdu] <;> num

/-! ## the integrator -/

theorem six_rd : (lit 6 0 : RDbl M) = .fin 6 := by
  rw [RDbl.lit_fin]
  have := M.int 6 (by norm_num)
  norm_num at this ⊢
  rw [this]

theorem step_num {dt : RDbl M} {model : TwistModel (RDbl M)} (hm : ModelNum model) (hdt : Num dt)
    {x u y : V3 (RDbl M)} (hx : V3Num x) (hu : V3Num u)
    (h : RungeKutta.step dt model.f x u = .ok y) : V3Num y := by
  simp only [RungeKutta.step, Res.bind_eq_ok, Res.ok.injEq] at h
  obtain ⟨k1, h1, k2, h2, k3, h3, k4, h4, rfl⟩ := h
  have n1 := hm.1 _ _ _ hx hu h1
  have n2 := hm.1 _ _ _ (hx.add (.smul hdt (.smul (.lit _ _) n1))) hu h2
  have n3 := hm.1 _ _ _ (hx.add (.smul hdt (.smul (.lit _ _) n2))) hu h3
  have n4 := hm.1 _ _ _ (hx.add (.smul hdt n3)) hu h4
  refine hx.add (.smul ?_ (((n1.add (.smul (.lit _ _) n2)).add (.smul (.lit _ _) n3)).add n4))
  rw [six_rd]
  exact hdt.div (by norm_num)

theorem rhodot_num {rho g b : V3 (RDbl M)} {f : M3 (RDbl M)} (hr : V3Num rho) (hg : V3Num g)
    (hb : V3Num b) (hf : M3Num f) : V3Num (rhodot rho g b f) :=
  (hg.neg.sub hb).sub (hf.t.mulVec hr)

theorem stepBack_num {dt : RDbl M} (hdt : Num dt) {rho g b : V3 (RDbl M)} {f : M3 (RDbl M)}
    (hr : V3Num rho) (hg : V3Num g) (hb : V3Num b) (hf : M3Num f) :
    V3Num (RungeKutta.stepBack dt rhodot rho g b f) := by
  unfold RungeKutta.stepBack
  have n1 := rhodot_num hr hg hb hf
  have n2 := rhodot_num (hr.sub (.smul hdt (.smul (.lit 5 1) n1))) hg hb hf
  have n3 := rhodot_num (hr.sub (.smul hdt (.smul (.lit 5 1) n2))) hg hb hf
  have n4 := rhodot_num (hr.sub (.smul hdt n3)) hg hb hf
  refine hr.sub (.smul ?_ (((n1.add (.smul (.lit _ _) n2)).add (.smul (.lit _ _) n3)).add n4))
  rw [six_rd]
  exact hdt.div (by norm_num)

theorem solveLoop_num {dt : RDbl M} {model : TwistModel (RDbl M)} (hm : ModelNum model)
    (hdt : Num dt) {ut : List (V3 (RDbl M))} (hu : ∀ u ∈ ut, V3Num u) :
    ∀ (n i : Nat) (x : V3 (RDbl M)) (xs : List (V3 (RDbl M))), V3Num x →
      RungeKutta.solveLoop dt model.f ut n i x = .ok xs → ∀ y ∈ xs, V3Num y := by
  intro n
  induction n with
  | zero =>
    intro i x xs _ h
    simp only [RungeKutta.solveLoop, Res.ok.injEq] at h
    subst h; simp
  | succ n ih =>
    intro i x xs hx h
    simp only [RungeKutta.solveLoop, Res.bind_eq_ok, Res.ok.injEq] at h
    obtain ⟨u, h1, y, h2, rest, h3, rfl⟩ := h
    have hy := step_num hm hdt hx (hu u (List.mem_of_getElem? (col_eq_ok.mp h1))) h2
    have hy' : V3Num ({ y with c2 := normalizeAnglePI y.c2 } : V3 (RDbl M)) :=
      ⟨hy.1, hy.2.1, hy.2.2.wrap⟩
    intro z hz
    rcases List.mem_cons.mp hz with rfl | hz
    · exact hy'
    · exact ih _ _ _ hy' h3 z hz

theorem solve_num {dt horizon : RDbl M} {model : TwistModel (RDbl M)} (hm : ModelNum model)
    (hdt : Num dt) {ut xs : List (V3 (RDbl M))} (hu : ∀ u ∈ ut, V3Num u) {x : V3 (RDbl M)}
    (hx : V3Num x) (h : RungeKutta.solve dt model.f x ut horizon = .ok xs) : ∀ y ∈ xs, V3Num y := by
  simp only [RungeKutta.solve, Res.bind_eq_ok] at h
  obtain ⟨n, -, h⟩ := h
  exact solveLoop_num hm hdt hu _ _ _ _ hx h

theorem solveBackLoop_num {dt : RDbl M} {model : TwistModel (RDbl M)} (hm : ModelNum model)
    (hdt : Num dt) {xt ut edx bdx : List (V3 (RDbl M))} (hx : ∀ u ∈ xt, V3Num u)
    (hu : ∀ u ∈ ut, V3Num u) (he : ∀ u ∈ edx, V3Num u) (hb : ∀ u ∈ bdx, V3Num u) :
    ∀ (n : Nat) (rho : V3 (RDbl M)) (acc rs : List (V3 (RDbl M))), V3Num rho →
      (∀ r ∈ acc, V3Num r) →
      RungeKutta.solveBackLoop dt rhodot model.fdx xt ut edx bdx n rho acc = .ok rs →
      ∀ r ∈ rs, V3Num r := by
  intro n
  induction n with
  | zero =>
    intro rho acc rs _ ha h
    simp only [RungeKutta.solveBackLoop, Res.ok.injEq] at h
    subst h; exact ha
  | succ n ih =>
    intro rho acc rs hr ha h
    simp only [RungeKutta.solveBackLoop, Res.bind_eq_ok] at h
    obtain ⟨e, h1, b, h2, x, h3, u, h4, h⟩ := h
    have key := stepBack_num hdt hr (he e (List.mem_of_getElem? (col_eq_ok.mp h1)))
      (hb b (List.mem_of_getElem? (col_eq_ok.mp h2)))
      (hm.2.1 x u (hx x (List.mem_of_getElem? (col_eq_ok.mp h3)))
        (hu u (List.mem_of_getElem? (col_eq_ok.mp h4))))
    refine ih _ _ _ key ?_ h
    intro r hr
    rcases List.mem_cons.mp hr with rfl | hr
    · exact key
    · exact ha r hr

/-! ## the basis -/

theorem weight_num (hp : PowPositive M) (k : Int × Int) : Num (Basis.weight k : RDbl M) := by
  unfold Basis.weight
  have h0 : (0 : ℝ) ≤ M.rnd ((k.1 * k.1 + k.2 * k.2 : Int) : ℝ) :=
    M.rnd_nonneg (by exact_mod_cast add_nonneg (mul_self_nonneg _) (mul_self_nonneg _))
  have e1 : Flt.sqrt (Flt.ofInt (k.1 * k.1 + k.2 * k.2) : RDbl M) =
      .fin (M.rnd (Real.sqrt (M.rnd ((k.1 * k.1 + k.2 * k.2 : Int) : ℝ)))) := by
    show RDbl.rd M (Dbl.sqrt (Dbl.fin _)) = _
    simp only [Dbl.sqrt]
    rw [if_neg (not_lt.mpr h0)]; rfl
  have e2 : (lit 1 0 : RDbl M) = .fin 1 := by simp
  rw [e1, e2, RDbl.add_fin, RDbl.lit_fin]
  have h1 : (1 : ℝ) ≤ M.rnd (1 + M.rnd (Real.sqrt (M.rnd ((k.1 * k.1 + k.2 * k.2 : Int) : ℝ)))) := by
    have := M.int_le_rnd (n := 1) (by norm_num)
      (x := 1 + M.rnd (Real.sqrt (M.rnd ((k.1 * k.1 + k.2 * k.2 : Int) : ℝ))))
      (by have := M.rnd_nonneg (Real.sqrt_nonneg (M.rnd ((k.1 * k.1 + k.2 * k.2 : Int) : ℝ)))
          push_cast at this ⊢; linarith)
    exact_mod_cast this
  generalize M.rnd (1 + M.rnd (Real.sqrt (M.rnd ((k.1 * k.1 + k.2 * k.2 : Int) : ℝ)))) = b at h1
  have e3 : Flt.pow (.fin b : RDbl M) (.fin (M.rnd (((15 : Int) : ℝ) / 10 ^ 1))) =
      .fin (M.pow b (M.rnd (((15 : Int) : ℝ) / 10 ^ 1))) := by
    show (if b < 0 then Dbl.nan else Dbl.fin _) = _
    rw [if_neg (by linarith)]; rfl
  rw [e3]
  exact Num.div ⟨1, rfl⟩ (hp _ _ h1 (M.rnd_nonneg (by norm_num))).ne'

/-- The basis has finite, nonzero lengths. -/
def BasisNum (b : Basis (RDbl M)) : Prop :=
  (∃ l : ℝ, b.lx = .fin l ∧ l ≠ 0) ∧ ∃ l : ℝ, b.ly = .fin l ∧ l ≠ 0

theorem BasisNum.freq {b : Basis (RDbl M)} (h : BasisNum b) :
    Num (Flt.pi /. b.lx) ∧ Num (Flt.pi /. b.ly) := by
  obtain ⟨⟨l, h1, h2⟩, l', h3, h4⟩ := h
  rw [h1, h3]
  exact ⟨Num.pi.div h2, Num.pi.div h4⟩

theorem fk_num {b : Basis (RDbl M)} (h : BasisNum b) {x : V2 (RDbl M)} (hx : V2Num x)
    (k : Int × Int) : Num (b.fk x k) := by
  obtain ⟨f1, f2⟩ := h.freq
  obtain ⟨h0, h1⟩ := hx
  unfold Basis.fk
  num

theorem dfk_num {b : Basis (RDbl M)} (h : BasisNum b) {x : V2 (RDbl M)} (hx : V2Num x)
    (k : Int × Int) : V2Num (b.dfk x k) := by
  obtain ⟨f1, f2⟩ := h.freq
  obtain ⟨h0, h1⟩ := hx
  constructor <;> unfold Basis.dfk <;> dsimp only <;> num

theorem trajCoeff_num {b : Basis (RDbl M)} (h : BasisNum b) {xt : List (V3 (RDbl M))}
    (hx : ∀ x ∈ xt, V3Num x) (hne : xt ≠ []) : ∀ c ∈ b.trajCoeff xt, Num c := by
  intro c hc
  simp only [Basis.trajCoeff, List.mem_map] at hc
  obtain ⟨k, -, rfl⟩ := hc
  refine .mul ?_ (Num.fsum ?_)
  · rw [RDbl.ofInt_fin]
    refine (Num.lit 1 0).div ?_
    have : (1 : ℝ) ≤ M.rnd ((xt.length : Int) : ℝ) := by
      have h1 : 0 < xt.length := List.length_pos_iff.mpr hne
      have := M.int_le_rnd (n := 1) (by norm_num) (x := ((xt.length : Int) : ℝ))
        (by push_cast; exact_mod_cast h1)
      exact_mod_cast this
    linarith
  · intro y hy
    obtain ⟨x, hx', rfl⟩ := List.mem_map.mp hy
    exact fk_num h ⟨(hx x hx').1, (hx x hx').2.1⟩ k

/-! ## the target -/

theorem expForm_num {G : Gaussian (RDbl M)} (h : GaussNum G) {d : V2 (RDbl M)} (hd : V2Num d) :
    Num (G.expForm d) := by
  obtain ⟨-, ⟨h1, h2⟩, h3, h4⟩ := h
  obtain ⟨d0, d1⟩ := hd
  unfold Gaussian.expForm V2.dot
  dsimp only
  num

theorem evalTrans_num {G : Gaussian (RDbl M)} (h : GaussNum G) {p t : V2 (RDbl M)} (hp : V2Num p)
    (ht : V2Num t) : Num (G.evalTrans p t) := by
  refine expForm_num h ⟨?_, ?_⟩
  · exact hp.1.sub (h.1.1.sub ht.1)
  · exact hp.2.sub (h.1.2.sub ht.2)

theorem evalTrans_nonneg (G : Gaussian (RDbl M)) (p t : V2 (RDbl M)) (v : ℝ)
    (h : G.evalTrans p t = .fin v) : 0 ≤ v := by
  unfold Gaussian.evalTrans Gaussian.expForm at h
  dsimp only at h
  generalize (lit (-5) 1 : RDbl M) *. _ = a at h
  cases a with
  | fin r =>
    have h' : (Dbl.fin (M.exp r)) = Dbl.fin v := h
    rw [← Dbl.fin.inj h']
    exact M.exp_nonneg r
  | nan => exact absurd (show Dbl.nan = Dbl.fin v from h) (by simp)
  | inf s =>
    cases s with
    | true =>
      have h' : Dbl.exp (.inf true) = Dbl.fin v := h
      simp only [Dbl.exp, if_true, Dbl.fin.injEq] at h'
      rw [← h']
    | false =>
      have h' : Dbl.exp (.inf false) = Dbl.fin v := h
      simp [Dbl.exp] at h'

theorem rnd_pos {v : ℝ} (h : 1 / 2 ^ 1000 ≤ v) : 0 < M.rnd v := by
  have h1 := abs_le.mp (M.near v)
  have h0 : (0 : ℝ) < 1 / 2 ^ 1000 := by positivity
  rw [abs_of_pos (h0.trans_le h)] at h1
  have ht := tiny_le 1075 le_rfl
  have h2 : (1 : ℝ) / 2 ^ 1075 ≤ 1 / 2 ^ 1000 * (1 / 2 ^ 75) := by
    rw [one_div_mul_one_div, ← pow_add]
  have h3 : tiny ≤ v * (1 / 2 ^ 75) :=
    (ht.trans h2).trans (mul_le_mul_of_nonneg_right h (by positivity))
  have hv := h0.trans_le h
  have h4 := h1.1
  clear h h0 h1 h2 ht
  norm_num at h3 h4
  linarith

/-- A rounded sum of nonnegative numbers: nonnegative, and positive when started at a positive
machine number or when some term does not underflow. -/
theorem foldl_pos {α : Type} (f : α → RDbl M) (l : List α)
    (h : ∀ a ∈ l, ∃ v : ℝ, f a = .fin v ∧ 0 ≤ v) :
    ∀ s : ℝ, 0 ≤ s → M.rnd s = s →
      ∃ t : ℝ, l.foldl (fun s x => s +. f x) (.fin s) = .fin t ∧ 0 ≤ t ∧ M.rnd t = t ∧
        (0 < s → 0 < t) ∧ ((∃ a ∈ l, ∃ v : ℝ, f a = .fin v ∧ 0 < M.rnd v) → 0 < t) := by
  induction l with
  | nil =>
    intro s hs hr
    exact ⟨s, rfl, hs, hr, id, by simp⟩
  | cons a l ih =>
    intro s hs hr
    obtain ⟨v, hv, hv0⟩ := h a List.mem_cons_self
    rw [List.foldl_cons, hv, RDbl.add_fin]
    obtain ⟨t, h1, h2, h3, h4, h5⟩ := ih (fun b hb => h b (List.mem_cons_of_mem _ hb))
      (M.rnd (s + v)) (M.rnd_nonneg (add_nonneg hs hv0)) (M.idem _)
    refine ⟨t, h1, h2, h3, ?_, ?_⟩
    · intro hs'
      refine h4 (lt_of_lt_of_le hs' ?_)
      have := M.mono (show s ≤ s + v by linarith)
      rwa [hr] at this
    · rintro ⟨b, hb, w, hw, hw0⟩
      rcases List.mem_cons.mp hb with rfl | hb
      · rw [hv] at hw
        obtain rfl := RDbl.fin_inj.mp hw
        exact h4 (hw0.trans_le (M.mono (by linarith)))
      · exact h5 ⟨b, hb, w, hw, hw0⟩

theorem accumList_num {d : RDbl M} (hd : Num d) : ∀ (n : Nat) (s : RDbl M), Num s →
    ∀ x ∈ ErgodicControl.accumList s d n, Num x := by
  intro n
  induction n with
  | zero => intro s _ x hx; simp [ErgodicControl.accumList] at hx
  | succ n ih =>
    intro s hs x hx
    rw [ErgodicControl.accumList, List.mem_cons] at hx
    rcases hx with rfl | hx
    · exact hs
    · exact ih _ (hs.add hd) x hx

theorem phiGrid_num {lx ly res : RDbl M} (hr : Num res) {pts : List (V2 (RDbl M))}
    (h : ErgodicControl.phiGrid lx ly res = .ok pts) : ∀ p ∈ pts, V2Num p := by
  unfold ErgodicControl.phiGrid at h
  simp only [Res.bind_eq_ok] at h
  obtain ⟨nx, -, ny, -, h⟩ := h
  split at h
  · simp at h
  · obtain rfl := Res.ok.inj h
    intro p hp
    simp only [List.mem_flatMap, List.mem_map] at hp
    obtain ⟨y, hy, x, hx, rfl⟩ := hp
    exact ⟨accumList_num hr _ _ (.lit _ _) x hx,
      accumList_num hr _ _ (.lit _ _) y hy⟩

/-- The normalised target values are finite when the target is seen. -/
theorem fill_num {t : Target (RDbl M)} {res : RDbl M} {g : GridMap (RDbl M)}
    (ht : ∀ G ∈ t.gaussians, GaussNum G) (hr : Num res) (hg : MapNum g) (hs : TargetSeen t res g)
    {pts : List (V2 (RDbl M))}
    (h : ErgodicControl.phiGrid (g.xmax -. g.xmin) (g.ymax -. g.ymin) res = .ok pts) :
    ∀ v ∈ t.fill ⟨g.xmin, g.ymin⟩ pts, Num v := by
  have hp := phiGrid_num hr h
  have hpos : V2Num (⟨g.xmin, g.ymin⟩ : V2 (RDbl M)) := ⟨hg.1, hg.2.1⟩
  obtain ⟨p, hpm, G, hG, v, hv, hv0⟩ := hs pts h
  have h0 : (lit 0 0 : RDbl M) = .fin 0 := by simp
  have hev : ∀ q ∈ pts, ∃ s : ℝ, t.evaluate q ⟨g.xmin, g.ymin⟩ = .fin s ∧ 0 ≤ s ∧ M.rnd s = s ∧
      ((∃ G ∈ t.gaussians, ∃ v : ℝ, G.evalTrans q ⟨g.xmin, g.ymin⟩ = .fin v ∧ 0 < M.rnd v) → 0 < s) := by
    intro q hq
    have := foldl_pos (fun G : Gaussian (RDbl M) => G.evalTrans q ⟨g.xmin, g.ymin⟩) t.gaussians
      (fun G hG => by
        obtain ⟨v, hv⟩ := evalTrans_num (ht G hG) (hp q hq) hpos
        exact ⟨v, hv, evalTrans_nonneg _ _ _ _ hv⟩) 0 le_rfl M.rnd_zero
    obtain ⟨s, h1, h2, h3, -, h5⟩ := this
    refine ⟨s, ?_, h2, h3, h5⟩
    unfold Target.evaluate
    rw [h0]; exact h1
  have hsum : ∃ s : ℝ, fsum (pts.map fun q => t.evaluate q ⟨g.xmin, g.ymin⟩) = .fin s ∧ 0 < s := by
    obtain ⟨s, h1, -, -, -, h5⟩ := foldl_pos (fun q : V2 (RDbl M) => t.evaluate q ⟨g.xmin, g.ymin⟩) pts
      (fun q hq => by obtain ⟨s, h1, h2, -⟩ := hev q hq; exact ⟨s, h1, h2⟩) 0 le_rfl M.rnd_zero
    refine ⟨s, ?_, h5 ?_⟩
    · unfold fsum
      rw [List.foldl_map, h0]; exact h1
    · obtain ⟨s, k1, -, k3, k4⟩ := hev p hpm
      exact ⟨p, hpm, s, k1, by rw [k3]; exact k4 ⟨G, hG, v, hv, rnd_pos hv0⟩⟩
  obtain ⟨s, hs1, hs2⟩ := hsum
  intro w hw
  unfold Target.fill at hw
  dsimp only at hw
  rw [hs1] at hw
  obtain ⟨y, hy, rfl⟩ := List.mem_map.mp hw
  obtain ⟨q, hq, rfl⟩ := List.mem_map.mp hy
  obtain ⟨r, hr, -⟩ := hev q hq
  exact Num.div ⟨r, hr⟩ hs2.ne'

/-! ## the controller -/

theorem zipWith_num {α β : Type} (f : α → β → RDbl M) (P : α → Prop) (Q : β → Prop)
    (hf : ∀ a b, P a → Q b → Num (f a b)) : ∀ (l : List α) (r : List β), (∀ a ∈ l, P a) →
    (∀ b ∈ r, Q b) → ∀ c ∈ List.zipWith f l r, Num c := by
  intro l
  induction l with
  | nil => intro r _ _ c hc; simp at hc
  | cons a l ih =>
    intro r hl hr c hc
    cases r with
    | nil => simp at hc
    | cons b r =>
      rw [List.zipWith_cons_cons, List.mem_cons] at hc
      rcases hc with rfl | hc
      · exact hf _ _ (hl a List.mem_cons_self) (hr b List.mem_cons_self)
      · exact ih r (fun a ha => hl a (List.mem_cons_of_mem _ ha))
          (fun b hb => hr b (List.mem_cons_of_mem _ hb)) c hc

theorem barrierAxis_num {x l : RDbl M} (hx : Num x) (hl : Num l) :
    Num (ErgodicControl.barrierAxis x l) := by
  unfold ErgodicControl.barrierAxis
  dsimp only
  num

theorem gradTimes_num {b : Basis (RDbl M)} (h : BasisNum b) {x : V2 (RDbl M)} (hx : V2Num x)
    {w : List (RDbl M)} (hw : ∀ v ∈ w, Num v) : V2Num (ErgodicControl.gradTimes b x w) := by
  have hd : ∀ d ∈ b.gradFourierBasis x, V2Num d := by
    intro d hd
    obtain ⟨k, -, rfl⟩ := List.mem_map.mp hd
    exact dfk_num h hx k
  exact ⟨Num.fsum (zipWith_num _ V2Num Num (fun a b ha hb => ha.1.mul hb) _ _ hd hw),
    Num.fsum (zipWith_num _ V2Num Num (fun a b ha hb => ha.2.mul hb) _ _ hd hw)⟩

/-- What finite inputs keep true of the object. -/
structure EcNum (e : ErgodicControl (RDbl M)) : Prop where
  ut : ∀ u ∈ e.ut, V3Num u
  phik : ∀ c ∈ e.phik, Num c
  pose : V3Num e.pose
  lx : Num e.basis.lx
  ly : Num e.basis.ly
  lamdak : ∀ c ∈ e.basis.lamdak, Num c
  memory : ∀ p ∈ e.buffer.memory, V3Num p.2
  target : ∀ G ∈ e.target.gaussians, GaussNum G

theorem almost_ne {a : ℝ} {l : RDbl M} (hl : Num l) (ha : 1 / 1000 ≤ a)
    (h : almostEqual (.fin a) l = true) : ∃ r : ℝ, l = .fin r ∧ r ≠ 0 := by
  obtain ⟨r, rfl⟩ := hl
  refine ⟨r, rfl, ?_⟩
  rintro rfl
  unfold almostEqual at h
  rw [RDbl.sub_fin, fabs_rd (M.rnd_nonneg (by linarith)), RDbl.lit_fin, RDbl.lt_fin] at h
  have := M.mono (show ((1 : Int) : ℝ) / 10 ^ 12 ≤ a - 0 by norm_num; linarith)
  linarith

/-- After a successful `configTarget` the basis has nonzero lengths and everything is finite. -/
theorem configTarget_num {e ec : ErgodicControl (RDbl M)} {g : GridMap (RDbl M)}
    (he : EcNum e) (hr : Num e.resolution) (hg : MapNum g) (hs : TargetSeen e.target e.resolution g)
    (h : e.configTarget g = .ok ec) : EcNum ec ∧ BasisNum ec.basis := by
  obtain ⟨_, _, ⟨a, ha, ha'⟩, b, hb, hb'⟩ := id hg
  rcases ErgodicControl.configTarget_ok h with ⟨h1, h2, rfl⟩ | ⟨-, grid, phik, hgrid, hp, rfl⟩
  · rw [ha] at h1
    rw [hb] at h2
    exact ⟨⟨he.ut, he.phik, he.pose, he.lx, he.ly, he.lamdak, he.memory, he.target⟩,
      almost_ne he.lx ha' h1, almost_ne he.ly hb' h2⟩
  · have hB : BasisNum ({ e.basis with lx := g.xmax -. g.xmin, ly := g.ymax -. g.ymin } :
        Basis (RDbl M)) := ⟨⟨a, ha, by linarith⟩, b, hb, by linarith⟩
    refine ⟨⟨he.ut, ?_, he.pose, ⟨a, ha⟩, ⟨b, hb⟩, he.lamdak, he.memory, he.target⟩, hB⟩
    have hpts := phiGrid_num hr hgrid
    have hfill := fill_num he.target hr hg hs hgrid
    unfold Basis.spatialCoeff at hp
    split at hp
    · simp at hp
    · obtain rfl := Res.ok.inj hp
      intro c hc
      obtain ⟨k, -, rfl⟩ := List.mem_map.mp hc
      exact Num.fsum (zipWith_num _ V2Num Num (fun p v hp hv => (fk_num hB hp k).mul hv) _ _ hpts hfill)

theorem at'_mem {V : Type} {m : List (Nat × V)} {k : Nat} {v : V}
    (h : ReplayBuffer.at' m k = .ok v) : ∃ p ∈ m, p.2 = v := by
  unfold ReplayBuffer.at' at h
  split at h
  · rename_i p hp
    exact ⟨p, List.mem_of_find?_eq_some hp, Res.ok.inj h⟩
  · simp at h

theorem mapM_mem {α β : Type} (f : α → Res β) (P : β → Prop) (hf : ∀ a b, f a = .ok b → P b) :
    ∀ (l : List α) (r : List β), l.mapM f = .ok r → ∀ b ∈ r, P b := by
  intro l
  induction l with
  | nil =>
    intro r h b hb
    rw [List.mapM_nil] at h
    obtain rfl := Res.ok.inj h
    simp at hb
  | cons a l ih =>
    intro r h b hb
    rw [List.mapM_cons] at h
    obtain ⟨c, h1, h⟩ := Res.bind_eq_ok.mp h
    obtain ⟨rest, h2, h⟩ := Res.bind_eq_ok.mp h
    obtain rfl := Res.ok.inj h
    rcases List.mem_cons.mp hb with rfl | hb
    · exact hf _ _ h1
    · exact ih _ h2 b hb

theorem sampleMemory_num {b : ReplayBuffer (V3 (RDbl M))} {draws : List Nat}
    {xt total : List (V3 (RDbl M))} (hm : ∀ p ∈ b.memory, V3Num p.2) (hx : ∀ x ∈ xt, V3Num x)
    (h : b.sampleMemory draws xt = .ok total) : ∀ x ∈ total, V3Num x := by
  have hat : ∀ k v, ReplayBuffer.at' b.memory k = .ok v → V3Num v := by
    intro k v hv
    obtain ⟨p, hp, rfl⟩ := at'_mem hv
    exact hm p hp
  have hcat : ∀ pre : List (V3 (RDbl M)), (∀ x ∈ pre, V3Num x) →
      ReplayBuffer.concatCols pre xt = .ok total → ∀ x ∈ total, V3Num x := by
    intro pre hp h
    unfold ReplayBuffer.concatCols at h
    split at h
    · simp at h
    · obtain rfl := Res.ok.inj h
      intro x hx'
      rcases List.mem_append.mp hx' with h | h
      · exact hp x h
      · exact hx x h
  unfold ReplayBuffer.sampleMemory at h
  split at h
  · obtain rfl := Res.ok.inj h; exact hx
  · split at h
    · obtain ⟨pre, h1, h2⟩ := Res.bind_eq_ok.mp h
      exact hcat pre (mapM_mem _ _ (fun a b => hat a b) _ _ h1) h2
    · obtain ⟨pre, h1, h2⟩ := Res.bind_eq_ok.mp h
      refine hcat pre (mapM_mem _ _ (fun a b hab => ?_) _ _ h1) h2
      unfold ReplayBuffer.drawAt at hab
      split at hab
      · exact hat _ _ hab
      · simp at hab

theorem clampR_num {v lo hi w : RDbl M} (hv : Num v) (hl : Num lo) (hh : Num hi)
    (h : ErgodicControl.clampR v lo hi = .ok w) : Num w := by
  unfold ErgodicControl.clampR fclamp at h
  split at h
  · simp at h
  · obtain rfl := Res.ok.inj h
    split
    · exact hl
    · split
      · exact hh
      · exact hv

section params
variable {model : TwistModel (RDbl M)} {collision : Collision (RDbl M)}
  {dt horizon resolution weight : RDbl M} {num_basis buffer_size batch_size : Nat}
  {Rinv : M3 (RDbl M)} {umin umax : V3 (RDbl M)} {e0 e e' : ErgodicControl (RDbl M)}
  {g : GridMap (RDbl M)} {x u : V3 (RDbl M)} {draws : List Nat}

theorem newControl_num (hP : ParamsNum model dt horizon resolution weight Rinv umin umax)
    (hi : EcInv model dt horizon resolution weight num_basis buffer_size batch_size Rinv umin umax e)
    {y r v : V3 (RDbl M)} (hy : V3Num y) (hr : V3Num r) (h : e.newControl y r = .ok v) :
    V3Num v := by
  simp only [ErgodicControl.newControl, Res.bind_eq_ok, Res.ok.injEq, hi.Rinv_eq, hi.model_eq,
    hi.umin_eq, hi.umax_eq] at h
  obtain ⟨u0, h0, u1, h1, u2, h2, rfl⟩ := h
  have hn := ((hP.Rinv.neg).mul (hP.model.2.2 y hy).t).mulVec hr
  exact ⟨clampR_num hn.1 hP.umin.1 hP.umax.1 h0, clampR_num hn.2.1 hP.umin.2.1 hP.umax.2.1 h1,
    clampR_num hn.2.2 hP.umin.2.2 hP.umax.2.2 h2⟩

theorem relTo_num (hg : MapNum g) {y : V3 (RDbl M)} (hy : V3Num y) : V3Num (relTo g y) :=
  ⟨hy.1.sub hg.1, hy.2.1.sub hg.2.1, hy.2.2⟩

/-- One call of `control` keeps everything finite. -/
theorem control_num (hP : ParamsNum model dt horizon resolution weight Rinv umin umax)
    (hb : EcBuilt model collision dt horizon resolution weight num_basis buffer_size batch_size Rinv
      umin umax e) (he : EcNum e) (hg : MapNum g) (hs : TargetSeen e.target e.resolution g)
    (hx : V3Num x) (h : e.control g x draws = .ok (e', u)) : EcNum e' := by
  have hi := hb.inv
  obtain ⟨ec, traj, pre, rhot, us, hcfg, h2, hsol, hmem, htl, hback, rfl, hul, hrl, hu0, hnc⟩ :=
    ErgodicControl.control_ok hi.steps h
  have he0 : EcNum { e with pose := x } :=
    ⟨he.ut, he.phik, hx, he.lx, he.ly, he.lamdak, he.memory, he.target⟩
  obtain ⟨hec, hB⟩ := configTarget_num he0 (by rw [hi.resolution_eq]; exact hP.resolution) hg hs hcfg
  have hw : ec.expl_weight = e.expl_weight := by
    obtain ⟨_, _, _, rfl⟩ := ErgodicControl.configTarget_frame hcfg; rfl
  have hut : ∀ v ∈ e.ut.drop 1 ++ [V3.zero], V3Num v := by
    intro v hv
    rcases List.mem_append.mp hv with hv | hv
    · exact he.ut v (List.mem_of_mem_drop hv)
    · rw [List.mem_singleton.mp hv]; exact .zero
  rw [hi.dt_eq, hi.model_eq] at hsol
  have htraj := solve_num hP.model hP.dt hut hx hsol
  have htot := sampleMemory_num he.memory htraj hmem
  have hmap : ∀ l : List (V3 (RDbl M)), (∀ y ∈ l, V3Num y) → ∀ y ∈ l.map (relTo g), V3Num y := by
    intro l hl y hy
    obtain ⟨z, hz, rfl⟩ := List.mem_map.mp hy
    exact relTo_num hg (hl z hz)
  have hne : (pre ++ traj).map (relTo g) ≠ [] := by
    have := hi.ut_length
    intro hc
    have hl := congrArg List.length hc
    simp only [List.length_map, List.length_append, List.length_nil] at hl
    omega
  have hck := trajCoeff_num hB (hmap _ htot) hne
  have hdiff := zipWith_num (fun l d : RDbl M => l *. d) Num Num (fun _ _ => Num.mul) ec.basis.lamdak
    _ hec.lamdak (zipWith_num (fun c p : RDbl M => c -. p) Num Num (fun _ _ => Num.sub)
      (ec.basis.trajCoeff ((pre ++ traj).map (relTo g))) ec.phik hck hec.phik)
  have hedx : ∀ y ∈ ec.gradErgodicMetric (ec.basis.trajCoeff ((pre ++ traj).map (relTo g)))
      (traj.map (relTo g)), V3Num y := by
    intro y hy
    obtain ⟨z, hz, rfl⟩ := List.mem_map.mp hy
    have hz' := hmap _ htraj z hz
    have hd := gradTimes_num hB (x := z.xy) ⟨hz'.1, hz'.2.1⟩ hdiff
    have hw' : Num ec.expl_weight := by rw [hw, hi.weight_eq]; exact hP.weight
    exact ⟨hd.1.mul hw', hd.2.mul hw', .lit _ _⟩
  have hbdx : ∀ y ∈ ec.gradBarrier (traj.map (relTo g)), V3Num y := by
    intro y hy
    obtain ⟨z, hz, rfl⟩ := List.mem_map.mp hy
    have hz' := hmap _ htraj z hz
    exact ⟨barrierAxis_num hz'.1 hec.lx, barrierAxis_num hz'.2.1 hec.ly, .lit _ _⟩
  rw [hi.dt_eq, hi.model_eq, hi.rhoT_eq] at hback
  simp only [RungeKutta.solveBack, Res.bind_eq_ok] at hback
  obtain ⟨n, -, hback⟩ := hback
  have hrho := solveBackLoop_num hP.model hP.dt (hmap _ htraj) hut hedx hbdx _ _ _ _ .zero
    (by simp) hback
  refine ⟨?_, hec.phik, hec.pose, hec.lx, hec.ly, hec.lamdak, hec.memory, hec.target⟩
  intro v hv
  obtain ⟨i, hi', rfl⟩ := List.getElem_of_mem hv
  have hi' : i < us.length := hi'
  have e1 : (traj.map (relTo g))[i]? = some (relTo g traj[i]) := by
    rw [List.getElem?_map, List.getElem?_eq_getElem (by omega)]; rfl
  obtain ⟨w, hw1, hw2⟩ := hnc i _ rhot[i] e1 (by simp)
  have : us[i] = w := by
    rw [List.getElem?_eq_getElem hi', Option.some.injEq] at hw1; exact hw1
  show V3Num us[i]
  rw [this]
  exact newControl_num hP hi (relTo_num hg (htraj _ (List.getElem_mem _)))
    (hrho _ (List.getElem_mem _)) hw2

/-- A freshly constructed object is finite. -/
theorem new_num (hp : PowPositive M)
    (h : ErgodicControl.new model collision dt horizon resolution weight num_basis buffer_size
      batch_size Rinv umin umax = .ok e0) : EcNum e0 := by
  simp only [ErgodicControl.new, Res.bind_eq_ok] at h
  obtain ⟨steps, -, h⟩ := h
  split at h
  · simp at h
  · obtain rfl := Res.ok.inj h
    refine ⟨?_, ?_, .zero, .lit _ _, .lit _ _, ?_, by simp, by simp⟩
    · intro u hu; rw [List.eq_of_mem_replicate hu]; exact .zero
    · intro u hu; rw [List.eq_of_mem_replicate hu]; exact .lit _ _
    · intro c hc
      obtain ⟨k, -, rfl⟩ := List.mem_map.mp hc
      exact weight_num hp k

theorem FiniteHistory.reach (h : FiniteHistory e0 e) : EcReach e0 e := by
  induction h with
  | start => exact .start
  | control g x draws _ _ _ _ hc ih => exact .control g x draws ih hc
  | addStateMemory x _ _ ih => exact .addStateMemory x ih
  | setTarget t _ _ ih => exact .setTarget t ih

theorem append_num {b : ReplayBuffer (V3 (RDbl M))} {y : V3 (RDbl M)}
    (hb : ∀ p ∈ b.memory, V3Num p.2) (hy : V3Num y) : ∀ p ∈ (b.append y).memory, V3Num p.2 := by
  unfold ReplayBuffer.append ReplayBuffer.emplace
  split
  · split
    · exact hb
    · intro p hp
      rcases List.mem_append.mp hp with hp | hp
      · exact hb p hp
      · rw [List.mem_singleton.mp hp]; exact hy
  · exact hb

theorem FiniteHistory.num (hp : PowPositive M)
    (hP : ParamsNum model dt horizon resolution weight Rinv umin umax)
    (h0 : ErgodicControl.new model collision dt horizon resolution weight num_basis buffer_size
      batch_size Rinv umin umax = .ok e0) (h : FiniteHistory e0 e) : EcNum e := by
  induction h with
  | start => exact new_num hp h0
  | control g x draws hr hg hs hx hc ih => exact control_num hP ⟨e0, h0, hr.reach⟩ ih hg hs hx hc
  | addStateMemory x _ hx ih =>
    exact ⟨ih.ut, ih.phik, ih.pose, ih.lx, ih.ly, ih.lamdak, append_num ih.memory hx, ih.target⟩
  | setTarget t _ ht ih => exact ⟨ih.ut, ih.phik, ih.pose, ih.lx, ih.ly, ih.lamdak, ih.memory, ht⟩

/-- `u` is a finite twist within the limits -/
def FiniteWithin (lo hi u : V3 (RDbl M)) : Prop :=
  ∃ a b c l0 l1 l2 h0 h1 h2 : ℝ, u = ⟨.fin a, .fin b, .fin c⟩ ∧
    lo = ⟨.fin l0, .fin l1, .fin l2⟩ ∧ hi = ⟨.fin h0, .fin h1, .fin h2⟩ ∧
    (l0 ≤ a ∧ a ≤ h0) ∧ (l1 ≤ b ∧ b ≤ h1) ∧ l2 ≤ c ∧ c ≤ h2

theorem finiteWithin {lo hi v : V3 (RDbl M)} (hl : V3Num lo) (hh : V3Num hi) (hv : V3Num v)
    (h : NotOutside lo v hi) : FiniteWithin lo hi v := by
  obtain ⟨l0, l1, l2⟩ := lo
  obtain ⟨h0, h1, h2⟩ := hi
  obtain ⟨a, b, c⟩ := v
  obtain ⟨⟨l0, rfl⟩, ⟨l1, rfl⟩, l2, rfl⟩ := hl
  obtain ⟨⟨h0, rfl⟩, ⟨h1, rfl⟩, h2, rfl⟩ := hh
  obtain ⟨⟨a, rfl⟩, ⟨b, rfl⟩, c, rfl⟩ := hv
  simp only [NotOutside, RDbl.lt_fin_false] at h
  exact ⟨a, b, c, l0, l1, l2, h0, h1, h2, rfl, rfl, rfl, h.1, h.2.1, h.2.2⟩

/-- C96: whatever finite calls came before, the twist returned by `control` and every stored column
are finite and within the limits; with every rounding and every mathematical library. -/
theorem C96_finite_within (hp : PowPositive M)
    (hP : ParamsNum model dt horizon resolution weight Rinv umin umax)
    (h0 : ErgodicControl.new model collision dt horizon resolution weight num_basis buffer_size
      batch_size Rinv umin umax = .ok e0) (hh : FiniteHistory e0 e) (hg : MapNum g)
    (hs : TargetSeen e.target resolution g) (hx : V3Num x)
    (h : e.control g x draws = .ok (e', u)) :
    FiniteWithin umin umax u ∧ ∀ v ∈ e'.ut, FiniteWithin umin umax v := by
  have hb : EcBuilt model collision dt horizon resolution weight num_basis buffer_size batch_size
    Rinv umin umax e := ⟨e0, h0, hh.reach⟩
  have hn := control_num hP hb (hh.num hp hP h0) hg (by rw [hb.inv.resolution_eq]; exact hs) hx h
  have hall : ∀ v ∈ e'.ut, FiniteWithin umin umax v := fun v hv =>
    finiteWithin hP.umin hP.umax (hn.ut v hv) ((C59_not_outside hb h).2 v hv)
  obtain ⟨n, us, traj, rhot, -, -, -, -, -, -, -, -, -, -, -, hu, -⟩ := C60_receding hb h
  exact ⟨hall u (List.mem_of_getElem? hu), hall⟩

/-- C96: the trajectory handed to validation and to the visualisation is finite as well. -/
theorem C96_finite_trajectory (hp : PowPositive M)
    (hP : ParamsNum model dt horizon resolution weight Rinv umin umax)
    (h0 : ErgodicControl.new model collision dt horizon resolution weight num_basis buffer_size
      batch_size Rinv umin umax = .ok e0) (hh : FiniteHistory e0 e) :
    (∀ xs, e.optTraj = .ok xs → ∀ y ∈ xs, V3Num y) ∧
    ∀ frame p, e.path frame = .ok p → ∀ q ∈ p.poses,
      Num q.px ∧ Num q.py ∧ Num q.qx ∧ Num q.qy ∧ Num q.qz ∧ Num q.qw := by
  have hb : EcBuilt model collision dt horizon resolution weight num_basis buffer_size batch_size
    Rinv umin umax e := ⟨e0, h0, hh.reach⟩
  have hn := hh.num hp hP h0
  have hi := hb.inv
  have hso : ∀ xs, RungeKutta.solve e.dt e.model.f e.pose e.ut e.horizon = .ok xs →
      ∀ y ∈ xs, V3Num y := by
    intro xs hxs
    rw [hi.dt_eq, hi.model_eq] at hxs
    exact solve_num hP.model hP.dt hn.ut hn.pose hxs
  refine ⟨hso, ?_⟩
  intro frame p h q hq
  simp only [ErgodicControl.path, Res.bind_eq_ok, Res.ok.injEq] at h
  obtain ⟨xs, hxs, rfl⟩ := h
  obtain ⟨y, hy, rfl⟩ := List.mem_map.mp hq
  have hy' := hso xs hxs y hy
  have h2 : (lit 2 0 : RDbl M) = .fin 2 := by simp
  have hh2 : Num (normalizeAnglePI y.c2 /. lit 2 0) := by
    rw [h2]; exact hy'.2.2.wrap.div (by norm_num)
  exact ⟨hy'.1, hy'.2.1, .lit _ _, .lit _ _, hh2.sin, hh2.cos⟩

/-! ## a call succeeds -/

theorem axisLength_rd {l res : ℝ} (hl : 1 / 1000 ≤ l) (hr : 0 < res) (h : l ≤ 2 ^ 14 * res) :
    ∃ n : UInt32, axisLength (lit 0 0) (.fin l : RDbl M) (.fin res) = .ok n ∧ n.toNat ≤ 2 ^ 15 := by
  have e0 : (lit 0 0 : RDbl M) = .fin 0 := by simp
  unfold axisLength
  rw [e0, RDbl.sub_fin, sub_zero, RDbl.div_fin _ hr.ne', RDbl.round_fin]
  have h0 : 0 ≤ M.rnd l := M.rnd_nonneg (by linarith)
  have h1 : M.rnd l ≤ 2 * l := by
    have h1 := (abs_le.mp (M.near l)).2
    rw [abs_of_pos (by linarith)] at h1
    have := tiny_le 20 (by norm_num)
    norm_num at this h1 ⊢
    linarith
  have q0 : 0 ≤ M.rnd (M.rnd l / res) := M.rnd_nonneg (div_nonneg h0 hr.le)
  have q1 : M.rnd (M.rnd l / res) ≤ 2 ^ 15 := by
    have := M.rnd_le_int (n := 2 ^ 15) (by norm_num) (x := M.rnd l / res)
      (by rw [div_le_iff₀ hr]; push_cast; nlinarith)
    exact_mod_cast this
  generalize M.rnd (M.rnd l / res) = q at q0 q1
  have hr' : realRound q = ((⌊q + 1 / 2⌋₊ : Nat) : ℝ) := by
    unfold realRound
    rw [if_pos q0]
    rw [natCast_floor_eq_intCast_floor (by positivity)]
  have hn : ⌊q + 1 / 2⌋₊ ≤ 2 ^ 15 := by
    rw [← Nat.lt_add_one_iff, Nat.floor_lt (by positivity)]
    push_cast; norm_num at q1 ⊢; linarith
  rw [hr', castU32_rd (n := ⌊q + 1 / 2⌋₊) (by omega) le_rfl (by linarith)]
  refine ⟨_, rfl, ?_⟩
  rw [UInt32.toNat_ofNat_of_lt' (by unfold UInt32.size; omega)]
  exact hn

theorem phiGrid_rd {lx ly res : ℝ} (hx : 1 / 1000 ≤ lx) (hy : 1 / 1000 ≤ ly) (hr : 0 < res)
    (h1 : lx ≤ 2 ^ 14 * res) (h2 : ly ≤ 2 ^ 14 * res) :
    ∃ pts, ErgodicControl.phiGrid (.fin lx : RDbl M) (.fin ly) (.fin res) = .ok pts ∧
      ⟨lit 0 0, lit 0 0⟩ ∈ pts := by
  obtain ⟨nx, ex, hnx⟩ := axisLength_rd (M := M) hx hr h1
  obtain ⟨ny, ey, hny⟩ := axisLength_rd (M := M) hy hr h2
  unfold ErgodicControl.phiGrid
  rw [ex, Res.ok_bind, ey, Res.ok_bind]
  have t1 : (nx + 1).toNat = nx.toNat + 1 := by
    rw [UInt32.toNat_add, show UInt32.toNat 1 = 1 from rfl, Nat.mod_eq_of_lt (by omega)]
  have t2 : (ny + 1).toNat = ny.toNat + 1 := by
    rw [UInt32.toNat_add, show UInt32.toNat 1 = 1 from rfl, Nat.mod_eq_of_lt (by omega)]
  have t3 : (nx.toNat + 1) * (ny.toNat + 1) < 2 ^ 32 :=
    lt_of_le_of_lt (Nat.mul_le_mul (Nat.succ_le_succ hnx) (Nat.succ_le_succ hny)) (by norm_num)
  dsimp only
  rw [if_neg (by rw [UInt32.toNat_mul, t1, t2, Nat.mod_eq_of_lt t3]; omega), t1, t2]
  refine ⟨_, rfl, ?_⟩
  simp only [List.mem_flatMap, List.mem_map]
  exact ⟨lit 0 0, by simp [ErgodicControl.accumList], lit 0 0, by simp [ErgodicControl.accumList], rfl⟩

/-- The map has at most `2^14` target cells per side. -/
def GridSmall (g : GridMap (RDbl M)) (resolution : RDbl M) : Prop :=
  ∃ a b r : ℝ, g.xmax -. g.xmin = .fin a ∧ g.ymax -. g.ymin = .fin b ∧ resolution = .fin r ∧
    0 < r ∧ a ≤ 2 ^ 14 * r ∧ b ≤ 2 ^ 14 * r

theorem configTarget_total_rd (hr : e.resolution = resolution) (hg : MapNum g)
    (hgs : GridSmall g resolution) : ∃ ec, e.configTarget g = .ok ec := by
  obtain ⟨_, _, ⟨a, ha, ha'⟩, b, hb, hb'⟩ := hg
  obtain ⟨a2, b2, r, e1, e2, e3, h1, h2, h3⟩ := hgs
  rw [ha] at e1
  rw [hb] at e2
  obtain rfl := RDbl.fin_inj.mp e1
  obtain rfl := RDbl.fin_inj.mp e2
  obtain ⟨pts, hp, -⟩ := phiGrid_rd (M := M) ha' hb' h1 h2 h3
  unfold ErgodicControl.configTarget
  dsimp only
  rw [hr, ha, hb, e3, hp, Res.ok_bind]
  split
  · exact ⟨_, rfl⟩
  · unfold Basis.spatialCoeff
    rw [if_neg (by simp [Target.fill]), Res.ok_bind]
    exact ⟨_, rfl⟩

theorem columns_within (hp : PowPositive M)
    (hP : ParamsNum model dt horizon resolution weight Rinv umin umax)
    (h0 : ErgodicControl.new model collision dt horizon resolution weight num_basis buffer_size
      batch_size Rinv umin umax = .ok e0) (hh : FiniteHistory e0 e) :
    ∀ v ∈ e.ut, v = V3.zero ∨ FiniteWithin umin umax v := by
  intro v hv
  rcases columns_always ⟨e0, h0, hh.reach⟩ v hv with h | h
  · exact Or.inl h
  · exact Or.inr (finiteWithin hP.umin hP.umax ((hh.num hp hP h0).ut v hv) h)

/-- C96 for the omnidirectional robot: a call with finite inputs returns, and the twist is finite
and within the limits. -/
theorem C96_omni (hp : PowPositive M)
    (hP : ParamsNum omniModel dt horizon resolution weight Rinv umin umax)
    (h0 : ErgodicControl.new omniModel collision dt horizon resolution weight num_basis buffer_size
      batch_size Rinv umin umax = .ok e0) (hh : FiniteHistory e0 e) (hn : 2 ≤ e.steps.toNat)
    (hg : MapNum g) (hgs : GridSmall g resolution) (hs : TargetSeen e.target resolution g)
    (hx : V3Num x) (hd : draws.length = batch_size) (hr : ∀ r ∈ draws, r < e.buffer.memory.length)
    (h1 : Flt.lt umax.c0 umin.c0 = false) (h2 : Flt.lt umax.c1 umin.c1 = false)
    (h3 : Flt.lt umax.c2 umin.c2 = false) :
    ∃ e' u, e.control g x draws = .ok (e', u) ∧ FiniteWithin umin umax u ∧ FiniteHistory e0 e' := by
  have hb : EcBuilt omniModel collision dt horizon resolution weight num_basis buffer_size batch_size
    Rinv umin umax e := ⟨e0, h0, hh.reach⟩
  have hre := hb.inv.resolution_eq
  obtain ⟨e', u, hc⟩ := C60_total (x := x) hb hn (fun y v _ => ⟨_, rfl⟩)
    (configTarget_total_rd hre hg hgs) hd hr h1 h2 h3
  exact ⟨e', u, hc, (C96_finite_within hp hP h0 hh hg hs hx hc).1,
    .control g x draws hh hg (by rw [hre]; exact hs) hx hc⟩

/-- C96 for the cart with zero lateral limits: a call with finite inputs returns a finite twist
within the limits; rounding never produces a lateral velocity the model would throw on. -/
theorem C96_cart (hp : PowPositive M)
    (hP : ParamsNum cartModel dt horizon resolution weight Rinv umin umax)
    (h0 : ErgodicControl.new cartModel collision dt horizon resolution weight num_basis buffer_size
      batch_size Rinv umin umax = .ok e0) (hh : FiniteHistory e0 e) (hn : 2 ≤ e.steps.toNat)
    (hg : MapNum g) (hgs : GridSmall g resolution) (hs : TargetSeen e.target resolution g)
    (hx : V3Num x) (hd : draws.length = batch_size) (hr : ∀ r ∈ draws, r < e.buffer.memory.length)
    (h1 : Flt.lt umax.c0 umin.c0 = false) (h2 : umin.c1 = .fin 0 ∧ umax.c1 = .fin 0)
    (h3 : Flt.lt umax.c2 umin.c2 = false) :
    ∃ e' u, e.control g x draws = .ok (e', u) ∧ FiniteWithin umin umax u ∧ u.c1 = .fin 0 ∧
      FiniteHistory e0 e' := by
  have hb : EcBuilt cartModel collision dt horizon resolution weight num_basis buffer_size batch_size
    Rinv umin umax e := ⟨e0, h0, hh.reach⟩
  have hre := hb.inv.resolution_eq
  have hlat : ∀ v, FiniteWithin umin umax v → v.c1 = .fin 0 := by
    rintro v ⟨a, b, c, l0, l1, l2, u0, u1, u2, rfl, rfl, rfl, -, ⟨k1, k2⟩, -⟩
    have e1 := RDbl.fin_inj.mp h2.1
    have e2 := RDbl.fin_inj.mp h2.2
    rw [e1] at k1
    rw [e2] at k2
    rw [le_antisymm k2 k1]
  have hz : (lit 0 0 : RDbl M) = .fin 0 := by simp
  have hf : ∀ y : V3 (RDbl M), ∀ v ∈ V3.zero :: e.ut,
      ∃ d, (cartModel : TwistModel (RDbl M)).f y v = .ok d := by
    intro y v hv
    have hv0 : v.c1 = .fin 0 := by
      rcases List.mem_cons.mp hv with rfl | hv
      · exact hz
      · rcases columns_within hp hP h0 hh v hv with rfl | hv
        · exact hz
        · exact hlat v hv
    refine ⟨⟨v.c0 *. Flt.cos y.c2, v.c0 *. Flt.sin y.c2, v.c2⟩, ?_⟩
    show SimpleCart.f y v = _
    unfold SimpleCart.f
    rw [if_neg]
    rw [not_not, hv0, hz]
    unfold almostEqual
    rw [RDbl.sub_fin, sub_zero, M.rnd_zero, fabs_rd le_rfl, RDbl.lit_fin, RDbl.lt_fin]
    refine rnd_pos ?_
    have : (1 : ℝ) / 2 ^ 1000 ≤ 1 / 2 ^ 40 :=
      one_div_le_one_div_of_le (by positivity) (pow_le_pow_right₀ (by norm_num) (by norm_num))
    refine this.trans ?_
    norm_num
  obtain ⟨e', u, hc⟩ := C60_total (x := x) hb hn hf (configTarget_total_rd hre hg hgs) hd hr h1
    (by rw [h2.1, h2.2, RDbl.lt_fin_false]) h3
  have hw := (C96_finite_within hp hP h0 hh hg hs hx hc).1
  exact ⟨e', u, hc, hw, hlat u hw, .control g x draws hh hg (by rw [hre]; exact hs) hx hc⟩

end params

/-! ## an object to which the theorems apply -/

theorem ieee_pow : PowPositive ieee := by
  intro x y hx hy
  have := ieee.int_le_rnd (n := 1) (by norm_num) (x := x ^ y)
    (by rw [Int.cast_one]; exact Real.one_le_rpow hx hy)
  exact lt_of_lt_of_le (by norm_num) this

/-- A target with one Gaussian at the corner of the map below. -/
noncomputable def cornerTarget : Target (RDbl ieee) :=
  ⟨[⟨⟨.fin 0, .fin 0⟩, ⟨⟨.fin 1, .fin 0⟩, ⟨.fin 0, .fin 1⟩⟩, ⟨⟨.fin 1, .fin 0⟩, ⟨.fin 0, .fin 1⟩⟩⟩]⟩

/-- A map of one square metre. -/
noncomputable def metreMap : GridMap (RDbl ieee) :=
  { xsize := 1, ysize := 1, resolution := .fin 1, xmin := .fin 0, xmax := .fin 1, ymin := .fin 0,
    ymax := .fin 1, data := [0] }

theorem metreMap_num : MapNum metreMap := by
  refine ⟨⟨0, rfl⟩, ⟨0, rfl⟩, ⟨1, ?_, by norm_num⟩, 1, ?_, by norm_num⟩ <;>
  · show (RDbl.fin 1 : RDbl ieee) -. .fin 0 = _
    rw [RDbl.sub_fin, sub_zero, ieee.rnd_one]

theorem corner_seen : TargetSeen cornerTarget (.fin 1) metreMap := by
  intro pts h
  obtain ⟨-, -, ⟨a, ha, ha'⟩, b, hb, hb'⟩ := metreMap_num
  have hm : (RDbl.fin 1 : RDbl ieee) -. .fin 0 = .fin 1 := by
    rw [RDbl.sub_fin, sub_zero, ieee.rnd_one]
  have hx : metreMap.xmax -. metreMap.xmin = .fin 1 := hm
  have hy : metreMap.ymax -. metreMap.ymin = .fin 1 := hm
  obtain ⟨pts', hp, h0⟩ := phiGrid_rd (M := ieee) (lx := 1) (ly := 1) (res := 1) (by norm_num)
    (by norm_num) (by norm_num) (by norm_num) (by norm_num)
  rw [hx, hy, hp] at h
  obtain rfl := Res.ok.inj h
  refine ⟨_, h0, _, List.mem_singleton.mpr rfl, 1, ?_, ?_⟩
  · have hz : (lit 0 0 : RDbl ieee) = .fin 0 := by simp
    simp only [Gaussian.evalTrans, Gaussian.expForm, V2.sub, V2.dot, metreMap, hz, RDbl.sub_fin,
      RDbl.mul_fin, RDbl.add_fin, RDbl.lit_fin, RDbl.exp_fin, sub_zero, mul_zero, zero_mul, add_zero,
      ieee.rnd_zero]
    show RDbl.fin (Ieee.rnd (Real.exp 0)) = _
    rw [Real.exp_zero]
    exact congrArg _ ieee.rnd_one
  · rw [div_le_iff₀ (by positivity), one_mul]
    exact one_le_pow₀ (by norm_num)

theorem metre_x : metreMap.xmax -. metreMap.xmin = .fin 1 := by
  show (RDbl.fin 1 : RDbl ieee) -. .fin 0 = _
  rw [RDbl.sub_fin, sub_zero, ieee.rnd_one]

theorem metre_y : metreMap.ymax -. metreMap.ymin = .fin 1 := metre_x

theorem metre_small : GridSmall metreMap (.fin 1) :=
  ⟨1, 1, 1, metre_x, metre_y, rfl, by norm_num, by norm_num, by norm_num⟩

theorem demo_params : ParamsNum (M := ieee) omniModel (.fin 1) (.fin 3) (.fin 1) (.fin 1)
    ⟨⟨.fin 1, .fin 0, .fin 0⟩, ⟨.fin 0, .fin 1, .fin 0⟩, ⟨.fin 0, .fin 0, .fin 1⟩⟩
    ⟨.fin (-1), .fin (-1), .fin (-1)⟩ ⟨.fin 1, .fin 1, .fin 1⟩ :=
  ⟨omni_num, ⟨_, rfl⟩, ⟨_, rfl⟩, ⟨_, rfl⟩, ⟨_, rfl⟩,
    ⟨⟨⟨_, rfl⟩, ⟨_, rfl⟩, _, rfl⟩, ⟨⟨_, rfl⟩, ⟨_, rfl⟩, _, rfl⟩, ⟨_, rfl⟩, ⟨_, rfl⟩, _, rfl⟩,
    ⟨⟨_, rfl⟩, ⟨_, rfl⟩, _, rfl⟩, ⟨⟨_, rfl⟩, ⟨_, rfl⟩, _, rfl⟩⟩

/-- A controller of three steps with limits of one, a target set and one pose remembered. -/
theorem demo_rd (t : Target (RDbl ieee)) (hT : ∀ G ∈ t.gaussians, GaussNum G) :
    ∃ e0 : ErgodicControl (RDbl ieee),
      ErgodicControl.new omniModel ⟨.fin 1, .fin 1, .fin 1, .fin 1⟩ (.fin 1) (.fin 3) (.fin 1) (.fin 1) 3
        4 2 ⟨⟨.fin 1, .fin 0, .fin 0⟩, ⟨.fin 0, .fin 1, .fin 0⟩, ⟨.fin 0, .fin 0, .fin 1⟩⟩
        ⟨.fin (-1), .fin (-1), .fin (-1)⟩ ⟨.fin 1, .fin 1, .fin 1⟩ = .ok e0 ∧ e0.basis.lx = .fin 0 ∧
      FiniteHistory e0 ((e0.setTarget t).addStateMemory ⟨.fin (1 / 2), .fin (1 / 2), .fin 0⟩) ∧
      2 ≤ ((e0.setTarget t).addStateMemory ⟨.fin (1 / 2), .fin (1 / 2), .fin 0⟩).steps.toNat ∧
      ∀ r ∈ [0, 0], r < ((e0.setTarget t).addStateMemory
        ⟨.fin (1 / 2), .fin (1 / 2), .fin 0⟩).buffer.memory.length := by
  have hst : numSteps (.fin 3 : RDbl ieee) (.fin 1) = .ok 3 := by
    unfold numSteps
    have h3 := ieee.int 3 (by norm_num)
    rw [RDbl.div_fin _ one_ne_zero, div_one]
    norm_num at h3
    rw [h3, fabs_rd (by norm_num)]
    exact castU32_rd (n := 3) (by norm_num) (by norm_num) (by norm_num)
  obtain ⟨e0, h0⟩ := (C66_throws_iff (omniModel : TwistModel (RDbl ieee)) ⟨.fin 1, .fin 1, .fin 1, .fin 1⟩
    (.fin 1) (.fin 3) (.fin 1) (.fin 1) 3 4 2
    ⟨⟨.fin 1, .fin 0, .fin 0⟩, ⟨.fin 0, .fin 1, .fin 0⟩, ⟨.fin 0, .fin 0, .fin 1⟩⟩
    ⟨.fin (-1), .fin (-1), .fin (-1)⟩ ⟨.fin 1, .fin 1, .fin 1⟩ 3 hst).2 (by decide)
  have hx : V3Num (⟨.fin (1 / 2), .fin (1 / 2), .fin 0⟩ : V3 (RDbl ieee)) := ⟨⟨_, rfl⟩, ⟨_, rfl⟩, _, rfl⟩
  have hm0 : e0.buffer = { buffer_size := 4, batch_size := 2 } ∧ e0.steps = 3 ∧
      e0.basis.lx = lit 0 0 := by
    have h0 := h0
    unfold ErgodicControl.new at h0
    rw [hst, Res.ok_bind, if_neg (by decide)] at h0
    rw [← Res.ok.inj h0]
    exact ⟨rfl, rfl, rfl⟩
  refine ⟨e0, h0, by rw [hm0.2.2]; simp, .addStateMemory _ (.setTarget _ .start hT) hx, ?_, ?_⟩
  · show 2 ≤ e0.steps.toNat
    rw [hm0.2.1]; decide
  · intro r hr
    have : r = 0 := by simpa using hr
    subst this
    simp [ErgodicControl.addStateMemory, ErgodicControl.setTarget, hm0.1, ReplayBuffer.append,
      ReplayBuffer.emplace]

/-- The hypotheses hold together: that controller with the Gaussian above; its first call on the
square metre returns a finite twist within the limits. -/
example : ∃ (e0 e e' : ErgodicControl (RDbl ieee)) (u : V3 (RDbl ieee)),
    FiniteHistory e0 e ∧ e.target = cornerTarget ∧
    e.control metreMap ⟨.fin (1 / 2), .fin (1 / 2), .fin 0⟩ [0, 0] = .ok (e', u) ∧
    FiniteWithin ⟨.fin (-1), .fin (-1), .fin (-1)⟩ ⟨.fin 1, .fin 1, .fin 1⟩ u := by
  obtain ⟨e0, h0, -, hh, hn, hr⟩ := demo_rd cornerTarget (by
    intro G hG
    rw [List.mem_singleton.mp hG]
    exact ⟨⟨⟨_, rfl⟩, _, rfl⟩, ⟨⟨_, rfl⟩, _, rfl⟩, ⟨_, rfl⟩, _, rfl⟩)
  obtain ⟨e', u, hc, hu, -⟩ := C96_omni (g := metreMap) (x := ⟨.fin (1 / 2), .fin (1 / 2), .fin 0⟩)
    (draws := [0, 0]) ieee_pow demo_params h0 hh hn metreMap_num metre_small corner_seen
    ⟨⟨_, rfl⟩, ⟨_, rfl⟩, _, rfl⟩ rfl hr (by rw [RDbl.lt_fin_false]; norm_num)
    (by rw [RDbl.lt_fin_false]; norm_num) (by rw [RDbl.lt_fin_false]; norm_num)
  exact ⟨e0, _, e', u, hh, rfl, hc, hu⟩

/-! ## a target out of sight -/

section nan

theorem add_nan_rd (a : RDbl M) : a +. (.nan : RDbl M) = .nan := by
  show RDbl.rd M (Dbl.add a .nan) = _
  cases a <;> rfl
theorem nan_add_rd (a : RDbl M) : (.nan : RDbl M) +. a = .nan := by
  show RDbl.rd M (Dbl.add .nan a) = _
  cases a <;> rfl
theorem sub_nan_rd (a : RDbl M) : a -. (.nan : RDbl M) = .nan := by
  show RDbl.rd M (Dbl.add a (Dbl.neg .nan)) = _
  cases a <;> rfl
theorem nan_sub_rd (a : RDbl M) : (.nan : RDbl M) -. a = .nan := by
  show RDbl.rd M (Dbl.add .nan (Dbl.neg a)) = _
  cases a <;> rfl
theorem mul_nan_rd (a : RDbl M) : a *. (.nan : RDbl M) = .nan := by
  show RDbl.rd M (Dbl.mul a .nan) = _
  cases a <;> rfl
theorem nan_mul_rd (a : RDbl M) : (.nan : RDbl M) *. a = .nan := by
  show RDbl.rd M (Dbl.mul .nan a) = _
  cases a <;> rfl
theorem neg_nan_rd : ~-. (.nan : RDbl M) = .nan := rfl
theorem lt_nan_rd (a : RDbl M) : Flt.lt (.nan : RDbl M) a = false := by
  show Dbl.lt .nan a = _
  cases a <;> rfl
theorem nan_lt_rd (a : RDbl M) : Flt.lt a (.nan : RDbl M) = false := by
  show Dbl.lt a .nan = _
  cases a <;> rfl

theorem fsum_nan_rd {l : List (RDbl M)} (h : ∃ v ∈ l, v = .nan) : fsum l = .nan := by
  have key : ∀ (l : List (RDbl M)) (a : RDbl M), a = .nan ∨ (∃ v ∈ l, v = .nan) →
      l.foldl (fun s x => s +. x) a = .nan := by
    intro l
    induction l with
    | nil => intro a h; simpa using h
    | cons y l ih =>
      intro a h
      rw [List.foldl_cons]
      apply ih
      rcases h with rfl | ⟨v, hv, rfl⟩
      · left; exact nan_add_rd _
      · rcases List.mem_cons.mp hv with rfl | hv
        · left; exact add_nan_rd _
        · exact Or.inr ⟨_, hv, rfl⟩
  exact key l _ (Or.inr h)

theorem stepBack_nan_rd (dt c : RDbl M) (rho b : V3 (RDbl M)) (A : M3 (RDbl M)) :
    RungeKutta.stepBack dt rhodot rho ⟨.nan, .nan, c⟩ b A = ⟨.nan, .nan, .nan⟩ := by
  simp [RungeKutta.stepBack, rhodot, V3.sub, V3.neg, V3.smul, V3.add, M3.mulVec, M3.t, V3.dot,
    add_nan_rd, nan_add_rd, sub_nan_rd, nan_sub_rd, mul_nan_rd, neg_nan_rd]

theorem clampR_nan_rd {lo hi w : RDbl M} (h : ErgodicControl.clampR .nan lo hi = .ok w) : w = .nan := by
  unfold ErgodicControl.clampR fclamp at h
  rw [lt_nan_rd, nan_lt_rd] at h
  split at h
  · simp at h
  · simpa using h.symm

variable {model : TwistModel (RDbl M)} {collision : Collision (RDbl M)}
  {dt horizon resolution weight : RDbl M} {num_basis buffer_size batch_size : Nat}
  {Rinv : M3 (RDbl M)} {umin umax : V3 (RDbl M)} {e0 e e' : ErgodicControl (RDbl M)}
  {g : GridMap (RDbl M)} {x u : V3 (RDbl M)} {draws : List Nat}

/-- If the gradient of the ergodic metric is NaN, the controller commands and stores NaN. -/
theorem control_nan_of_grad
    (hb : EcBuilt model collision dt horizon resolution weight num_basis
      buffer_size batch_size Rinv umin umax e) (h : e.control g x draws = .ok (e', u))
    (hgrad : ∀ ck xt, ck.length = num_basis * num_basis → ∀ eg ∈ e'.gradErgodicMetric ck xt,
      ∃ c, eg = ⟨.nan, .nan, c⟩) :
    u = ⟨.nan, .nan, .nan⟩ ∧ ∀ v ∈ e'.ut, v = ⟨.nan, .nan, .nan⟩ := by
  have hall : ∀ v ∈ e'.ut, v = ⟨.nan, .nan, .nan⟩ := by
    obtain ⟨us, traj, pre, rhot, -, -, -, hback, hrl, hul, hc⟩ := C65_columns hb h
    have hi := (hb.control h).inv
    obtain ⟨lx, ly, hbas⟩ := hi.basis_eq
    have hrho : ∀ r ∈ rhot, r = ⟨.nan, .nan, .nan⟩ := by
      obtain ⟨n, -, hrn, hs⟩ := C52_structure _ _ _ _ _ _ _ _ _ _ hback
      intro r hr
      obtain ⟨i, hilt, rfl⟩ := List.getElem_of_mem hr
      obtain ⟨eg, b, y, w, he, -, -, -, hri⟩ := hs i (by omega)
      obtain ⟨c, rfl⟩ := hgrad _ _ (by
        rw [Basis.trajCoeff, List.length_map, hbas]
        exact (C39_enumeration (RDbl M) lx ly num_basis).1) eg (List.mem_of_getElem? he)
      rw [stepBack_nan_rd, List.getElem?_eq_getElem hilt, Option.some.injEq] at hri
      exact hri
    intro v hv
    obtain ⟨i, hilt, rfl⟩ := List.getElem_of_mem hv
    obtain ⟨w, hw, hw'⟩ := hc i traj[i] rhot[i] (by simp) (by simp)
    rw [List.getElem?_eq_getElem hilt, Option.some.injEq] at hw
    rw [hw]
    rw [hrho _ (List.getElem_mem _)] at hw'
    simp only [ErgodicControl.newControl, Res.bind_eq_ok, Res.ok.injEq, M3.mulVec, V3.dot, mul_nan_rd,
      nan_add_rd] at hw'
    obtain ⟨u0, h0, u1, h1, u2, h2, rfl⟩ := hw'
    rw [clampR_nan_rd h0, clampR_nan_rd h1, clampR_nan_rd h2]
  obtain ⟨n, us, traj, rhot, -, -, -, -, -, -, -, -, -, -, -, hu, -⟩ := C60_receding hb h
  exact ⟨hall u (List.mem_of_getElem? hu), hall⟩

theorem control_nan_rd (hn : 0 < num_basis)
    (hb : EcBuilt model collision dt horizon resolution weight num_basis
      buffer_size batch_size Rinv umin umax e) (h : e.control g x draws = .ok (e', u))
    (hk : ∀ v ∈ e'.phik, v = .nan) :
    u = ⟨.nan, .nan, .nan⟩ ∧ ∀ v ∈ e'.ut, v = ⟨.nan, .nan, .nan⟩ := by
  have hi := (hb.control h).inv
  obtain ⟨lx, ly, hbas⟩ := hi.basis_eq
  refine control_nan_of_grad hb h fun ck xt hck eg he => ?_
  simp only [ErgodicControl.gradErgodicMetric, List.mem_map] at he
  obtain ⟨p, -, rfl⟩ := he
  have hdiff : ∀ v ∈ List.zipWith (fun l d => l *. d) e'.basis.lamdak
      (List.zipWith (fun c p => c -. p) ck e'.phik), v = RDbl.nan := by
    intro v hv
    obtain ⟨j, hj, rfl⟩ := List.getElem_of_mem hv
    simp only [List.getElem_zipWith]
    rw [hk _ (List.getElem_mem _), sub_nan_rd, mul_nan_rd]
  have hlen : (List.zipWith (fun l d => l *. d) e'.basis.lamdak
      (List.zipWith (fun c p => c -. p) ck e'.phik)).length = num_basis * num_basis := by
    have h1 : e'.basis.lamdak.length = num_basis * num_basis := by
      rw [hbas]; exact (C39_enumeration (RDbl M) lx ly num_basis).2.2.2
    simp [h1, hck, hi.phik_length]
  generalize List.zipWith (fun l d => l *. d) e'.basis.lamdak
      (List.zipWith (fun c p => c -. p) ck e'.phik) = diff at hdiff hlen
  have hg : ∀ q : V2 (RDbl M), ErgodicControl.gradTimes e'.basis q diff = ⟨.nan, .nan⟩ := by
    intro q
    have hdl : (e'.basis.gradFourierBasis q).length = num_basis * num_basis := by
      rw [Basis.gradFourierBasis, List.length_map, hbas]
      exact (C39_enumeration (RDbl M) lx ly num_basis).1
    have hpos : 0 < num_basis * num_basis := Nat.mul_pos hn hn
    have hz : ∀ (f : V2 (RDbl M) → RDbl M → RDbl M), (∀ d, f d .nan = .nan) →
        fsum (List.zipWith f (e'.basis.gradFourierBasis q) diff) = .nan := by
      intro f hf
      apply fsum_nan_rd
      have h0 : 0 < (List.zipWith f (e'.basis.gradFourierBasis q) diff).length := by
        rw [List.length_zipWith]; omega
      refine ⟨_, List.getElem_mem h0, ?_⟩
      rw [List.getElem_zipWith, hdiff _ (List.getElem_mem _), hf]
    simp only [ErgodicControl.gradTimes]
    rw [hz _ (fun d => mul_nan_rd _), hz _ (fun d => mul_nan_rd _)]
  exact ⟨lit 0 0, by simp only [hg, nan_mul_rd]⟩

theorem fill_nan_rd (t : Target (RDbl M)) (tr : V2 (RDbl M)) (grid : List (V2 (RDbl M)))
    (h : ∀ p ∈ grid, ∀ G ∈ t.gaussians, G.evalTrans p tr = .fin 0) :
    ∀ v ∈ t.fill tr grid, v = .nan := by
  have hz : (lit 0 0 : RDbl M) = .fin 0 := by simp
  have hfold : ∀ {α : Type} (f : α → RDbl M) (l : List α), (∀ a ∈ l, f a = .fin 0) →
      l.foldl (fun s x => s +. f x) (.fin 0) = .fin 0 := by
    intro α f l
    induction l with
    | nil => intro _; rfl
    | cons a l ih =>
      intro hl
      rw [List.foldl_cons, hl a List.mem_cons_self, RDbl.add_fin, add_zero, M.rnd_zero]
      exact ih fun b hb => hl b (List.mem_cons_of_mem _ hb)
  have hev : ∀ p ∈ grid, t.evaluate p tr = .fin 0 := by
    intro p hp
    unfold Target.evaluate
    rw [hz]
    exact hfold (fun G : Gaussian (RDbl M) => G.evalTrans p tr) _ (h p hp)
  have hs : fsum (grid.map fun p => t.evaluate p tr) = .fin 0 := by
    unfold fsum
    rw [List.foldl_map, hz]
    exact hfold (fun p => t.evaluate p tr) _ hev
  intro v hv
  unfold Target.fill at hv
  dsimp only at hv
  rw [hs] at hv
  obtain ⟨y, hy, rfl⟩ := List.mem_map.mp hv
  obtain ⟨p, hp, rfl⟩ := List.mem_map.mp hy
  rw [hev p hp]
  show RDbl.rd M (Dbl.div (.fin 0) (.fin 0)) = _
  have := Dbl.zero_div_zero
  have h' : Dbl.div (.fin 0) (.fin 0) = Dbl.nan := this
  rw [h']; rfl

/-- C96: the target must be in sight.  When every Gaussian underflows at every grid point (or there
is none) and the size of the map is new, `control` commands and stores NaN. -/
theorem C96_out_of_sight (hn : 0 < num_basis)
    (hb : EcBuilt model collision dt horizon resolution weight num_basis
      buffer_size batch_size Rinv umin umax e) (h : e.control g x draws = .ok (e', u))
    (hsize : almostEqual (g.xmax -. g.xmin) e.basis.lx = false ∨
      almostEqual (g.ymax -. g.ymin) e.basis.ly = false) (pts : List (V2 (RDbl M)))
    (hg : ErgodicControl.phiGrid (g.xmax -. g.xmin) (g.ymax -. g.ymin) resolution = .ok pts)
    (hne : pts ≠ [])
    (hz : ∀ p ∈ pts, ∀ G ∈ e.target.gaussians, G.evalTrans p ⟨g.xmin, g.ymin⟩ = .fin 0) :
    u = ⟨.nan, .nan, .nan⟩ ∧ ∀ v ∈ e'.ut, v = ⟨.nan, .nan, .nan⟩ := by
  apply control_nan_rd hn hb h
  have hi := hb.inv
  obtain ⟨ec, traj, pre, rhot, us, hcfg, -, -, -, -, -, rfl, -, -, -, -⟩ :=
    ErgodicControl.control_ok hi.steps h
  rcases ErgodicControl.configTarget_ok hcfg with ⟨h1, h2, -⟩ | ⟨-, grid, phik, hgr, hp, rfl⟩
  · exfalso
    rcases hsize with hs | hs
    · exact absurd h1 (by simpa using hs)
    · exact absurd h2 (by simpa using hs)
  · intro v hv
    rw [show ({ e with pose := x } : ErgodicControl (RDbl M)).resolution = e.resolution from rfl,
      hi.resolution_eq, hg, Res.ok.injEq] at hgr
    subst hgr
    have hnan := fill_nan_rd e.target ⟨g.xmin, g.ymin⟩ pts hz
    have hlen : (e.target.fill ⟨g.xmin, g.ymin⟩ pts).length = pts.length := by simp [Target.fill]
    unfold Basis.spatialCoeff at hp
    rw [if_neg (by rw [hlen]; omega), Res.ok.injEq] at hp
    rw [show ErgodicControl.phik _ = phik from rfl, ← hp] at hv
    obtain ⟨k, -, rfl⟩ := List.mem_map.mp hv
    apply fsum_nan_rd
    have hpos : 0 < pts.length := List.length_pos_iff.mpr hne
    have h0 : 0 < (List.zipWith (fun p v => ({ e.basis with
        lx := g.xmax -. g.xmin, ly := g.ymax -. g.ymin } : Basis (RDbl M)).fk p k *. v) pts
        (e.target.fill ⟨g.xmin, g.ymin⟩ pts)).length := by
      rw [List.length_zipWith]; omega
    refine ⟨_, List.getElem_mem h0, ?_⟩
    rw [List.getElem_zipWith, hnan _ (List.getElem_mem _), mul_nan_rd]

end nan

/-- Underflow: the binary64 value of `exp` is zero below `-1075`. -/
theorem ieee_exp_zero {t : ℝ} (h : t ≤ -1075) : ieee.exp t = 0 := by
  show Ieee.rnd (Real.exp t) = 0
  have hp := Real.exp_pos t
  have h1 : Real.exp t < 2 ^ (-1075 : ℤ) := by
    have h2 : Real.exp t ≤ Real.exp (-1075) := Real.exp_le_exp.mpr h
    refine h2.trans_lt ?_
    have e1 : Real.exp (-1075) = (Real.exp 1 ^ 1075)⁻¹ := by
      rw [← Real.exp_nat_mul, ← Real.exp_neg]; norm_num
    rw [e1, zpow_neg]
    have h3 : (2 : ℝ) ^ 1075 < Real.exp 1 ^ 1075 :=
      pow_lt_pow_left₀ (by have := Real.exp_one_gt_d9; linarith) (by norm_num) (by norm_num)
    exact inv_strictAnti₀ (by positivity) (by exact_mod_cast h3)
  have he : Ieee.expo (Real.exp t) = -1074 := by
    refine le_antisymm (Ieee.expo_lt hp.ne' le_rfl ?_) (Ieee.expo_ge _)
    rw [abs_of_pos hp]
    exact h1.trans (zpow_lt_zpow_right₀ (by norm_num) (by norm_num))
  unfold Ieee.rnd
  rw [he]
  have hq : Real.exp t / 2 ^ (-1074 : ℤ) < 1 / 2 := by
    rw [div_lt_iff₀ (by positivity)]
    refine h1.trans_eq ?_
    rw [show (-1075 : ℤ) = -1074 - 1 by norm_num, zpow_sub_one₀ (by norm_num)]
    ring
  have hq0 : 0 < Real.exp t / 2 ^ (-1074 : ℤ) := by positivity
  have hf : ⌊Real.exp t / 2 ^ (-1074 : ℤ)⌋ = 0 := by
    rw [Int.floor_eq_iff]; constructor <;> push_cast <;> linarith
  unfold Ieee.roundEven
  rw [hf, if_pos (by push_cast; linarith)]
  simp

theorem axisLength_one : axisLength (lit 0 0) (.fin 1 : RDbl ieee) (.fin 1) = .ok 1 := by
  have hz : (lit 0 0 : RDbl ieee) = .fin 0 := by simp
  unfold axisLength
  rw [hz, RDbl.sub_fin, sub_zero, ieee.rnd_one, RDbl.div_fin _ one_ne_zero, div_one, ieee.rnd_one,
    RDbl.round_fin]
  have : realRound 1 = 1 := by
    have := realRound_natCast 1
    simpa using this
  rw [this]
  exact castU32_rd (n := 1) (by norm_num) (by norm_num) (by norm_num)

/-- The target grid of the square metre: its four corners. -/
theorem metre_grid : ErgodicControl.phiGrid (.fin 1 : RDbl ieee) (.fin 1) (.fin 1) =
    .ok [⟨.fin 0, .fin 0⟩, ⟨.fin 1, .fin 0⟩, ⟨.fin 0, .fin 1⟩, ⟨.fin 1, .fin 1⟩] := by
  have hz : (lit 0 0 : RDbl ieee) = .fin 0 := by simp
  unfold ErgodicControl.phiGrid
  rw [axisLength_one, Res.ok_bind, Res.ok_bind]
  dsimp only
  rw [if_neg (by decide), show ((1 : UInt32) + 1).toNat = 2 from rfl]
  have ha : ErgodicControl.accumList (lit 0 0 : RDbl ieee) (.fin 1) 2 = [.fin 0, .fin 1] := by
    simp only [ErgodicControl.accumList, hz, RDbl.add_fin, zero_add, ieee.rnd_one]
  rw [ha]
  rfl

/-- A target with one Gaussian of one metre, a hundred metres away in both directions. -/
noncomputable def farTarget : Target (RDbl ieee) :=
  ⟨[⟨⟨.fin 100, .fin 100⟩, ⟨⟨.fin 1, .fin 0⟩, ⟨.fin 0, .fin 1⟩⟩, ⟨⟨.fin 1, .fin 0⟩, ⟨.fin 0, .fin 1⟩⟩⟩]⟩

theorem far_zero (a b : ℤ) (ha : a = 0 ∨ a = 1) (hb : b = 0 ∨ b = 1) :
    ∀ G ∈ farTarget.gaussians, G.evalTrans ⟨.fin a, .fin b⟩ ⟨.fin 0, .fin 0⟩ = .fin 0 := by
  intro G hG
  rw [List.mem_singleton.mp hG]
  have r : ∀ n : ℤ, |n| ≤ 2 ^ 53 → ieee.rnd n = n := ieee.int
  have h5 : ieee.rnd (((-5 : Int) : ℝ) / 10 ^ 1) = -1 / 2 := by
    show Ieee.rnd _ = _
    rw [Ieee.rnd_rep (-1) (-1) (by norm_num) (by norm_num) (by norm_num)]
    norm_num
  have e100 : (100 : ℝ) = ((100 : ℤ) : ℝ) := by norm_num
  have e0 : ieee.rnd ((100 : ℝ) - 0) = 100 := by
    rw [sub_zero, e100]; exact r _ (by norm_num)
  have ea : ieee.rnd ((a : ℝ) - 100) = ((a - 100 : ℤ) : ℝ) := by
    have := r (a - 100) (by rcases ha with rfl | rfl <;> norm_num)
    rw [← this]; push_cast; rfl
  have eb : ieee.rnd ((b : ℝ) - 100) = ((b - 100 : ℤ) : ℝ) := by
    have := r (b - 100) (by rcases hb with rfl | rfl <;> norm_num)
    rw [← this]; push_cast; rfl
  have ra : ieee.rnd (((a - 100 : ℤ) : ℝ)) = ((a - 100 : ℤ) : ℝ) :=
    r _ (by rcases ha with rfl | rfl <;> norm_num)
  have rb : ieee.rnd (((b - 100 : ℤ) : ℝ)) = ((b - 100 : ℤ) : ℝ) :=
    r _ (by rcases hb with rfl | rfl <;> norm_num)
  have rab : ieee.rnd (((a - 100 : ℤ) : ℝ) * ((a - 100 : ℤ) : ℝ)) = (((a - 100) * (a - 100) : ℤ) : ℝ) := by
    rw [← Int.cast_mul]; exact r _ (by rcases ha with rfl | rfl <;> norm_num)
  have rbb : ieee.rnd (((b - 100 : ℤ) : ℝ) * ((b - 100 : ℤ) : ℝ)) = (((b - 100) * (b - 100) : ℤ) : ℝ) := by
    rw [← Int.cast_mul]; exact r _ (by rcases hb with rfl | rfl <;> norm_num)
  have rs : ieee.rnd ((((a - 100) * (a - 100) : ℤ) : ℝ) + (((b - 100) * (b - 100) : ℤ) : ℝ)) =
      (((a - 100) * (a - 100) + (b - 100) * (b - 100) : ℤ) : ℝ) := by
    rw [← Int.cast_add]
    exact r _ (by rcases ha with rfl | rfl <;> rcases hb with rfl | rfl <;> norm_num)
  simp only [Gaussian.evalTrans, Gaussian.expForm, V2.sub, V2.dot, RDbl.sub_fin, RDbl.mul_fin,
    RDbl.add_fin, RDbl.lit_fin, RDbl.exp_fin, e0, ea, eb, mul_one, mul_zero, ieee.rnd_zero, ra, rb,
    add_zero, zero_add, rab, rbb, rs, h5]
  rw [ieee_exp_zero]
  have hm : ieee.rnd (-1 / 2 * (((a - 100) * (a - 100) + (b - 100) * (b - 100) : ℤ) : ℝ)) ≤
      ((-1075 : ℤ) : ℝ) := by
    refine ieee.rnd_le_int (by norm_num) ?_
    rcases ha with rfl | rfl <;> rcases hb with rfl | rfl <;> norm_num
  exact_mod_cast hm

/-- C96: such a target makes the robot command NaN in every component, in binary64 with a correctly
rounded library, although every input is finite. -/
theorem C96_far_target : ∃ (e0 e e' : ErgodicControl (RDbl ieee)) (u : V3 (RDbl ieee)),
    ErgodicControl.new omniModel ⟨.fin 1, .fin 1, .fin 1, .fin 1⟩ (.fin 1) (.fin 3) (.fin 1) (.fin 1) 3
      4 2 ⟨⟨.fin 1, .fin 0, .fin 0⟩, ⟨.fin 0, .fin 1, .fin 0⟩, ⟨.fin 0, .fin 0, .fin 1⟩⟩
      ⟨.fin (-1), .fin (-1), .fin (-1)⟩ ⟨.fin 1, .fin 1, .fin 1⟩ = .ok e0 ∧
    FiniteHistory e0 e ∧ e.target = farTarget ∧ MapNum metreMap ∧
    e.control metreMap ⟨.fin (1 / 2), .fin (1 / 2), .fin 0⟩ [0, 0] = .ok (e', u) ∧
    u = ⟨.nan, .nan, .nan⟩ := by
  obtain ⟨e0, h0, hlx, hh, hn, hr⟩ := demo_rd farTarget (by
    intro G hG
    rw [List.mem_singleton.mp hG]
    exact ⟨⟨⟨_, rfl⟩, _, rfl⟩, ⟨⟨_, rfl⟩, _, rfl⟩, ⟨_, rfl⟩, _, rfl⟩)
  have hb : EcBuilt _ _ _ _ _ _ _ _ _ _ _ _ _ := ⟨e0, h0, hh.reach⟩
  obtain ⟨e', u, hc⟩ := C60_total (g := metreMap) (x := ⟨.fin (1 / 2), .fin (1 / 2), .fin 0⟩)
    (draws := [0, 0]) hb hn (fun y v _ => ⟨_, rfl⟩)
    (configTarget_total_rd hb.inv.resolution_eq metreMap_num metre_small) rfl hr
    (by rw [RDbl.lt_fin_false]; norm_num) (by rw [RDbl.lt_fin_false]; norm_num)
    (by rw [RDbl.lt_fin_false]; norm_num)
  refine ⟨e0, _, e', u, h0, hh, rfl, metreMap_num, hc, ?_⟩
  have hsize : almostEqual (metreMap.xmax -. metreMap.xmin) e0.basis.lx = false := by
    rw [metre_x, hlx]
    unfold almostEqual
    rw [RDbl.sub_fin, sub_zero, ieee.rnd_one, fabs_rd (by norm_num), RDbl.lit_fin, RDbl.lt_fin_false]
    have := ieee.mono (show ((1 : Int) : ℝ) / 10 ^ 12 ≤ 1 by norm_num)
    rwa [ieee.rnd_one] at this
  have hfar : ∀ p ∈ ([⟨.fin 0, .fin 0⟩, ⟨.fin 1, .fin 0⟩, ⟨.fin 0, .fin 1⟩, ⟨.fin 1, .fin 1⟩] :
      List (V2 (RDbl ieee))), ∀ G ∈ farTarget.gaussians,
      G.evalTrans p ⟨metreMap.xmin, metreMap.ymin⟩ = .fin 0 := by
    intro p hp
    simp only [List.mem_cons, List.not_mem_nil, or_false] at hp
    rcases hp with rfl | rfl | rfl | rfl
    · have := far_zero 0 0 (Or.inl rfl) (Or.inl rfl)
      rwa [Int.cast_zero] at this
    · have := far_zero 1 0 (Or.inr rfl) (Or.inl rfl)
      rwa [Int.cast_zero, Int.cast_one] at this
    · have := far_zero 0 1 (Or.inl rfl) (Or.inr rfl)
      rwa [Int.cast_zero, Int.cast_one] at this
    · have := far_zero 1 1 (Or.inr rfl) (Or.inr rfl)
      rwa [Int.cast_one] at this
  exact (C96_out_of_sight (by norm_num) hb hc (Or.inl hsize)
    [⟨.fin 0, .fin 0⟩, ⟨.fin 1, .fin 0⟩, ⟨.fin 0, .fin 1⟩, ⟨.fin 1, .fin 1⟩]
    (by rw [metre_x, metre_y]; exact metre_grid) (by simp) hfar).1

end Ergodic
