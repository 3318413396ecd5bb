import Verif.Spec.Mirror
import Verif.Props.Translation
import Verif.Props.Images
import Verif.Props.Rk45

/-!
# Property C132: the controller in the mirror

Exact arithmetic.
-/

namespace Ergodic
open Real

/-! ## Computations that end alike -/

theorem Alike.bind {α β γ δ : Type} {R : α → β → Prop} {S : γ → δ → Prop} {a : Res α} {b : Res β}
    {f : α → Res γ} {g : β → Res δ} (h : Alike R a b) (hf : ∀ x y, R x y → Alike S (f x) (g y)) :
    Alike S (a >>= f) (b >>= g) := by
  cases a <;> cases b <;> first
    | exact hf _ _ h
    | exact h
    | exact h.elim

theorem Alike.same {α γ δ : Type} {S : γ → δ → Prop} {a : Res α} {f : α → Res γ} {g : α → Res δ}
    (hf : ∀ x, a = .ok x → Alike S (f x) (g x)) : Alike S (a >>= f) (a >>= g) := by
  cases a with
  | ok x => exact hf x rfl
  | throw e => exact rfl
  | ub => trivial
  | timeout => trivial

theorem Alike.mono {α β : Type} {R S : α → β → Prop} {a : Res α} {b : Res β} (h : Alike R a b)
    (hs : ∀ x y, R x y → S x y) : Alike S a b := by
  cases a <;> cases b <;> first
    | exact hs _ _ h
    | exact h

theorem Alike.mapM {ι α β : Type} {R : α → β → Prop} {f : ι → Res α} {g : ι → Res β} :
    ∀ {l : List ι}, (∀ i ∈ l, Alike R (f i) (g i)) → Alike (List.Forall₂ R) (l.mapM f) (l.mapM g)
  | [], _ => List.Forall₂.nil
  | i :: l, h => by
    rw [List.mapM_cons, List.mapM_cons]
    refine (h i (List.mem_cons_self ..)).bind fun x y hxy => ?_
    refine (Alike.mapM fun j hj => h j (List.mem_cons_of_mem _ hj)).bind fun xs ys hs => ?_
    exact List.Forall₂.cons hxy hs

namespace Mirror
variable (m : Mirror)

theorem sx_sq : m.sx * m.sx = 1 := by unfold sx; split <;> norm_num
theorem sy_sq : m.sy * m.sy = 1 := by unfold sy; split <;> norm_num
theorem sx_cases : m.sx = 1 ∨ m.sx = -1 := by unfold sx; split <;> simp
theorem sy_cases : m.sy = 1 ∨ m.sy = -1 := by unfold sy; split <;> simp
theorem turn_cases : m.turn = 1 ∨ m.turn = -1 := by
  unfold turn
  rcases m.sx_cases with h | h <;> rcases m.sy_cases with h' | h' <;> rw [h, h'] <;> norm_num
theorem turn_sq : m.turn * m.turn = 1 := by
  rcases m.turn_cases with h | h <;> rw [h] <;> norm_num
theorem turn_one (h : m.fx = m.fy) : m.turn = 1 := by
  unfold turn sx sy
  rw [h]
  split <;> norm_num

/-! ## Motion -/

theorem vec_add (a b : V3 ℝ) : m.vec (a.add b) = (m.vec a).add (m.vec b) := by
  ext <;> simp only [vec, V3.add, real_add] <;> ring

theorem vec_sub (a b : V3 ℝ) : m.vec (a.sub b) = (m.vec a).sub (m.vec b) := by
  ext <;> simp only [vec, V3.sub, real_sub] <;> ring

theorem vec_smul (s : ℝ) (a : V3 ℝ) : m.vec (V3.smul s a) = V3.smul s (m.vec a) := by
  ext <;> simp only [vec, V3.smul, real_mul] <;> ring

/-- What moves like its mirror image stays one. -/
theorem poses_add {m : Mirror} {x x' : V3 ℝ} (h : m.Poses x x') (v : V3 ℝ) :
    m.Poses (x.add v) (x'.add (m.vec v)) := by
  obtain ⟨h0, h1, h2, h3⟩ := h
  refine ⟨?_, ?_, ?_, ?_⟩
  · simp only [V3.add, vec, real_add, h0]; ring
  · simp only [V3.add, vec, real_add, h1]; ring
  all_goals
    simp only [V3.add, vec, real_add, cos_add, sin_add, h2, h3, turn]
    rcases m.sx_cases with a | a <;> rcases m.sy_cases with b | b <;> rw [a, b] <;>
      norm_num <;> ring

theorem poses_heading {m : Mirror} {x x' : V3 ℝ} (h : m.Poses x x') :
    m.Poses { x with c2 := normalizeAnglePI x.c2 } { x' with c2 := normalizeAnglePI x'.c2 } := by
  obtain ⟨h0, h1, h2, h3⟩ := h
  have key (r : ℝ) : cos (normalizeAnglePI r) = cos r ∧ sin (normalizeAnglePI r) = sin r := by
    obtain ⟨k, hk⟩ := C13_same_direction r
    rw [hk]
    constructor
    · rw [← Real.cos_add_int_mul_two_pi r k]
    · rw [← Real.sin_add_int_mul_two_pi r k]
  exact ⟨h0, h1, by rw [(key _).1, (key _).1, h2], by rw [(key _).2, (key _).2, h3]⟩

/-- A model that treats mirrored states and twists as mirror images. -/
structure Model (m : Mirror) (M : TwistModel ℝ) : Prop where
  f : ∀ {x x' : V3 ℝ}, m.Poses x x' → ∀ u, Alike (fun d d' => d' = m.vec d) (M.f x u) (M.f x' (m.twist u))
  fdx : ∀ {x x' : V3 ℝ}, m.Poses x x' → ∀ u v, (M.fdx x' (m.twist u)).t.mulVec (m.vec v) = m.vec ((M.fdx x u).t.mulVec v)
  fdu : ∀ {x x' : V3 ℝ}, m.Poses x x' → ∀ v, (M.fdu x').t.mulVec (m.vec v) = m.twist ((M.fdu x).t.mulVec v)

theorem model_omni : m.Model omniModel where
  f := by
    intro x x' h u
    show Omni.f x' (m.twist u) = m.vec (Omni.f x u)
    obtain ⟨-, -, h2, h3⟩ := h
    ext <;> simp only [Omni.f, twist, vec, real_add, real_sub, real_mul, real_cos, real_sin, h2, h3, turn] <;>
      rcases m.sx_cases with a | a <;> rcases m.sy_cases with b | b <;> rw [a, b] <;> ring
  fdx := by
    intro x x' h u v
    obtain ⟨-, -, h2, h3⟩ := h
    ext <;> simp only [omniModel, Omni.fdx, M3.t, M3.mulVec, V3.dot, twist, vec, real_add, real_sub, real_mul,
        real_neg, real_cos, real_sin, real_lit, h2, h3, turn] <;>
      rcases m.sx_cases with a | a <;> rcases m.sy_cases with b | b <;> rw [a, b] <;> norm_num <;> ring
  fdu := by
    intro x x' h v
    obtain ⟨-, -, h2, h3⟩ := h
    ext <;> simp only [omniModel, Omni.fdu, M3.t, M3.mulVec, V3.dot, twist, vec, real_add, real_mul,
        real_neg, real_cos, real_sin, real_lit, h2, h3, turn] <;>
      rcases m.sx_cases with a | a <;> rcases m.sy_cases with b | b <;> rw [a, b] <;> norm_num <;> ring

theorem model_cart : m.Model cartModel where
  f := by
    intro x x' h u
    obtain ⟨-, -, h2, h3⟩ := h
    show Alike _ (SimpleCart.f x u) (SimpleCart.f x' (m.twist u))
    unfold SimpleCart.f
    have e : almostEqual (m.twist u).c1 (lit 0 0 : ℝ) = almostEqual u.c1 (lit 0 0) := by
      rw [Bool.eq_iff_iff, real_almostEqual_eps, real_almostEqual_eps]
      simp only [twist, real_lit, Int.cast_zero, zero_div, sub_zero]
      rcases m.turn_cases with a | a <;> rw [a] <;> simp
    rw [e]
    split
    · rfl
    · show _ = _
      ext <;> simp only [twist, vec, real_mul, real_cos, real_sin, h2, h3] <;> ring
  fdx := by
    intro x x' h u v
    obtain ⟨-, -, h2, h3⟩ := h
    ext <;> simp only [cartModel, SimpleCart.fdx, M3.t, M3.mulVec, V3.dot, twist, vec, real_add, real_mul,
        real_neg, real_cos, real_sin, real_lit, h2, h3, turn] <;>
      rcases m.sx_cases with a | a <;> rcases m.sy_cases with b | b <;> rw [a, b] <;> norm_num <;> ring
  fdu := by
    intro x x' h v
    obtain ⟨-, -, h2, h3⟩ := h
    ext <;> simp only [cartModel, SimpleCart.fdu, M3.t, M3.mulVec, V3.dot, twist, vec, real_add, real_mul,
        real_cos, real_sin, real_lit, h2, h3, turn] <;>
      rcases m.sx_cases with a | a <;> rcases m.sy_cases with b | b <;> rw [a, b] <;> norm_num <;> ring

variable {m}

theorem rk4_step {M : TwistModel ℝ} (hM : m.Model M) (dt : ℝ) {x x' : V3 ℝ} (h : m.Poses x x') (u : V3 ℝ) :
    Alike m.Poses (RungeKutta.step dt M.f x u) (RungeKutta.step dt M.f x' (m.twist u)) := by
  unfold RungeKutta.step
  refine (hM.f h u).bind ?_
  rintro k1 _ rfl
  rw [← m.vec_smul, ← m.vec_smul]
  refine (hM.f (poses_add h _) u).bind ?_
  rintro k2 _ rfl
  rw [← m.vec_smul, ← m.vec_smul]
  refine (hM.f (poses_add h _) u).bind ?_
  rintro k3 _ rfl
  rw [← m.vec_smul]
  refine (hM.f (poses_add h _) u).bind ?_
  rintro k4 _ rfl
  show m.Poses _ _
  rw [← m.vec_smul, ← m.vec_smul, ← m.vec_add, ← m.vec_add, ← m.vec_add, ← m.vec_smul]
  exact poses_add h _

theorem col_map {α β : Type} (f : α → β) (l : List α) (i : Nat) :
    Alike (fun a b => b = f a) (col l i) (col (l.map f) i) := by
  unfold col
  rw [List.getElem?_map]
  cases l[i]? <;> exact rfl

theorem col_forall₂ {α β : Type} {R : α → β → Prop} {l : List α} {l' : List β} (h : List.Forall₂ R l l') :
    ∀ i : Nat, Alike R (col l i) (col l' i) := by
  induction h with
  | nil => intro i; exact rfl
  | cons hab _ ih =>
    intro i
    cases i with
    | zero => exact hab
    | succ i => exact ih i

theorem solveLoop {M : TwistModel ℝ} (hM : m.Model M) (dt : ℝ) (ut : List (V3 ℝ)) (n : Nat) :
    ∀ (i : Nat) {x x' : V3 ℝ}, m.Poses x x' → Alike (List.Forall₂ m.Poses)
      (RungeKutta.solveLoop dt M.f ut n i x) (RungeKutta.solveLoop dt M.f (ut.map m.twist) n i x') := by
  induction n with
  | zero => intro i x x' _; exact List.Forall₂.nil
  | succ n ih =>
    intro i x x' h
    rw [RungeKutta.solveLoop, RungeKutta.solveLoop]
    refine (col_map m.twist ut i).bind ?_
    rintro u _ rfl
    refine (rk4_step hM dt h u).bind fun x1 x1' h1 => ?_
    refine (ih (i + 1) (poses_heading h1)).bind fun xs xs' hs => ?_
    exact List.Forall₂.cons (poses_heading h1) hs

theorem solve {M : TwistModel ℝ} (hM : m.Model M) (dt horizon : ℝ) (ut : List (V3 ℝ)) {x x' : V3 ℝ}
    (h : m.Poses x x') : Alike (List.Forall₂ m.Poses) (RungeKutta.solve dt M.f x ut horizon)
      (RungeKutta.solve dt M.f x' (ut.map m.twist) horizon) := by
  unfold RungeKutta.solve
  exact Alike.same fun n _ => solveLoop hM dt ut n.toNat 0 h

/-! ## Memory -/

theorem at_mirror {l l' : List (Nat × V3 ℝ)} (h : List.Forall₂ (fun a b => b.1 = a.1 ∧ m.Poses a.2 b.2) l l')
    (k : Nat) : Alike m.Poses (ReplayBuffer.at' l k) (ReplayBuffer.at' l' k) := by
  unfold ReplayBuffer.at'
  induction h with
  | nil => exact rfl
  | @cons a b l l' hab _ ih =>
    rw [List.find?_cons, List.find?_cons, hab.1]
    cases hk : (a.1 == k) with
    | true => exact hab.2
    | false => exact ih

theorem concat_mirror {a b a' b' : List (V3 ℝ)} (h : List.Forall₂ m.Poses a a') (h' : List.Forall₂ m.Poses b b') :
    Alike (List.Forall₂ m.Poses) (ReplayBuffer.concatCols a b) (ReplayBuffer.concatCols a' b') := by
  unfold ReplayBuffer.concatCols
  cases h' with
  | nil => exact rfl
  | cons h1 h2 => exact List.rel_append h (List.Forall₂.cons h1 h2)

theorem sample_mirror {b b' : ReplayBuffer (V3 ℝ)} (hb : b'.batch_size = b.batch_size)
    (h : List.Forall₂ (fun a b => b.1 = a.1 ∧ m.Poses a.2 b.2) b.memory b'.memory) (draws : List Nat)
    {xs xs' : List (V3 ℝ)} (hx : List.Forall₂ m.Poses xs xs') :
    Alike (List.Forall₂ m.Poses) (b.sampleMemory draws xs) (b'.sampleMemory draws xs') := by
  unfold ReplayBuffer.sampleMemory
  have hl := h.length_eq
  have he : b'.memory.isEmpty = b.memory.isEmpty := by
    rw [Bool.eq_iff_iff, List.isEmpty_iff_length_eq_zero, List.isEmpty_iff_length_eq_zero, hl]
  rw [he, ← hl, hb]
  split
  · exact hx
  split
  · exact (Alike.mapM fun i _ => at_mirror h i).bind fun p p' hp => concat_mirror hp hx
  · refine (Alike.mapM fun i _ => ?_).bind fun p p' hp => concat_mirror hp hx
    unfold ReplayBuffer.drawAt
    cases draws[i]? with
    | none => exact rfl
    | some r => exact at_mirror h r

theorem append_mirror {b b' : ReplayBuffer (V3 ℝ)} (hs : b'.buffer_size = b.buffer_size)
    (h : List.Forall₂ (fun a b => b.1 = a.1 ∧ m.Poses a.2 b.2) b.memory b'.memory) {x x' : V3 ℝ}
    (hx : m.Poses x x') :
    List.Forall₂ (fun a b => b.1 = a.1 ∧ m.Poses a.2 b.2) (b.append x).memory (b'.append x').memory := by
  unfold ReplayBuffer.append
  rw [← h.length_eq, hs]
  split
  · show List.Forall₂ _ (ReplayBuffer.emplace _ _ _) (ReplayBuffer.emplace _ _ _)
    unfold ReplayBuffer.emplace
    have e : ∀ k : Nat, b'.memory.any (fun e => e.1 == k) = b.memory.any (fun e => e.1 == k) := by
      intro k
      generalize b.memory = l at h
      generalize b'.memory = l' at h
      induction h with
      | nil => rfl
      | cons hab _ ih => rw [List.any_cons, List.any_cons, ih, hab.1]
    rw [e]
    split
    · exact h
    · exact List.rel_append h (List.Forall₂.cons ⟨rfl, hx⟩ List.Forall₂.nil)
  · exact h

/-! ## Basis and gradients in the frame of the map -/

/-- the mirror as it appears in the frame of the map -/
noncomputable def frame (m : Mirror) (lx ly : ℝ) : Mirror :=
  ⟨m.fx, m.fy, if m.fx then lx else 0, if m.fy then ly else 0⟩

theorem toFourier {g g' : GridMap ℝ} (hg : m.Extent g g') {x x' : V3 ℝ} (h : m.Poses x x') :
    (m.frame (g.xmax - g.xmin) (g.ymax - g.ymin)).Poses (ErgodicControl.toFourier ⟨g.xmin, g.ymin⟩ x)
      (ErgodicControl.toFourier ⟨g'.xmin, g'.ymin⟩ x') := by
  obtain ⟨h0, h1, h2, h3⟩ := h
  refine ⟨?_, ?_, h2, h3⟩
  · simp only [ErgodicControl.toFourier, real_sub, frame, h0, hg.xmin, sx]
    rcases Bool.eq_false_or_eq_true m.fx with h | h <;> simp [h] <;> ring
  · simp only [ErgodicControl.toFourier, real_sub, frame, h1, hg.ymin, sy]
    rcases Bool.eq_false_or_eq_true m.fy with h | h <;> simp [h] <;> ring

theorem axis_cos {l x x' : ℝ} {f : Bool} (hl : l ≠ 0)
    (h : x' = (if f then l else 0) + (if f then -1 else 1) * x) (k : Int) :
    cos (k * (π / l) * x') = (if f then (-1 : ℝ) ^ k else 1) * cos (k * (π / l) * x) ∧
    sin (k * (π / l) * x') = (if f then (-1 : ℝ) ^ k else 1) * ((if f then -1 else 1) * sin (k * (π / l) * x)) := by
  cases f with
  | false => simp at h; subst h; simp
  | true =>
    simp only [if_true] at h ⊢
    have e : (k : ℝ) * (π / l) * x' = k * π - k * (π / l) * x := by
      rw [h]; field_simp; ring
    rw [e, Real.cos_sub, Real.sin_sub, Real.sin_int_mul_pi, Real.cos_int_mul_pi]
    constructor <;> ring

theorem fk_mirror (b : Basis ℝ) (hx : b.lx ≠ 0) (hy : b.ly ≠ 0) {p p' : V2 ℝ}
    (h : p' = (m.frame b.lx b.ly).point p) (k : Int × Int) : b.fk p' k = m.sign k * b.fk p k := by
  obtain ⟨h0, h1⟩ := V2.ext_iff.mp h
  simp only [Basis.fk, real_mul, real_cos, real_ofInt, real_div, real_pi]
  rw [(axis_cos hx h0 k.1).1, (axis_cos hy h1 k.2).1]
  unfold sign
  show (if m.fx then (-1 : ℝ) ^ k.1 else 1) * _ * ((if m.fy then (-1 : ℝ) ^ k.2 else 1) * _) = _
  ring

theorem sign_sq (m : Mirror) (k : Int × Int) : m.sign k * m.sign k = 1 := by
  have e (n : Int) : (-1 : ℝ) ^ n = 1 ∨ (-1 : ℝ) ^ n = -1 := by
    rcases Int.even_or_odd n with h | h
    · exact .inl h.neg_one_zpow
    · exact .inr h.neg_one_zpow
  unfold sign
  cases m.fx <;> cases m.fy <;> rcases e k.1 with h | h <;> rcases e k.2 with h' | h' <;> simp [h, h']

theorem dfk_mirror (b : Basis ℝ) (hx : b.lx ≠ 0) (hy : b.ly ≠ 0) {p p' : V2 ℝ}
    (h : p' = (m.frame b.lx b.ly).point p) (k : Int × Int) :
    (b.dfk p' k).c0 = m.sx * (m.sign k * (b.dfk p k).c0) ∧ (b.dfk p' k).c1 = m.sy * (m.sign k * (b.dfk p k).c1) := by
  obtain ⟨h0, h1⟩ := V2.ext_iff.mp h
  simp only [Basis.dfk, real_mul, real_cos, real_sin, real_neg, real_ofInt, real_div, real_pi]
  rw [(axis_cos hx h0 k.1).1, (axis_cos hy h1 k.2).1, (axis_cos hx h0 k.1).2, (axis_cos hy h1 k.2).2]
  unfold sign sx sy
  constructor
  · show -_ * ((if m.fx then (-1 : ℝ) ^ k.1 else 1) * ((if m.fx then -1 else 1) * _)) *
      ((if m.fy then (-1 : ℝ) ^ k.2 else 1) * _) = _
    ring
  · show -_ * ((if m.fx then (-1 : ℝ) ^ k.1 else 1) * _) *
      ((if m.fy then (-1 : ℝ) ^ k.2 else 1) * ((if m.fy then -1 else 1) * _)) = _
    ring

theorem poses_point {x x' : V3 ℝ} (h : m.Poses x x') : x'.xy = m.point x.xy := by
  ext
  · exact h.1
  · exact h.2.1

theorem trajCoeff_mirror (b : Basis ℝ) (hx : b.lx ≠ 0) (hy : b.ly ≠ 0) {xs xs' : List (V3 ℝ)}
    (h : List.Forall₂ (m.frame b.lx b.ly).Poses xs xs') :
    b.trajCoeff xs' = List.zipWith (fun k p => m.sign k * p) b.k (b.trajCoeff xs) := by
  unfold Basis.trajCoeff
  rw [List.zipWith_map_right, List.zipWith_self]
  refine List.map_congr_left fun k _ => ?_
  rw [← h.length_eq]
  have e : fsum (xs'.map fun x => b.fk x.xy k) = m.sign k * fsum (xs.map fun x => b.fk x.xy k) := by
    rw [fsum_real, fsum_real]
    induction h with
    | nil => simp
    | cons hab _ ih =>
      simp only [List.map_cons, List.sum_cons]
      rw [ih, fk_mirror b hx hy (poses_point hab)]
      ring
  rw [e]
  simp only [real_mul]
  ring

theorem diff_mirror (m : Mirror) : ∀ (ks : List (Int × Int)) (lam c p : List ℝ),
    List.zipWith (fun l d => l *. d) lam (List.zipWith (fun c p => c -. p)
      (List.zipWith (fun k p => m.sign k * p) ks c) (List.zipWith (fun k p => m.sign k * p) ks p)) =
    List.zipWith (fun k p => m.sign k * p) ks
      (List.zipWith (fun l d => l *. d) lam (List.zipWith (fun c p => c -. p) c p))
  | [], lam, c, p => by simp
  | k :: ks, [], c, p => by simp
  | k :: ks, l :: lam, [], p => by simp
  | k :: ks, l :: lam, a :: c, [] => by simp
  | k :: ks, l :: lam, a :: c, b :: p => by
    simp only [List.zipWith_cons_cons]
    rw [diff_mirror m ks lam c p]
    congr 1
    simp only [real_mul, real_sub]
    ring

theorem gradSum (m : Mirror) (s : ℝ) (f f' : Int × Int → ℝ) (h : ∀ k, f' k = s * (m.sign k * f k)) :
    ∀ (ks : List (Int × Int)) (w : List ℝ),
      (List.zipWith (fun k w => f' k * w) ks (List.zipWith (fun k p => m.sign k * p) ks w)).sum =
      s * (List.zipWith (fun k w => f k * w) ks w).sum
  | [], w => by simp
  | k :: ks, [] => by simp
  | k :: ks, a :: w => by
    simp only [List.zipWith_cons_cons, List.sum_cons]
    rw [gradSum m s f f' h ks w, h]
    linear_combination s * f k * a * m.sign_sq k

theorem grad_mirror {e e' : ErgodicControl ℝ} (h : m.Controllers e e') (hx : e.basis.lx ≠ 0) (hy : e.basis.ly ≠ 0)
    (ck : List ℝ) {xs xs' : List (V3 ℝ)} (hs : List.Forall₂ (m.frame e.basis.lx e.basis.ly).Poses xs xs') :
    e'.gradErgodicMetric (List.zipWith (fun k p => m.sign k * p) e.basis.k ck) xs' =
      (e.gradErgodicMetric ck xs).map m.vec := by
  unfold ErgodicControl.gradErgodicMetric
  rw [h.basis, h.phik, diff_mirror, h.weight]
  generalize List.zipWith (fun l d => l *. d) e.basis.lamdak (List.zipWith (fun c p => c -. p) ck e.phik) = w
  dsimp only
  induction hs with
  | nil => rfl
  | @cons x x' _ _ hab _ ih =>
    simp only [List.map_cons]
    rw [ih]
    congr 1
    have hp := poses_point hab
    have e0 := gradSum m m.sx (fun k => (e.basis.dfk x.xy k).c0) (fun k => (e.basis.dfk x'.xy k).c0)
      (fun k => (dfk_mirror e.basis hx hy hp k).1) e.basis.k w
    have e1 := gradSum m m.sy (fun k => (e.basis.dfk x.xy k).c1) (fun k => (e.basis.dfk x'.xy k).c1)
      (fun k => (dfk_mirror e.basis hx hy hp k).2) e.basis.k w
    ext
    · simp only [ErgodicControl.gradTimes, Basis.gradFourierBasis, fsum_real, List.zipWith_map_left, real_mul, vec]
      rw [e0]; ring
    · simp only [ErgodicControl.gradTimes, Basis.gradFourierBasis, fsum_real, List.zipWith_map_left, real_mul, vec]
      rw [e1]; ring
    · simp [vec, real_lit]

theorem barrier_axis {l x x' : ℝ} {f : Bool} (h : x' = (if f then l else 0) + (if f then -1 else 1) * x) :
    ErgodicControl.barrierAxis x' l = (if f then -1 else 1) * ErgodicControl.barrierAxis x l := by
  cases f with
  | false => simp at h; subst h; simp
  | true =>
    simp only [if_true] at h ⊢
    subst h
    have a : Flt.lt (l - 5 / 100) (l + -1 * x) = Flt.lt x (5 / 100 : ℝ) := by
      rw [Bool.eq_iff_iff, real_lt, real_lt]; constructor <;> intro _ <;> linarith
    have b : Flt.lt (l + -1 * x) (5 / 100 : ℝ) = Flt.lt (l - 5 / 100) x := by
      rw [Bool.eq_iff_iff, real_lt, real_lt]; constructor <;> intro _ <;> linarith
    have ee : ((5 : Int) : ℝ) / 10 ^ 2 = 5 / 100 := by norm_num
    simp only [ErgodicControl.barrierAxis, real_sub, real_add, real_mul, real_lit, ee, a, b]
    ring

theorem barrier_mirror {e e' : ErgodicControl ℝ} (hb : e'.basis = e.basis) {xs xs' : List (V3 ℝ)}
    (hs : List.Forall₂ (m.frame e.basis.lx e.basis.ly).Poses xs xs') :
    e'.gradBarrier xs' = (e.gradBarrier xs).map m.vec := by
  unfold ErgodicControl.gradBarrier
  rw [hb]
  induction hs with
  | nil => rfl
  | @cons x x' _ _ hab _ ih =>
    simp only [List.map_cons]
    rw [ih]
    congr 1
    ext
    · exact barrier_axis hab.1
    · exact barrier_axis hab.2.1
    · simp [vec, real_lit]

/-! ## Co-states and controls -/

theorem rhodot_mirror {M : TwistModel ℝ} (hM : m.Model M) {x x' : V3 ℝ} (h : m.Poses x x') (u rho gdx dbar : V3 ℝ) :
    rhodot (m.vec rho) (m.vec gdx) (m.vec dbar) (M.fdx x' (m.twist u)) = m.vec (rhodot rho gdx dbar (M.fdx x u)) := by
  unfold rhodot
  rw [hM.fdx h]
  ext <;> simp only [V3.sub, V3.neg, vec, real_sub, real_neg] <;> ring

theorem stepBack_mirror {M : TwistModel ℝ} (hM : m.Model M) {x x' : V3 ℝ} (h : m.Poses x x') (dt : ℝ)
    (u rho gdx dbar : V3 ℝ) :
    RungeKutta.stepBack dt rhodot (m.vec rho) (m.vec gdx) (m.vec dbar) (M.fdx x' (m.twist u)) =
      m.vec (RungeKutta.stepBack dt rhodot rho gdx dbar (M.fdx x u)) := by
  unfold RungeKutta.stepBack
  simp only [rhodot_mirror hM h, ← m.vec_smul, ← m.vec_sub, ← m.vec_add]

theorem solveBackLoop_mirror {M : TwistModel ℝ} (hM : m.Model M) (dt : ℝ) {xs xs' : List (V3 ℝ)}
    (h : List.Forall₂ m.Poses xs xs') (ut edx bdx : List (V3 ℝ)) (n : Nat) : ∀ (rho : V3 ℝ) (acc : List (V3 ℝ)),
    Alike (fun a b => b = a.map m.vec) (RungeKutta.solveBackLoop dt rhodot M.fdx xs ut edx bdx n rho acc)
      (RungeKutta.solveBackLoop dt rhodot M.fdx xs' (ut.map m.twist) (edx.map m.vec) (bdx.map m.vec) n (m.vec rho)
        (acc.map m.vec)) := by
  induction n with
  | zero => intro rho acc; exact rfl
  | succ n ih =>
    intro rho acc
    rw [RungeKutta.solveBackLoop, RungeKutta.solveBackLoop]
    refine (col_map m.vec edx n).bind ?_
    rintro a _ rfl
    refine (col_map m.vec bdx n).bind ?_
    rintro b _ rfl
    refine (col_forall₂ h n).bind fun x x' hx => ?_
    refine (col_map m.twist ut n).bind ?_
    rintro u _ rfl
    dsimp only
    rw [stepBack_mirror hM hx]
    exact ih _ (_ :: acc)

theorem clamp_mirror (v lo hi : ℝ) (t : ℝ) (ht : t = 1 ∨ (t = -1 ∧ lo = -hi)) :
    Alike (fun a b => b = t * a) (ErgodicControl.clampR v lo hi) (ErgodicControl.clampR (t * v) lo hi) := by
  unfold ErgodicControl.clampR
  split
  · trivial
  · rename_i hlt
    rw [real_lt, not_lt] at hlt
    show _ = _
    rcases ht with rfl | ⟨rfl, rfl⟩
    · simp
    · unfold fclamp
      by_cases a : v < -hi
      · by_cases b : hi < v
        · linarith
        · have c : ¬ (-1 * v < -hi) := by linarith
          have d : hi < -1 * v := by linarith
          simp only [(real_lt _ _).mpr a, (real_lt _ _).mpr d, eq_false_of_ne_true (fun h => c ((real_lt _ _).mp h))]
          simp
      · by_cases b : hi < v
        · have c : -1 * v < -hi := by linarith
          simp only [(real_lt _ _).mpr b, (real_lt _ _).mpr c, eq_false_of_ne_true (fun h => a ((real_lt _ _).mp h))]
          simp
        · have c : ¬ (-1 * v < -hi) := by linarith
          have d : ¬ (hi < -1 * v) := by linarith
          simp only [eq_false_of_ne_true (fun h => a ((real_lt _ _).mp h)),
            eq_false_of_ne_true (fun h => b ((real_lt _ _).mp h)),
            eq_false_of_ne_true (fun h => c ((real_lt _ _).mp h)),
            eq_false_of_ne_true (fun h => d ((real_lt _ _).mp h))]
          simp

theorem newControl_mirror {e e' : ErgodicControl ℝ} (h : m.Controllers e e') (hf : m.Fair e)
    {x x' rho : V3 ℝ} (hx : (e.model.fdu x').t.mulVec (m.vec rho) = m.twist ((e.model.fdu x).t.mulVec rho)) :
    Alike (fun a b => b = m.twist a) (e.newControl x rho) (e'.newControl x' (m.vec rho)) := by
  unfold ErgodicControl.newControl
  rw [h.Rinv, h.umin, h.umax, h.model]
  have assoc (A B : M3 ℝ) (v : V3 ℝ) : (A.mul B).mulVec v = A.mulVec (B.mulVec v) := by
    ext <;> simp only [M3.mul, M3.mulVec, M3.t, V3.dot, real_add, real_mul] <;> ring
  have hu : (e.Rinv.neg.mul (e.model.fdu x').t).mulVec (m.vec rho) =
      m.twist ((e.Rinv.neg.mul (e.model.fdu x).t).mulVec rho) := by
    rw [assoc, assoc, hx]
    generalize (e.model.fdu x).t.mulVec rho = w
    rcases hf with hf | ⟨-, -, r1, r2, r3, r4⟩
    · rw [show m.twist = id from by
        funext u
        simp [twist, m.turn_one hf]]
      rfl
    · ext <;> simp only [M3.mulVec, M3.neg, V3.neg, V3.dot, twist, real_add, real_mul, real_neg, r1, r2, r3, r4] <;>
        ring
  rw [hu]
  generalize (e.Rinv.neg.mul (e.model.fdu x).t).mulVec rho = w
  have t1 : m.turn = 1 ∨ (m.turn = -1 ∧ e.umin.c1 = -e.umax.c1) := by
    rcases hf with hf | hf
    · exact .inl (m.turn_one hf)
    · exact m.turn_cases.imp_right fun t => ⟨t, hf.1⟩
  have t2 : m.turn = 1 ∨ (m.turn = -1 ∧ e.umin.c2 = -e.umax.c2) := by
    rcases hf with hf | hf
    · exact .inl (m.turn_one hf)
    · exact m.turn_cases.imp_right fun t => ⟨t, hf.2.1⟩
  dsimp only
  refine Alike.same fun u0 _ => ?_
  refine (clamp_mirror w.c1 _ _ _ t1).bind ?_
  rintro u1 _ rfl
  refine (clamp_mirror w.c2 _ _ _ t2).bind ?_
  rintro u2 _ rfl
  exact rfl

theorem updateLoop_mirror {e e' : ErgodicControl ℝ} (h : m.Controllers e e') (hf : m.Fair e) {lx ly : ℝ}
    (hM : (m.frame lx ly).Model e.model) {xs xs' : List (V3 ℝ)}
    (hs : List.Forall₂ (m.frame lx ly).Poses xs xs') : ∀ rs : List (V3 ℝ),
    Alike (fun a b => b = a.map m.twist) (e.updateLoop xs rs) (e'.updateLoop xs' (rs.map m.vec)) := by
  induction hs with
  | nil => intro rs; exact rfl
  | cons hab _ ih =>
    intro rs
    cases rs with
    | nil => exact rfl
    | cons r rs =>
      rw [List.map_cons, ErgodicControl.updateLoop, ErgodicControl.updateLoop]
      refine (newControl_mirror h hf (hM.fdu hab r)).bind ?_
      rintro u _ rfl
      refine (ih rs).bind ?_
      rintro us _ rfl
      exact rfl

/-! ## The target -/

theorem gaussian_mirror {g g' : GridMap ℝ} (hg : m.Extent g g') (q : Gaussian ℝ) (p : V2 ℝ) :
    (m.gaussian q).evalTrans ((m.frame (g.xmax - g.xmin) (g.ymax - g.ymin)).point p) ⟨g'.xmin, g'.ymin⟩ =
      q.evalTrans p ⟨g.xmin, g.ymin⟩ := by
  have e0 : ((m.frame (g.xmax - g.xmin) (g.ymax - g.ymin)).point p).c0 - ((m.point q.mu).c0 - g'.xmin) =
      m.sx * (p.c0 - (q.mu.c0 - g.xmin)) := by
    rw [hg.xmin]
    simp only [point, frame, sx]
    rcases Bool.eq_false_or_eq_true m.fx with h | h <;> simp [h] <;> ring
  have e1 : ((m.frame (g.xmax - g.xmin) (g.ymax - g.ymin)).point p).c1 - ((m.point q.mu).c1 - g'.ymin) =
      m.sy * (p.c1 - (q.mu.c1 - g.ymin)) := by
    rw [hg.ymin]
    simp only [point, frame, sy]
    rcases Bool.eq_false_or_eq_true m.fy with h | h <;> simp [h] <;> ring
  have ev : (((m.frame (g.xmax - g.xmin) (g.ymax - g.ymin)).point p).sub ((m.point q.mu).sub ⟨g'.xmin, g'.ymin⟩)) =
      ⟨m.sx * (p.c0 - (q.mu.c0 - g.xmin)), m.sy * (p.c1 - (q.mu.c1 - g.ymin))⟩ := by
    ext
    · exact e0
    · exact e1
  unfold Gaussian.evalTrans
  rw [show (m.gaussian q).mu = m.point q.mu from rfl, ev]
  simp only [Gaussian.expForm, gaussian, V2.dot, V2.sub, real_add, real_mul, real_sub, turn]
  congr 2
  rcases m.sx_cases with a | a <;> rcases m.sy_cases with b | b <;> rw [a, b] <;> ring

theorem evaluate_mirror {g g' : GridMap ℝ} (hg : m.Extent g g') (t : Target ℝ) (p : V2 ℝ) :
    (m.target t).evaluate ((m.frame (g.xmax - g.xmin) (g.ymax - g.ymin)).point p) ⟨g'.xmin, g'.ymin⟩ =
      t.evaluate p ⟨g.xmin, g.ymin⟩ := by
  unfold Target.evaluate target
  rw [List.foldl_map]
  simp only [gaussian_mirror hg]

theorem frame_frame (lx ly : ℝ) (p : V2 ℝ) : (m.frame lx ly).point ((m.frame lx ly).point p) = p := by
  ext
  · simp only [point, frame, sx]
    rcases Bool.eq_false_or_eq_true m.fx with h | h <;> simp [h]
  · simp only [point, frame, sy]
    rcases Bool.eq_false_or_eq_true m.fy with h | h <;> simp [h]

theorem axisLength_multiple {n : ℕ} {l res : ℝ} (hr : l = n * res) (hl : l ≠ 0) {k : UInt32}
    (h : axisLength (lit 0 0) l res = .ok k) : k.toNat = n := by
  have hres : res ≠ 0 := by rintro rfl; simp at hr; exact hl hr
  unfold axisLength at h
  simp only [real_sub, real_div, real_round, real_lit, Int.cast_zero, zero_div, sub_zero] at h
  rw [hr, mul_div_assoc, div_self hres, mul_one, realRound_natCast] at h
  unfold castU32 at h
  rw [real_trunc, show realTrunc ((n : ℕ) : ℝ) = n from realTrunc_intCast n] at h
  dsimp only at h
  split at h
  · rename_i hb
    obtain rfl := Res.ok.inj h
    rw [Int.toNat_natCast, UInt32.toNat_ofNat']
    have := hb.2
    omega
  · cases h

theorem accum_flip {n : Nat} {f : Bool} {l res : ℝ} (h : f = true → l = (n : ℝ) * res - res) :
    ((ErgodicControl.accumList (lit 0 0) res n).map fun x => (if f then l else 0) + (if f then -1 else 1) * x).Perm
      (ErgodicControl.accumList (lit 0 0) res n) := by
  cases f with
  | false => simp
  | true =>
    simp only [if_true]
    rw [accumList_real, List.map_map]
    have e : ((List.range n).map ((fun x => l + -1 * x) ∘ fun k : Nat => (lit 0 0 : ℝ) + k * res)) =
        ((List.range n).reverse.map fun k : Nat => (lit 0 0 : ℝ) + k * res) := by
      apply List.ext_getElem
      · simp
      intro i h1 h2
      have hi : i < n := by simpa using h1
      simp only [List.getElem_map, List.getElem_range, Function.comp, List.getElem_reverse, List.length_range, real_lit]
      rw [h rfl, Nat.cast_sub (by omega), Nat.cast_sub (by omega)]
      push_cast
      ring
    rw [e]
    exact (List.reverse_perm _).map _

theorem phiGrid_perm {lx ly res : ℝ} {pts : List (V2 ℝ)} (hx : lx ≠ 0) (hy : ly ≠ 0)
    (h : ErgodicControl.phiGrid lx ly res = .ok pts) (nx : m.fx = true → ∃ n : ℕ, lx = n * res)
    (ny : m.fy = true → ∃ n : ℕ, ly = n * res) : (pts.map (m.frame lx ly).point).Perm pts := by
  unfold ErgodicControl.phiGrid at h
  simp only [Res.bind_eq_ok] at h
  obtain ⟨kx, ex, ky, ey, h⟩ := h
  split at h
  · simp at h
  obtain rfl := Res.ok.inj h
  by_cases h0 : (kx + 1).toNat = 0
  · rw [h0]
    have e : ∀ l : List ℝ, l.flatMap (fun y => (ErgodicControl.accumList (lit 0 0) res 0).map
        fun x => (⟨x, y⟩ : V2 ℝ)) = [] := by
      intro l
      simp [ErgodicControl.accumList]
    rw [e]
    exact List.Perm.nil
  by_cases h1 : (ky + 1).toNat = 0
  · rw [h1]; simp [ErgodicControl.accumList]
  have px : m.fx = true → lx = ((kx + 1).toNat : ℝ) * res - res := by
    intro hf
    obtain ⟨n, hn⟩ := nx hf
    have := axisLength_multiple hn hx ex
    have : (kx + 1).toNat = n + 1 := by
      rw [UInt32.toNat_add] at h0 ⊢
      have := kx.toNat_lt
      simp at h0 ⊢
      omega
    rw [this, hn]
    push_cast
    ring
  have py : m.fy = true → ly = ((ky + 1).toNat : ℝ) * res - res := by
    intro hf
    obtain ⟨n, hn⟩ := ny hf
    have := axisLength_multiple hn hy ey
    have : (ky + 1).toNat = n + 1 := by
      rw [UInt32.toNat_add] at h1 ⊢
      have := ky.toNat_lt
      simp at h1 ⊢
      omega
    rw [this, hn]
    push_cast
    ring
  rw [List.map_flatMap]
  have qx := accum_flip (n := (kx + 1).toNat) (res := res) px
  have qy := accum_flip (n := (ky + 1).toNat) (res := res) py
  have e : ((ErgodicControl.accumList (lit 0 0) res (ky + 1).toNat).flatMap fun y =>
      List.map (m.frame lx ly).point ((ErgodicControl.accumList (lit 0 0) res (kx + 1).toNat).map fun x => ⟨x, y⟩)) =
      (((ErgodicControl.accumList (lit 0 0) res (ky + 1).toNat).map
        fun x => (if m.fy then ly else 0) + (if m.fy then -1 else 1) * x).flatMap fun y =>
        (((ErgodicControl.accumList (lit 0 0) res (kx + 1).toNat).map
        fun x => (if m.fx then lx else 0) + (if m.fx then -1 else 1) * x).map fun x => (⟨x, y⟩ : V2 ℝ))) := by
    rw [List.flatMap_map]
    simp only [List.map_map]
    rfl
  rw [e]
  exact List.Perm.flatMap qy fun y _ => qx.map _

theorem phik_mirror {g g' : GridMap ℝ} (hg : m.Extent g g') (t : Target ℝ) (b : Basis ℝ)
    (bx : b.lx = g.xmax - g.xmin) (by' : b.ly = g.ymax - g.ymin) (hx : b.lx ≠ 0) (hy : b.ly ≠ 0)
    {pts : List (V2 ℝ)} (hp : (pts.map (m.frame b.lx b.ly).point).Perm pts) :
    Alike (fun a a' => a' = List.zipWith (fun k p => m.sign k * p) b.k a)
      (b.spatialCoeff (t.fill ⟨g.xmin, g.ymin⟩ pts) pts)
      (b.spatialCoeff ((m.target t).fill ⟨g'.xmin, g'.ymin⟩ pts) pts) := by
  unfold Basis.spatialCoeff
  rw [if_neg (by simp [Target.fill]), if_neg (by simp [Target.fill])]
  show _ = _
  rw [List.zipWith_map_right, List.zipWith_self]
  have ev (p : V2 ℝ) : (m.target t).evaluate ((m.frame b.lx b.ly).point p) ⟨g'.xmin, g'.ymin⟩ =
      t.evaluate p ⟨g.xmin, g.ymin⟩ := by
    rw [bx, by']; exact evaluate_mirror hg t p
  have hs : fsum (pts.map fun p => (m.target t).evaluate p ⟨g'.xmin, g'.ymin⟩) =
      fsum (pts.map fun p => t.evaluate p ⟨g.xmin, g.ymin⟩) := by
    rw [fsum_real, fsum_real, ← (hp.map _).sum_eq, List.map_map]
    congr 1
    exact List.map_congr_left fun p _ => ev p
  refine List.map_congr_left fun k _ => ?_
  unfold Target.fill
  dsimp only
  rw [hs]
  generalize fsum (pts.map fun p => t.evaluate p ⟨g.xmin, g.ymin⟩) = s
  rw [fsum_real, fsum_real, List.map_map, List.map_map, List.zipWith_map_right, List.zipWith_map_right,
    List.zipWith_self, List.zipWith_self, ← (hp.map _).sum_eq, List.map_map, ← List.sum_map_mul_left]
  congr 1
  refine List.map_congr_left fun p _ => ?_
  simp only [Function.comp, real_mul, real_div]
  rw [ev, fk_mirror b hx hy rfl]
  ring

theorem configTarget_mirror {e e' : ErgodicControl ℝ} (h : m.Controllers e e') {g g' : GridMap ℝ}
    (hg : m.Extent g g') (hs : m.Suits e g) {x x' : V3 ℝ} (hx : m.Poses x x') :
    Alike (fun c c' => m.Controllers c c' ∧ m.Poses c.pose c'.pose ∧ c.map_pos = ⟨g.xmin, g.ymin⟩ ∧
        c'.map_pos = ⟨g'.xmin, g'.ymin⟩ ∧ c.basis.lx = g.xmax - g.xmin ∧ c.basis.ly = g.ymax - g.ymin ∧
        c.model = e.model ∧ (m.Fair e → m.Fair c))
      (ErgodicControl.configTarget { e with pose := x } g) (ErgodicControl.configTarget { e' with pose := x' } g') := by
  have lx : g'.xmax - g'.xmin = g.xmax - g.xmin := by
    rw [hg.xmax, hg.xmin]; split <;> ring
  have ly : g'.ymax - g'.ymin = g.ymax - g.ymin := by
    rw [hg.ymax, hg.ymin]; split <;> ring
  unfold ErgodicControl.configTarget
  simp only [real_sub, lx, ly, h.basis]
  split
  · rename_i hc
    rw [Bool.and_eq_true] at hc
    obtain ⟨a, b⟩ := hs.size hc.1 hc.2
    refine ⟨⟨h.model, h.dt, h.horizon, h.resolution, h.weight, h.steps, h.Rinv, h.umin, h.umax, rfl, h.ut, h.rhoT,
      h.phik, h.buffer_size, h.batch_size, h.memory, h.target⟩, hx, rfl, rfl, a.symm, b.symm, rfl, fun hf => hf⟩
  · rw [h.resolution, h.target]
    refine Alike.same fun pts hpts => ?_
    have hp : (pts.map (m.frame (g.xmax - g.xmin) (g.ymax - g.ymin)).point).Perm pts :=
      phiGrid_perm hs.x hs.y hpts hs.gridx hs.gridy
    refine (phik_mirror hg e.target { e.basis with lx := g.xmax - g.xmin, ly := g.ymax - g.ymin } rfl rfl hs.x hs.y
      hp).bind ?_
    rintro ph _ rfl
    exact ⟨⟨h.model, h.dt, h.horizon, rfl, h.weight, h.steps, h.Rinv, h.umin, h.umax, rfl, h.ut,
      h.rhoT, rfl, h.buffer_size, h.batch_size, h.memory, rfl⟩, hx, rfl, rfl, rfl, rfl, rfl, fun hf => hf⟩

theorem controlTail_mirror {c c' : ErgodicControl ℝ} (h : m.Controllers c c') (hf : m.Fair c)
    (hM : ∀ m : Mirror, m.Model c.model) {g g' : GridMap ℝ} (hg : m.Extent g g') (hp : m.Poses c.pose c'.pose)
    (p : c.map_pos = ⟨g.xmin, g.ymin⟩) (p' : c'.map_pos = ⟨g'.xmin, g'.ymin⟩) (lx : c.basis.lx = g.xmax - g.xmin)
    (ly : c.basis.ly = g.ymax - g.ymin) (hx : c.basis.lx ≠ 0) (hy : c.basis.ly ≠ 0) (draws : List Nat) :
    Alike (fun r r' => r'.2 = m.twist r.2 ∧ m.Controllers r.1 r'.1 ∧ m.Poses r.1.pose r'.1.pose ∧
        m.Fair r.1 ∧ r.1.model = c.model)
      (controlTail c draws) (controlTail c' draws) := by
  unfold controlTail
  rw [h.dt, h.model, h.ut, h.horizon]
  refine (solve (hM m) c.dt c.horizon c.ut hp).bind fun traj traj' ht => ?_
  refine (sample_mirror h.batch_size h.memory draws ht).bind fun total total' ht => ?_
  have hF : List.Forall₂ (m.frame c.basis.lx c.basis.ly).Poses (total.map (ErgodicControl.toFourier c.map_pos))
      (total'.map (ErgodicControl.toFourier c'.map_pos)) := by
    rw [List.forall₂_map_left_iff, List.forall₂_map_right_iff, p, p', lx, ly]
    exact ht.imp fun _ _ hab => toFourier hg hab
  generalize total.map (ErgodicControl.toFourier c.map_pos) = T at hF ⊢
  generalize total'.map (ErgodicControl.toFourier c'.map_pos) = T' at hF ⊢
  dsimp only
  rw [h.steps, ← hF.length_eq]
  split
  · exact rfl
  have hX := List.forall₂_drop (T.length - c.steps.toNat) hF
  rw [h.basis, trajCoeff_mirror c.basis hx hy hF, grad_mirror h hx hy _ hX, barrier_mirror h.basis hX, h.rhoT]
  refine Alike.bind (R := fun a b => b = a.map m.vec) ?_ ?_
  · unfold RungeKutta.solveBack
    exact Alike.same fun n _ => solveBackLoop_mirror (hM (m.frame c.basis.lx c.basis.ly)) c.dt hX c.ut _ _ n.toNat
      c.rhoT []
  · rintro rhot _ rfl
    refine (updateLoop_mirror h hf (hM _) hX rhot).bind ?_
    rintro ut _ rfl
    refine (col_map m.twist ut 0).bind ?_
    rintro u _ rfl
    exact ⟨rfl, ⟨rfl, rfl, rfl, h.resolution, h.weight, rfl, h.Rinv, h.umin, h.umax, rfl, rfl, rfl,
      h.phik, h.buffer_size, h.batch_size, h.memory, h.target⟩, hp, hf, rfl⟩

end Mirror

/-- C132: in the mirror the controller plans the mirror image.  Two controllers with the same settings and
mirrored targets, memories and plans, called at mirrored poses on maps that cover mirrored areas, either both
fail in the same way, or return mirrored twists and are again in mirrored states: forward velocities are the
same, lateral and rotational velocities change sides when one axis is flipped. -/
theorem C132_control (m : Mirror) {e e' : ErgodicControl ℝ} (h : m.Controllers e e') (hf : m.Fair e)
    (hM : e.model = omniModel ∨ e.model = cartModel) {g g' : GridMap ℝ} (hg : m.Extent g g') (hs : m.Suits e g)
    {x x' : V3 ℝ} (hx : m.Poses x x') (draws : List Nat) :
    Alike (fun r r' => r'.2 = m.twist r.2 ∧ m.Controllers r.1 r'.1 ∧ m.Poses r.1.pose r'.1.pose ∧
        m.Fair r.1 ∧ r.1.model = e.model)
      (e.control g x draws) (e'.control g' x' draws) := by
  rw [control_tail, control_tail]
  refine (Mirror.configTarget_mirror h hg hs hx).bind fun c c' ⟨hc, hp, p, p', lx, ly, em, ef⟩ => ?_
  have hshift : Alike (fun a b => b = a.map m.twist) (ErgodicControl.shift c.ut) (ErgodicControl.shift c'.ut) := by
    unfold ErgodicControl.shift
    rw [hc.ut, List.length_map]
    split
    · exact rfl
    · show _ = _
      rw [List.map_append, List.map_drop]
      congr 1
      simp [Mirror.twist, V3.zero, real_lit]
  refine hshift.bind ?_
  rintro ut _ rfl
  refine Alike.mono (Mirror.controlTail_mirror (g := g) (g' := g') (c := { c with ut := ut })
    (c' := { c' with ut := ut.map m.twist }) ⟨hc.model, hc.dt, hc.horizon, hc.resolution, hc.weight, hc.steps, hc.Rinv,
    hc.umin, hc.umax, hc.basis, rfl, hc.rhoT, hc.phik, hc.buffer_size, hc.batch_size, hc.memory, hc.target⟩ (ef hf) ?_ hg hp p p' lx ly ?_ ?_ draws)
    fun r r' h => ⟨h.1, h.2.1, h.2.2.1, h.2.2.2.1, h.2.2.2.2.trans em⟩
  · intro m'
    show m'.Model c.model
    rw [em]
    rcases hM with hM | hM <;> rw [hM]
    · exact m'.model_omni
    · exact m'.model_cart
  · show c.basis.lx ≠ 0
    rw [lx]; exact hs.x
  · show c.basis.ly ≠ 0
    rw [ly]; exact hs.y

end Ergodic
