import Verif.Spec.Exchange
import Verif.Props.Mirror

/-!
# Property C133: the controller with the axes exchanged

Exact arithmetic.
-/

namespace Ergodic
open Real

namespace Exchange

/-! ## Motion -/

theorem vec_add (a b : V3 ℝ) : vec (a.add b) = (vec a).add (vec b) := by
  ext <;> simp only [vec, V3.add, real_add] <;> ring

theorem vec_sub (a b : V3 ℝ) : vec (a.sub b) = (vec a).sub (vec b) := by
  ext <;> simp only [vec, V3.sub, real_sub] <;> ring

theorem vec_smul (s : ℝ) (a : V3 ℝ) : vec (V3.smul s a) = V3.smul s (vec a) := by
  ext <;> simp only [vec, V3.smul, real_mul] <;> ring

theorem poses_add {x x' : V3 ℝ} (h : Poses x x') (v : V3 ℝ) : Poses (x.add v) (x'.add (vec v)) := by
  obtain ⟨h0, h1, h2, h3⟩ := h
  refine ⟨?_, ?_, ?_, ?_⟩
  · simp only [V3.add, vec, real_add, h0]
  · simp only [V3.add, vec, real_add, h1]
  all_goals
    simp only [V3.add, vec, real_add, cos_add, sin_add, cos_neg, sin_neg, h2, h3]
    ring

theorem poses_heading {x x' : V3 ℝ} (h : Poses x x') :
    Poses { x with c2 := normalizeAnglePI x.c2 } { x' with c2 := normalizeAnglePI x'.c2 } := by
  obtain ⟨h0, h1, h2, h3⟩ := h
  have key (r : ℝ) : cos (normalizeAnglePI r) = cos r ∧ sin (normalizeAnglePI r) = sin r := by
    obtain ⟨k, hk⟩ := C13_same_direction r
    rw [hk]
    constructor
    · rw [← Real.cos_add_int_mul_two_pi r k]
    · rw [← Real.sin_add_int_mul_two_pi r k]
  exact ⟨h0, h1, by rw [(key _).1, (key _).2, h2], by rw [(key _).1, (key _).2, h3]⟩

/-- A model that moves alike in the exchanged plane. -/
structure Model (M : TwistModel ℝ) : Prop where
  f : ∀ {x x' : V3 ℝ}, Poses x x' → ∀ u, Alike (fun d d' => d' = vec d) (M.f x u) (M.f x' (twist u))
  fdx : ∀ {x x' : V3 ℝ}, Poses x x' → ∀ u v, (M.fdx x' (twist u)).t.mulVec (vec v) = vec ((M.fdx x u).t.mulVec v)
  fdu : ∀ {x x' : V3 ℝ}, Poses x x' → ∀ v, (M.fdu x').t.mulVec (vec v) = twist ((M.fdu x).t.mulVec v)

theorem model_omni : Model omniModel where
  f := by
    intro x x' h u
    show Omni.f x' (twist u) = vec (Omni.f x u)
    obtain ⟨-, -, h2, h3⟩ := h
    ext <;> simp only [Omni.f, twist, vec, real_add, real_sub, real_mul, real_cos, real_sin, h2, h3] <;> ring
  fdx := by
    intro x x' h u v
    obtain ⟨-, -, h2, h3⟩ := h
    ext <;> simp only [omniModel, Omni.fdx, M3.t, M3.mulVec, V3.dot, twist, vec, real_add, real_sub, real_mul,
        real_neg, real_cos, real_sin, real_lit, h2, h3] <;> norm_num <;> ring
  fdu := by
    intro x x' h v
    obtain ⟨-, -, h2, h3⟩ := h
    ext <;> simp only [omniModel, Omni.fdu, M3.t, M3.mulVec, V3.dot, twist, vec, real_add, real_mul,
        real_neg, real_cos, real_sin, real_lit, h2, h3] <;> norm_num <;> ring

theorem model_cart : Model cartModel where
  f := by
    intro x x' h u
    obtain ⟨-, -, h2, h3⟩ := h
    show Alike _ (SimpleCart.f x u) (SimpleCart.f x' (twist u))
    unfold SimpleCart.f
    have e : almostEqual (twist u).c1 (lit 0 0 : ℝ) = almostEqual u.c1 (lit 0 0) := by
      rw [Bool.eq_iff_iff, real_almostEqual_eps, real_almostEqual_eps]
      simp only [twist, real_lit, Int.cast_zero, zero_div, sub_zero]
      simp
    rw [e]
    split
    · rfl
    · show _ = _
      ext <;> simp only [twist, vec, real_mul, real_cos, real_sin, h2, h3]
  fdx := by
    intro x x' h u v
    obtain ⟨-, -, h2, h3⟩ := h
    ext <;> simp only [cartModel, SimpleCart.fdx, M3.t, M3.mulVec, V3.dot, twist, vec, real_add, real_mul,
        real_neg, real_cos, real_sin, real_lit, h2, h3] <;> norm_num <;> ring
  fdu := by
    intro x x' h v
    obtain ⟨-, -, h2, h3⟩ := h
    ext <;> simp only [cartModel, SimpleCart.fdu, M3.t, M3.mulVec, V3.dot, twist, vec, real_add, real_mul,
        real_cos, real_sin, real_lit, h2, h3] <;> norm_num <;> ring

theorem rk4_step {M : TwistModel ℝ} (hM : Model M) (dt : ℝ) {x x' : V3 ℝ} (h : Poses x x') (u : V3 ℝ) :
    Alike Poses (RungeKutta.step dt M.f x u) (RungeKutta.step dt M.f x' (twist u)) := by
  unfold RungeKutta.step
  refine (hM.f h u).bind ?_
  rintro k1 _ rfl
  rw [← vec_smul, ← vec_smul]
  refine (hM.f (poses_add h _) u).bind ?_
  rintro k2 _ rfl
  rw [← vec_smul, ← vec_smul]
  refine (hM.f (poses_add h _) u).bind ?_
  rintro k3 _ rfl
  rw [← vec_smul]
  refine (hM.f (poses_add h _) u).bind ?_
  rintro k4 _ rfl
  show Poses _ _
  rw [← vec_smul, ← vec_smul, ← vec_add, ← vec_add, ← vec_add, ← vec_smul]
  exact poses_add h _

theorem solveLoop {M : TwistModel ℝ} (hM : Model M) (dt : ℝ) (ut : List (V3 ℝ)) (n : Nat) :
    ∀ (i : Nat) {x x' : V3 ℝ}, Poses x x' → Alike (List.Forall₂ Poses)
      (RungeKutta.solveLoop dt M.f ut n i x) (RungeKutta.solveLoop dt M.f (ut.map twist) n i x') := by
  induction n with
  | zero => intro i x x' _; exact List.Forall₂.nil
  | succ n ih =>
    intro i x x' h
    rw [RungeKutta.solveLoop, RungeKutta.solveLoop]
    refine (Mirror.col_map twist ut i).bind ?_
    rintro u _ rfl
    refine (rk4_step hM dt h u).bind fun x1 x1' h1 => ?_
    refine (ih (i + 1) (poses_heading h1)).bind fun xs xs' hs => ?_
    exact List.Forall₂.cons (poses_heading h1) hs

theorem solve {M : TwistModel ℝ} (hM : Model M) (dt horizon : ℝ) (ut : List (V3 ℝ)) {x x' : V3 ℝ}
    (h : Poses x x') : Alike (List.Forall₂ Poses) (RungeKutta.solve dt M.f x ut horizon)
      (RungeKutta.solve dt M.f x' (ut.map twist) horizon) := by
  unfold RungeKutta.solve
  exact Alike.same fun n _ => solveLoop hM dt ut n.toNat 0 h

/-! ## Memory -/

theorem at_exchange {l l' : List (Nat × V3 ℝ)} (h : List.Forall₂ (fun a b => b.1 = a.1 ∧ Poses a.2 b.2) l l')
    (k : Nat) : Alike Poses (ReplayBuffer.at' l k) (ReplayBuffer.at' l' k) := by
  unfold ReplayBuffer.at'
  induction h with
  | nil => exact rfl
  | @cons a b l l' hab _ ih =>
    rw [List.find?_cons, List.find?_cons, hab.1]
    cases hk : (a.1 == k) with
    | true => exact hab.2
    | false => exact ih

theorem concat_exchange {a b a' b' : List (V3 ℝ)} (h : List.Forall₂ Poses a a') (h' : List.Forall₂ Poses b b') :
    Alike (List.Forall₂ Poses) (ReplayBuffer.concatCols a b) (ReplayBuffer.concatCols a' b') := by
  unfold ReplayBuffer.concatCols
  cases h' with
  | nil => exact rfl
  | cons h1 h2 => exact List.rel_append h (List.Forall₂.cons h1 h2)

theorem sample_exchange {b b' : ReplayBuffer (V3 ℝ)} (hb : b'.batch_size = b.batch_size)
    (h : List.Forall₂ (fun a b => b.1 = a.1 ∧ Poses a.2 b.2) b.memory b'.memory) (draws : List Nat)
    {xs xs' : List (V3 ℝ)} (hx : List.Forall₂ Poses xs xs') :
    Alike (List.Forall₂ Poses) (b.sampleMemory draws xs) (b'.sampleMemory draws xs') := by
  unfold ReplayBuffer.sampleMemory
  have hl := h.length_eq
  have he : b'.memory.isEmpty = b.memory.isEmpty := by
    rw [Bool.eq_iff_iff, List.isEmpty_iff_length_eq_zero, List.isEmpty_iff_length_eq_zero, hl]
  rw [he, ← hl, hb]
  split
  · exact hx
  split
  · exact (Alike.mapM fun i _ => at_exchange h i).bind fun p p' hp => concat_exchange hp hx
  · refine (Alike.mapM fun i _ => ?_).bind fun p p' hp => concat_exchange hp hx
    unfold ReplayBuffer.drawAt
    cases draws[i]? with
    | none => exact rfl
    | some r => exact at_exchange h r

theorem append_exchange {b b' : ReplayBuffer (V3 ℝ)} (hs : b'.buffer_size = b.buffer_size)
    (h : List.Forall₂ (fun a b => b.1 = a.1 ∧ Poses a.2 b.2) b.memory b'.memory) {x x' : V3 ℝ}
    (hx : Poses x x') :
    List.Forall₂ (fun a b => b.1 = a.1 ∧ Poses a.2 b.2) (b.append x).memory (b'.append x').memory := by
  unfold ReplayBuffer.append
  rw [← h.length_eq, hs]
  split
  · show List.Forall₂ _ (ReplayBuffer.emplace _ _ _) (ReplayBuffer.emplace _ _ _)
    unfold ReplayBuffer.emplace
    have e : ∀ k : Nat, b'.memory.any (fun e => e.1 == k) = b.memory.any (fun e => e.1 == k) := by
      intro k
      generalize b.memory = l at h
      generalize b'.memory = l' at h
      induction h with
      | nil => rfl
      | cons hab _ ih => rw [List.any_cons, List.any_cons, ih, hab.1]
    rw [e]
    split
    · exact h
    · exact List.rel_append h (List.Forall₂.cons ⟨rfl, hx⟩ List.Forall₂.nil)
  · exact h

/-! ## Basis, coefficients and gradients in the frame of the map -/

theorem toFourier {p p' : V2 ℝ} (hp : p' = point p) {x x' : V3 ℝ} (h : Poses x x') :
    Poses (ErgodicControl.toFourier p x) (ErgodicControl.toFourier p' x') := by
  obtain ⟨h0, h1, h2, h3⟩ := h
  subst hp
  refine ⟨?_, ?_, h2, h3⟩
  · simp only [ErgodicControl.toFourier, point, h0]
  · simp only [ErgodicControl.toFourier, point, h1]

/-- Running through rows and then columns, or through columns and then rows. -/
theorem flatMap_exchange {α β γ : Type} (f : α → β → γ) : ∀ (as : List α) (bs : List β),
    (as.flatMap fun a => bs.map fun b => f a b).Perm (bs.flatMap fun b => as.map fun a => f a b)
  | [], bs => by simp
  | a :: as, bs => by
    rw [List.flatMap_cons]
    have h := (flatMap_exchange f as bs).append_left (bs.map fun b => f a b)
    refine h.trans ?_
    rw [List.map_eq_flatMap]
    exact List.flatMap_append_perm bs (fun b => [f a b]) _

theorem numbers_exchange (n : Nat) : ((Basis.numbers n).map Prod.swap).Perm (Basis.numbers n) := by
  unfold Basis.numbers
  rw [List.map_flatMap]
  simp only [List.map_map]
  exact flatMap_exchange (fun i j : Nat => ((i : Int), (j : Int))) _ _

theorem weight_exchange (k : Int × Int) : (Basis.weight k.swap : ℝ) = Basis.weight k := by
  unfold Basis.weight
  rw [Prod.fst_swap, Prod.snd_swap, Int.add_comm]

theorem fk_exchange {b b' : Basis ℝ} (hx : b'.lx = b.ly) (hy : b'.ly = b.lx) {p p' : V2 ℝ} (h : p' = point p)
    (k : Int × Int) : b'.fk p' k.swap = b.fk p k := by
  subst h
  simp only [Basis.fk, real_mul, hx, hy, point, Prod.fst_swap, Prod.snd_swap]
  ring

theorem dfk_exchange {b b' : Basis ℝ} (hx : b'.lx = b.ly) (hy : b'.ly = b.lx) {p p' : V2 ℝ} (h : p' = point p)
    (k : Int × Int) : (b'.dfk p' k.swap).c0 = (b.dfk p k).c1 ∧ (b'.dfk p' k.swap).c1 = (b.dfk p k).c0 := by
  subst h
  simp only [Basis.dfk, real_mul, real_neg, hx, hy, point, Prod.fst_swap, Prod.snd_swap]
  constructor <;> ring

theorem poses_point {x x' : V3 ℝ} (h : Poses x x') : x'.xy = point x.xy := by
  ext
  · exact h.1
  · exact h.2.1

/-- the entry of `trajCoeff` that belongs to a pair of frequencies -/
noncomputable def coeff (b : Basis ℝ) (xs : List (V3 ℝ)) (k : Int × Int) : ℝ :=
  (lit 1 0 /. Flt.ofInt xs.length) *. fsum (xs.map fun x => b.fk x.xy k)

theorem coeff_exchange {b b' : Basis ℝ} (hx : b'.lx = b.ly) (hy : b'.ly = b.lx) {xs xs' : List (V3 ℝ)}
    (h : List.Forall₂ Poses xs xs') (k : Int × Int) : coeff b' xs' k.swap = coeff b xs k := by
  unfold coeff
  rw [← h.length_eq]
  congr 1
  rw [fsum_real, fsum_real]
  congr 1
  induction h with
  | nil => rfl
  | cons hab _ ih =>
    rw [List.map_cons, List.map_cons, ih, fk_exchange hx hy (poses_point hab)]

/-- The sum over lists in step is one over pairs of a frequency and its target coefficient. -/
theorem grad_terms (d w c : Int × Int → ℝ) : ∀ (ks : List (Int × Int)) (ps : List ℝ),
    (List.zipWith (fun k w => d k * w) ks (List.zipWith (fun l d => l *. d) (ks.map w)
      (List.zipWith (fun c p => c -. p) (ks.map c) ps))).sum =
    ((ks.zip ps).map fun kp => d kp.1 * (w kp.1 * (c kp.1 - kp.2))).sum
  | [], ps => by simp
  | k :: ks, [] => by simp
  | k :: ks, p :: ps => by
    simp only [List.map_cons, List.zipWith_cons_cons, List.sum_cons, List.zip_cons_cons]
    rw [grad_terms d w c ks ps, real_mul, real_sub]

theorem grad_sum {ks : List (Int × Int)} {ps ps' : List ℝ} {d d' w c c' : Int × Int → ℝ}
    (h : (ks.zip ps').Perm ((ks.zip ps).map fun kp => (kp.1.swap, kp.2))) (hd : ∀ k, d' k.swap = d k)
    (hw : ∀ k, w k.swap = w k) (hc : ∀ k, c' k.swap = c k) :
    (List.zipWith (fun k w => d' k * w) ks (List.zipWith (fun l d => l *. d) (ks.map w)
      (List.zipWith (fun c p => c -. p) (ks.map c') ps'))).sum =
    (List.zipWith (fun k w => d k * w) ks (List.zipWith (fun l d => l *. d) (ks.map w)
      (List.zipWith (fun c p => c -. p) (ks.map c) ps))).sum := by
  rw [grad_terms, grad_terms, (h.map _).sum_eq, List.map_map]
  congr 1
  refine List.map_congr_left fun kp _ => ?_
  simp only [Function.comp, hd, hw, hc]

theorem grad_exchange {e e' : ErgodicControl ℝ} (h : Controllers e e') {ts ts' : List (V3 ℝ)}
    (ht : List.Forall₂ Poses ts ts') {xs xs' : List (V3 ℝ)} (hs : List.Forall₂ Poses xs xs') :
    e'.gradErgodicMetric (e'.basis.trajCoeff ts') xs' = (e.gradErgodicMetric (e.basis.trajCoeff ts) xs).map vec := by
  obtain ⟨n, hk, hl⟩ := h.listed
  have hph := h.phik
  rw [h.k] at hph
  unfold ErgodicControl.gradErgodicMetric Basis.trajCoeff
  rw [h.lamdak, h.k, hl, ← hk]
  dsimp only
  induction hs with
  | nil => rfl
  | @cons x x' _ _ hab _ ih =>
    simp only [List.map_cons]
    rw [ih]
    congr 1
    have hp := poses_point hab
    have e0 := grad_sum (d := fun k => (e.basis.dfk x.xy k).c1) (d' := fun k => (e'.basis.dfk x'.xy k).c0) hph (fun k => (dfk_exchange h.lx h.ly hp k).1) weight_exchange (coeff_exchange h.lx h.ly ht)
    have e1 := grad_sum (d := fun k => (e.basis.dfk x.xy k).c0) (d' := fun k => (e'.basis.dfk x'.xy k).c1) hph (fun k => (dfk_exchange h.lx h.ly hp k).2) weight_exchange (coeff_exchange h.lx h.ly ht)
    ext
    · simp only [ErgodicControl.gradTimes, Basis.gradFourierBasis, fsum_real, List.zipWith_map_left, real_mul, vec, h.k,
        h.weight]
      simp only [List.zipWith_map_left, real_mul, coeff, fsum_real] at e0
      exact congrArg (· * e.expl_weight) e0
    · simp only [ErgodicControl.gradTimes, Basis.gradFourierBasis, fsum_real, List.zipWith_map_left, real_mul, vec, h.k,
        h.weight]
      simp only [List.zipWith_map_left, real_mul, coeff, fsum_real] at e1
      exact congrArg (· * e.expl_weight) e1
    · simp [vec, real_lit]

theorem barrier_exchange {e e' : ErgodicControl ℝ} (h : Controllers e e') {xs xs' : List (V3 ℝ)}
    (hs : List.Forall₂ Poses xs xs') : e'.gradBarrier xs' = (e.gradBarrier xs).map vec := by
  unfold ErgodicControl.gradBarrier
  rw [h.lx, h.ly]
  induction hs with
  | nil => rfl
  | @cons x x' _ _ hab _ ih =>
    simp only [List.map_cons]
    rw [ih]
    congr 1
    ext
    · show _ = ErgodicControl.barrierAxis x.c1 _
      rw [← hab.1]
    · show _ = ErgodicControl.barrierAxis x.c0 _
      rw [← hab.2.1]
    · simp [vec, real_lit]

/-! ## Co-states and controls -/

theorem rhodot_exchange {M : TwistModel ℝ} (hM : Model M) {x x' : V3 ℝ} (h : Poses x x') (u rho gdx dbar : V3 ℝ) :
    rhodot (vec rho) (vec gdx) (vec dbar) (M.fdx x' (twist u)) = vec (rhodot rho gdx dbar (M.fdx x u)) := by
  unfold rhodot
  rw [hM.fdx h]
  ext <;> simp only [V3.sub, V3.neg, vec, real_sub, real_neg] <;> ring

theorem stepBack_exchange {M : TwistModel ℝ} (hM : Model M) {x x' : V3 ℝ} (h : Poses x x') (dt : ℝ)
    (u rho gdx dbar : V3 ℝ) :
    RungeKutta.stepBack dt rhodot (vec rho) (vec gdx) (vec dbar) (M.fdx x' (twist u)) =
      vec (RungeKutta.stepBack dt rhodot rho gdx dbar (M.fdx x u)) := by
  unfold RungeKutta.stepBack
  simp only [rhodot_exchange hM h, ← vec_smul, ← vec_sub, ← vec_add]

theorem solveBackLoop_exchange {M : TwistModel ℝ} (hM : Model M) (dt : ℝ) {xs xs' : List (V3 ℝ)}
    (h : List.Forall₂ Poses xs xs') (ut edx bdx : List (V3 ℝ)) (n : Nat) : ∀ (rho : V3 ℝ) (acc : List (V3 ℝ)),
    Alike (fun a b => b = a.map vec) (RungeKutta.solveBackLoop dt rhodot M.fdx xs ut edx bdx n rho acc)
      (RungeKutta.solveBackLoop dt rhodot M.fdx xs' (ut.map twist) (edx.map vec) (bdx.map vec) n (vec rho)
        (acc.map vec)) := by
  induction n with
  | zero => intro rho acc; exact rfl
  | succ n ih =>
    intro rho acc
    rw [RungeKutta.solveBackLoop, RungeKutta.solveBackLoop]
    refine (Mirror.col_map vec edx n).bind ?_
    rintro a _ rfl
    refine (Mirror.col_map vec bdx n).bind ?_
    rintro b _ rfl
    refine (Mirror.col_forall₂ h n).bind fun x x' hx => ?_
    refine (Mirror.col_map twist ut n).bind ?_
    rintro u _ rfl
    dsimp only
    rw [stepBack_exchange hM hx]
    exact ih _ (_ :: acc)

theorem newControl_exchange {e e' : ErgodicControl ℝ} (h : Controllers e e') (hf : Fair e)
    {x x' rho : V3 ℝ} (hx : (e.model.fdu x').t.mulVec (vec rho) = twist ((e.model.fdu x).t.mulVec rho)) :
    Alike (fun a b => b = twist a) (e.newControl x rho) (e'.newControl x' (vec rho)) := by
  obtain ⟨l1, l2, r1, r2, r3, r4⟩ := hf
  unfold ErgodicControl.newControl
  rw [h.Rinv, h.umin, h.umax, h.model]
  have assoc (A B : M3 ℝ) (v : V3 ℝ) : (A.mul B).mulVec v = A.mulVec (B.mulVec v) := by
    ext <;> simp only [M3.mul, M3.mulVec, M3.t, V3.dot, real_add, real_mul] <;> ring
  have hu : (e.Rinv.neg.mul (e.model.fdu x').t).mulVec (vec rho) =
      twist ((e.Rinv.neg.mul (e.model.fdu x).t).mulVec rho) := by
    rw [assoc, assoc, hx]
    generalize (e.model.fdu x).t.mulVec rho = w
    ext <;> simp only [M3.mulVec, M3.neg, V3.neg, V3.dot, twist, real_add, real_mul, real_neg, r1, r2, r3, r4] <;> ring
  rw [hu]
  generalize (e.Rinv.neg.mul (e.model.fdu x).t).mulVec rho = w
  dsimp only
  refine Alike.same fun u0 _ => ?_
  have c1 := Mirror.clamp_mirror w.c1 _ e.umax.c1 (-1) (.inr ⟨rfl, l1⟩)
  have c2 := Mirror.clamp_mirror w.c2 _ e.umax.c2 (-1) (.inr ⟨rfl, l2⟩)
  rw [neg_one_mul] at c1 c2
  refine c1.bind ?_
  rintro u1 _ rfl
  refine c2.bind ?_
  rintro u2 _ rfl
  show _ = _
  simp only [twist, neg_one_mul]

theorem updateLoop_exchange {e e' : ErgodicControl ℝ} (h : Controllers e e') (hf : Fair e)
    (hM : Model e.model) {xs xs' : List (V3 ℝ)} (hs : List.Forall₂ Poses xs xs') : ∀ rs : List (V3 ℝ),
    Alike (fun a b => b = a.map twist) (e.updateLoop xs rs) (e'.updateLoop xs' (rs.map vec)) := by
  induction hs with
  | nil => intro rs; exact rfl
  | cons hab _ ih =>
    intro rs
    cases rs with
    | nil => exact rfl
    | cons r rs =>
      rw [List.map_cons, ErgodicControl.updateLoop, ErgodicControl.updateLoop]
      refine (newControl_exchange h hf (hM.fdu hab r)).bind ?_
      rintro u _ rfl
      refine (ih rs).bind ?_
      rintro us _ rfl
      exact rfl

/-! ## The target -/

theorem gaussian_exchange (q : Gaussian ℝ) (p t : V2 ℝ) :
    (gaussian q).evalTrans (point p) (point t) = q.evalTrans p t := by
  unfold Gaussian.evalTrans
  simp only [Gaussian.expForm, gaussian, square, point, V2.dot, V2.sub, real_add, real_mul, real_sub]
  congr 2
  ring

theorem evaluate_exchange (t : Target ℝ) (p q : V2 ℝ) : (target t).evaluate (point p) (point q) = t.evaluate p q := by
  unfold Target.evaluate target
  rw [List.foldl_map]
  simp only [gaussian_exchange]

/-- The length of an axis is a number or undefined behaviour. -/
theorem axisLength_cases (a b r : ℝ) : (∃ n, axisLength a b r = .ok n) ∨ axisLength a b r = .ub := by
  unfold axisLength castU32
  split
  · split
    · exact .inl ⟨_, rfl⟩
    · exact .inr rfl
  · exact .inr rfl

theorem phiGrid_exchange (lx ly res : ℝ) : Alike (fun a b => b.Perm (a.map point))
    (ErgodicControl.phiGrid lx ly res) (ErgodicControl.phiGrid ly lx res) := by
  unfold ErgodicControl.phiGrid
  rcases axisLength_cases (lit 0 0) lx res with ⟨nx, hx⟩ | hx <;>
    rcases axisLength_cases (lit 0 0) ly res with ⟨ny, hy⟩ | hy <;> rw [hx, hy]
  · simp only [Res.ok_bind]
    rw [UInt32.mul_comm, Nat.mul_comm (ny + 1).toNat]
    split
    · exact rfl
    · show List.Perm _ _
      rw [List.map_flatMap]
      simp only [List.map_map]
      exact flatMap_exchange (fun x y : ℝ => (⟨y, x⟩ : V2 ℝ)) _ _
  all_goals trivial

theorem phik_exchange (t : Target ℝ) {b b' : Basis ℝ} (hx : b'.lx = b.ly) (hy : b'.ly = b.lx) (hk : b'.k = b.k)
    (hn : (b.k.map Prod.swap).Perm b.k) (q : V2 ℝ) {pts pts' : List (V2 ℝ)} (hp : pts'.Perm (pts.map point)) :
    Alike (fun a a' => (b'.k.zip a').Perm ((b.k.zip a).map fun kp => (kp.1.swap, kp.2)))
      (b.spatialCoeff (t.fill q pts) pts) (b'.spatialCoeff ((target t).fill (point q) pts') pts') := by
  unfold Basis.spatialCoeff
  rw [if_neg (by simp [Target.fill]), if_neg (by simp [Target.fill])]
  show List.Perm _ _
  have hs : fsum (pts'.map fun p => (target t).evaluate p (point q)) = fsum (pts.map fun p => t.evaluate p q) := by
    rw [fsum_real, fsum_real, (hp.map _).sum_eq, List.map_map]
    congr 1
    exact List.map_congr_left fun p _ => evaluate_exchange t p q
  have key (k : Int × Int) : fsum (List.zipWith (fun p v => b'.fk p k.swap *. v) pts' ((target t).fill (point q) pts')) =
      fsum (List.zipWith (fun p v => b.fk p k *. v) pts (t.fill q pts)) := by
    unfold Target.fill
    dsimp only
    rw [hs]
    generalize fsum (pts.map fun p => t.evaluate p q) = s
    rw [fsum_real, fsum_real, List.map_map, List.map_map, List.zipWith_map_right, List.zipWith_map_right,
      List.zipWith_self, List.zipWith_self, (hp.map _).sum_eq, List.map_map]
    congr 1
    refine List.map_congr_left fun p _ => ?_
    simp only [Function.comp, evaluate_exchange, fk_exchange hx hy rfl]
  have zip_map (f : Int × Int → ℝ) (ks : List (Int × Int)) : ks.zip (ks.map f) = ks.map fun k => (k, f k) := by
    rw [List.zip_map_right, List.zip_eq_zipWith, List.zipWith_self, List.map_map]
    rfl
  rw [hk, zip_map, zip_map, List.map_map]
  refine (hn.symm.map _).trans ?_
  rw [List.map_map]
  refine List.Perm.of_eq (List.map_congr_left fun k _ => ?_)
  simp only [Function.comp, key]

theorem configTarget_exchange {e e' : ErgodicControl ℝ} (h : Controllers e e') {g g' : GridMap ℝ}
    (hg : Extent g g') {x x' : V3 ℝ} (hx : Poses x x') :
    Alike (fun c c' => Controllers c c' ∧ Poses c.pose c'.pose ∧ c'.map_pos = point c.map_pos ∧
        c.model = e.model ∧ (Fair e → Fair c))
      (ErgodicControl.configTarget { e with pose := x } g) (ErgodicControl.configTarget { e' with pose := x' } g') := by
  unfold ErgodicControl.configTarget
  simp only [real_sub, hg.xmin, hg.xmax, hg.ymin, hg.ymax, h.lx, h.ly]
  rw [Bool.and_comm]
  split
  · exact ⟨⟨h.model, h.dt, h.horizon, h.resolution, h.weight, h.steps, h.Rinv, h.umin, h.umax, h.listed, h.k, h.lamdak,
      h.lx, h.ly, h.ut, h.rhoT, h.phik, h.buffer_size, h.batch_size, h.memory, h.target⟩, hx, rfl, rfl, fun hf => hf⟩
  · rw [h.resolution, h.target]
    refine (phiGrid_exchange _ _ _).bind fun pts pts' hp => ?_
    obtain ⟨n, hk, hl⟩ := h.listed
    refine (phik_exchange e.target (b := { e.basis with lx := g.xmax - g.xmin, ly := g.ymax - g.ymin })
      (b' := { e'.basis with lx := g.ymax - g.ymin, ly := g.xmax - g.xmin }) rfl rfl h.k
      (by rw [hk]; exact numbers_exchange n) ⟨g.xmin, g.ymin⟩ hp).bind fun ph ph' hph => ?_
    exact ⟨⟨h.model, h.dt, h.horizon, rfl, h.weight, h.steps, h.Rinv, h.umin, h.umax, ⟨n, hk, hl⟩, h.k, h.lamdak,
      rfl, rfl, h.ut, h.rhoT, hph, h.buffer_size, h.batch_size, h.memory, rfl⟩, hx, rfl, rfl, fun hf => hf⟩

theorem controlTail_exchange {c c' : ErgodicControl ℝ} (h : Controllers c c') (hf : Fair c)
    (hM : Model c.model) (hp : Poses c.pose c'.pose) (p : c'.map_pos = point c.map_pos) (draws : List Nat) :
    Alike (fun r r' => r'.2 = twist r.2 ∧ Controllers r.1 r'.1 ∧ Poses r.1.pose r'.1.pose ∧
        Fair r.1 ∧ r.1.model = c.model)
      (controlTail c draws) (controlTail c' draws) := by
  unfold controlTail
  rw [h.dt, h.model, h.ut, h.horizon]
  refine (solve hM c.dt c.horizon c.ut hp).bind fun traj traj' ht => ?_
  refine (sample_exchange h.batch_size h.memory draws ht).bind fun total total' ht => ?_
  have hF : List.Forall₂ Poses (total.map (ErgodicControl.toFourier c.map_pos))
      (total'.map (ErgodicControl.toFourier c'.map_pos)) := by
    rw [List.forall₂_map_left_iff, List.forall₂_map_right_iff]
    exact ht.imp fun _ _ hab => toFourier p hab
  generalize total.map (ErgodicControl.toFourier c.map_pos) = T at hF ⊢
  generalize total'.map (ErgodicControl.toFourier c'.map_pos) = T' at hF ⊢
  dsimp only
  rw [h.steps, ← hF.length_eq]
  split
  · exact rfl
  have hX := List.forall₂_drop (T.length - c.steps.toNat) hF
  rw [grad_exchange h hF hX, barrier_exchange h hX, h.rhoT]
  refine Alike.bind (R := fun a b => b = a.map vec) ?_ ?_
  · unfold RungeKutta.solveBack
    exact Alike.same fun n _ => solveBackLoop_exchange hM c.dt hX c.ut _ _ n.toNat c.rhoT []
  · rintro rhot _ rfl
    refine (updateLoop_exchange h hf hM hX rhot).bind ?_
    rintro ut _ rfl
    refine (Mirror.col_map twist ut 0).bind ?_
    rintro u _ rfl
    exact ⟨rfl, ⟨rfl, rfl, rfl, h.resolution, h.weight, rfl, h.Rinv, h.umin, h.umax, h.listed, h.k, h.lamdak, h.lx, h.ly,
      rfl, rfl, h.phik, h.buffer_size, h.batch_size, h.memory, h.target⟩, hp, hf, rfl⟩

end Exchange

/-- C133: the controller treats the two axes alike.  Two controllers with the same settings and exchanged
targets, coefficients, memories and plans, called at exchanged poses on maps that cover exchanged areas,
either both fail in the same way, or return exchanged twists and are again in exchanged states. -/
theorem C133_control {e e' : ErgodicControl ℝ} (h : Exchange.Controllers e e') (hf : Exchange.Fair e)
    (hM : e.model = omniModel ∨ e.model = cartModel) {g g' : GridMap ℝ} (hg : Exchange.Extent g g')
    {x x' : V3 ℝ} (hx : Exchange.Poses x x') (draws : List Nat) :
    Alike (fun r r' => r'.2 = Exchange.twist r.2 ∧ Exchange.Controllers r.1 r'.1 ∧ Exchange.Poses r.1.pose r'.1.pose ∧
        Exchange.Fair r.1 ∧ r.1.model = e.model)
      (e.control g x draws) (e'.control g' x' draws) := by
  rw [control_tail, control_tail]
  refine (Exchange.configTarget_exchange h hg hx).bind fun c c' ⟨hc, hp, p, em, ef⟩ => ?_
  have hshift : Alike (fun a b => b = a.map Exchange.twist) (ErgodicControl.shift c.ut)
      (ErgodicControl.shift c'.ut) := by
    unfold ErgodicControl.shift
    rw [hc.ut, List.length_map]
    split
    · exact rfl
    · show _ = _
      rw [List.map_append, List.map_drop]
      congr 1
      simp [Exchange.twist, V3.zero, real_lit]
  refine hshift.bind ?_
  rintro ut _ rfl
  refine Alike.mono (Exchange.controlTail_exchange (c := { c with ut := ut })
    (c' := { c' with ut := ut.map Exchange.twist }) ⟨hc.model, hc.dt, hc.horizon, hc.resolution, hc.weight, hc.steps,
    hc.Rinv, hc.umin, hc.umax, hc.listed, hc.k, hc.lamdak, hc.lx, hc.ly, rfl, hc.rhoT, hc.phik, hc.buffer_size,
    hc.batch_size, hc.memory, hc.target⟩ (ef hf) ?_ hp p draws)
    fun r r' h => ⟨h.1, h.2.1, h.2.2.1, h.2.2.2.1, h.2.2.2.2.trans em⟩
  show Exchange.Model c.model
  rw [em]
  rcases hM with hM | hM <;> rw [hM]
  · exact Exchange.model_omni
  · exact Exchange.model_cart

end Ergodic
