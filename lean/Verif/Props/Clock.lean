import Verif.Spec.Clock
import Verif.Props.Mirror

/-!
# Property C135: the unit of time

Exact arithmetic.
-/

namespace Ergodic
open Real

namespace Clock
variable {s : ℝ}

theorem twist_zero (s : ℝ) : twist s V3.zero = V3.zero := by
  ext <;> simp [twist, V3.zero, real_lit]

theorem numSteps_clock (hs : 0 < s) (h dt : ℝ) : numSteps (s * h) (s * dt) = numSteps h dt := by
  unfold numSteps
  rw [real_div, real_div, mul_div_mul_left _ _ hs.ne']

/-! ## Planning -/

/-- The model with its velocities in the new unit, for the controls that occur. -/
structure Model (s : ℝ) (M : TwistModel ℝ) (ok : V3 ℝ → Prop) : Prop where
  f : ∀ x u, ok u → Alike (fun d d' => d = V3.smul s d') (M.f x u) (M.f x (twist s u))
  fdx : ∀ x u v, ok u → (M.fdx x u).t.mulVec v = V3.smul s ((M.fdx x (twist s u)).t.mulVec v)

theorem model_omni (hs : 0 < s) : Model s omniModel fun _ => True where
  f x u _ := by
    show _ = _
    ext <;> simp only [Omni.f, twist, V3.smul, real_add, real_sub, real_mul, real_cos, real_sin] <;> field_simp
  fdx x u v _ := by
    ext <;> simp only [omniModel, Omni.fdx, M3.t, M3.mulVec, V3.dot, V3.smul, twist, real_add, real_sub, real_mul,
        real_neg, real_cos, real_sin, real_lit] <;> field_simp <;> ring

theorem model_cart (hs : 0 < s) : Model s cartModel fun u => u.c1 = 0 where
  f x u hu := by
    show Alike _ (SimpleCart.f x u) (SimpleCart.f x (twist s u))
    unfold SimpleCart.f
    have e : (twist s u).c1 = u.c1 := by simp only [twist, hu, zero_div]
    rw [e]
    split
    · exact rfl
    · show _ = _
      ext <;> simp only [twist, V3.smul, real_mul, real_cos, real_sin] <;> field_simp
  fdx x u v _ := by
    ext <;> simp only [cartModel, SimpleCart.fdx, M3.t, M3.mulVec, V3.dot, V3.smul, twist, real_add, real_mul,
        real_neg, real_cos, real_sin, real_lit] <;> field_simp <;> ring

theorem rk4_step {M : TwistModel ℝ} {ok : V3 ℝ → Prop} (hM : Model s M ok) (dt : ℝ) (x : V3 ℝ) {u : V3 ℝ} (hu : ok u) :
    RungeKutta.step (s * dt) M.f x (twist s u) = RungeKutta.step dt M.f x u := by
  have key (d : V3 ℝ) : V3.smul (s * dt) (V3.smul (lit 5 1) d) = V3.smul dt (V3.smul (lit 5 1) (V3.smul s d)) := by
    ext <;> simp only [V3.smul, real_mul] <;> ring
  have key' (d : V3 ℝ) : V3.smul (s * dt) d = V3.smul dt (V3.smul s d) := by
    ext <;> simp only [V3.smul, real_mul] <;> ring
  have same {α : Type} {a b : Res α} (h : Alike (fun x y => x = y) a b) : b = a := by
    cases a <;> cases b <;> first
      | exact congrArg _ (Eq.symm h)
      | exact h.elim
      | rfl
  refine same ?_
  unfold RungeKutta.step
  refine (hM.f x u hu).bind ?_
  rintro _ k1 rfl
  rw [key]
  refine (hM.f _ u hu).bind ?_
  rintro _ k2 rfl
  rw [key]
  refine (hM.f _ u hu).bind ?_
  rintro _ k3 rfl
  rw [key']
  refine (hM.f _ u hu).bind ?_
  rintro _ k4 rfl
  show _ = _
  ext <;> simp only [V3.add, V3.smul, real_add, real_mul, real_div] <;> ring

theorem solveLoop {M : TwistModel ℝ} {ok : V3 ℝ → Prop} (hM : Model s M ok) (dt : ℝ) {ut : List (V3 ℝ)}
    (hu : ∀ u ∈ ut, ok u) (n : Nat) : ∀ (i : Nat) (x : V3 ℝ),
    RungeKutta.solveLoop (s * dt) M.f (ut.map (twist s)) n i x = RungeKutta.solveLoop dt M.f ut n i x := by
  induction n with
  | zero => intro i x; rfl
  | succ n ih =>
    intro i x
    rw [RungeKutta.solveLoop, RungeKutta.solveLoop]
    unfold col
    rw [List.getElem?_map]
    cases h : ut[i]? with
    | none => rfl
    | some u =>
      simp only [Option.map_some, Res.ok_bind]
      rw [rk4_step hM dt x (hu u (List.mem_of_getElem? h))]
      simp only [ih]

theorem solve (hs : 0 < s) {M : TwistModel ℝ} {ok : V3 ℝ → Prop} (hM : Model s M ok) (dt horizon : ℝ) {ut : List (V3 ℝ)}
    (hu : ∀ u ∈ ut, ok u) (x : V3 ℝ) :
    RungeKutta.solve (s * dt) M.f x (ut.map (twist s)) (s * horizon) = RungeKutta.solve dt M.f x ut horizon := by
  unfold RungeKutta.solve
  rw [numSteps_clock hs]
  simp only [solveLoop hM dt hu]

theorem costate_add (a b : V3 ℝ) : costate s (a.add b) = (costate s a).add (costate s b) := by
  ext <;> simp only [costate, V3.add, real_add] <;> ring

theorem rhodot_clock {M : TwistModel ℝ} {ok : V3 ℝ → Prop} (hM : Model s M ok) (x : V3 ℝ) {u : V3 ℝ} (hu : ok u)
    (rho gdx dbar : V3 ℝ) :
    rhodot (costate s rho) gdx dbar (M.fdx x (twist s u)) = rhodot rho gdx dbar (M.fdx x u) := by
  unfold rhodot
  rw [hM.fdx x u rho hu]
  ext <;> simp only [V3.sub, V3.neg, V3.smul, costate, M3.mulVec, V3.dot, real_sub, real_neg, real_mul, real_add] <;> ring

theorem stepBack_clock {M : TwistModel ℝ} {ok : V3 ℝ → Prop} (hM : Model s M ok) (x : V3 ℝ) {u : V3 ℝ} (hu : ok u)
    (dt : ℝ) (rho gdx dbar : V3 ℝ) :
    RungeKutta.stepBack (s * dt) rhodot (costate s rho) gdx dbar (M.fdx x (twist s u)) =
      costate s (RungeKutta.stepBack dt rhodot rho gdx dbar (M.fdx x u)) := by
  have key (r d : V3 ℝ) : (costate s r).sub (V3.smul (s * dt) d) = costate s (r.sub (V3.smul dt d)) := by
    ext <;> simp only [costate, V3.sub, V3.smul, real_sub, real_mul] <;> ring
  unfold RungeKutta.stepBack
  simp only [rhodot_clock hM x hu, key]
  ext <;> simp only [costate, V3.sub, V3.smul, V3.add, real_sub, real_mul, real_div, real_add] <;> ring

theorem solveBackLoop_clock {M : TwistModel ℝ} {ok : V3 ℝ → Prop} (hM : Model s M ok) (dt : ℝ) (xs : List (V3 ℝ))
    {ut : List (V3 ℝ)} (hu : ∀ u ∈ ut, ok u) (edx bdx : List (V3 ℝ)) (n : Nat) : ∀ (rho : V3 ℝ) (acc : List (V3 ℝ)),
    Alike (fun a b => b = a.map (costate s)) (RungeKutta.solveBackLoop dt rhodot M.fdx xs ut edx bdx n rho acc)
      (RungeKutta.solveBackLoop (s * dt) rhodot M.fdx xs (ut.map (twist s)) edx bdx n (costate s rho)
        (acc.map (costate s))) := by
  induction n with
  | zero => intro rho acc; exact rfl
  | succ n ih =>
    intro rho acc
    rw [RungeKutta.solveBackLoop, RungeKutta.solveBackLoop]
    refine Alike.same fun a _ => Alike.same fun b _ => Alike.same fun x _ => ?_
    unfold col
    rw [List.getElem?_map]
    cases h : ut[n]? with
    | none => exact rfl
    | some u =>
      simp only [Option.map_some, Res.ok_bind]
      rw [stepBack_clock hM x (hu u (List.mem_of_getElem? h))]
      exact ih _ (_ :: acc)

theorem clamp_clock (hs : 0 < s) (v lo hi : ℝ) :
    Alike (fun a b => b = a / s) (ErgodicControl.clampR v lo hi) (ErgodicControl.clampR (v / s) (lo / s) (hi / s)) := by
  unfold ErgodicControl.clampR fclamp
  have key (a b : ℝ) : Flt.lt (a / s) (b / s) = Flt.lt a b := by
    rw [Bool.eq_iff_iff, real_lt, real_lt]
    exact div_lt_div_iff_of_pos_right hs
  rw [key, key, key]
  split
  · exact trivial
  · show _ = _
    split
    · rfl
    · split <;> rfl

theorem newControl_clock (hs : 0 < s) (e : ErgodicControl ℝ) (x rho : V3 ℝ) :
    Alike (fun a b => b = twist s a) (e.newControl x rho) ((controller s e).newControl x (costate s rho)) := by
  unfold ErgodicControl.newControl
  have hu : ((controller s e).Rinv.neg.mul ((controller s e).model.fdu x).t).mulVec (costate s rho) =
      twist s ((e.Rinv.neg.mul (e.model.fdu x).t).mulVec rho) := by
    show ((weights s e.Rinv).neg.mul (e.model.fdu x).t).mulVec (costate s rho) = _
    ext <;> simp only [weights, costate, twist, M3.mul, M3.mulVec, M3.neg, M3.t, V3.neg, V3.dot, real_add, real_mul, real_neg] <;>
      field_simp
  rw [hu]
  generalize (e.Rinv.neg.mul (e.model.fdu x).t).mulVec rho = w
  refine (clamp_clock hs w.c0 _ _).bind ?_
  rintro u0 _ rfl
  refine (clamp_clock hs w.c1 _ _).bind ?_
  rintro u1 _ rfl
  refine (clamp_clock hs w.c2 _ _).bind ?_
  rintro u2 _ rfl
  exact rfl

theorem updateLoop_clock (hs : 0 < s) (e : ErgodicControl ℝ) (xs : List (V3 ℝ)) : ∀ rs : List (V3 ℝ),
    Alike (fun a b => b = a.map (twist s)) (e.updateLoop xs rs)
      ((controller s e).updateLoop xs (rs.map (costate s))) := by
  induction xs with
  | nil => intro rs; exact rfl
  | cons x xs ih =>
    intro rs
    cases rs with
    | nil => exact rfl
    | cons r rs =>
      rw [List.map_cons, ErgodicControl.updateLoop, ErgodicControl.updateLoop]
      refine (newControl_clock hs e x r).bind ?_
      rintro u _ rfl
      refine (ih rs).bind ?_
      rintro us _ rfl
      exact rfl

/-- the controls a model is asked about -/
def okOf (e : ErgodicControl ℝ) (u : V3 ℝ) : Prop := e.model = omniModel ∨ u.c1 = 0

theorem model_of (hs : 0 < s) {e : ErgodicControl ℝ} (h : Drives e) :
    ∃ ok, Model s e.model ok ∧ (∀ u ∈ e.ut, ok u) ∧ ok V3.zero := by
  rcases h with h | ⟨h, -, -, hu⟩
  · rw [h]
    exact ⟨_, model_omni hs, fun _ _ => trivial, trivial⟩
  · rw [h]
    exact ⟨_, model_cart hs, hu, by simp [V3.zero, real_lit]⟩

theorem alike_and {α β : Type} {R : α → β → Prop} {P : α → Prop} {a : Res α} {b : Res β} (h : Alike R a b)
    (hp : ∀ x, a = .ok x → P x) : Alike (fun x y => R x y ∧ P x) a b := by
  cases a <;> cases b <;> first
    | exact ⟨h, hp _ rfl⟩
    | exact h

theorem updateLoop_lateral {e : ErgodicControl ℝ} (h1 : e.umin.c1 = 0) (h2 : e.umax.c1 = 0) : ∀ (xs rs : List (V3 ℝ))
    {us : List (V3 ℝ)}, e.updateLoop xs rs = .ok us → ∀ u ∈ us, u.c1 = 0 := by
  intro xs
  induction xs with
  | nil =>
    intro rs us h
    cases h
    simp
  | cons x xs ih =>
    intro rs us h
    cases rs with
    | nil => cases h
    | cons r rs =>
      rw [ErgodicControl.updateLoop, Res.bind_eq_ok] at h
      obtain ⟨u, hu, h⟩ := h
      rw [Res.bind_eq_ok] at h
      obtain ⟨rest, hr, h⟩ := h
      cases h
      intro v hv
      rcases List.mem_cons.mp hv with rfl | hv
      · unfold ErgodicControl.newControl at hu
        simp only [Res.bind_eq_ok] at hu
        obtain ⟨u0, -, u1, hc, u2, -, hu⟩ := hu
        cases hu
        rw [h1, h2] at hc
        unfold ErgodicControl.clampR fclamp at hc
        rw [if_neg (by simp)] at hc
        cases hc
        split
        · rfl
        · split
          · rfl
          · rename_i a b
            simp only [real_lt, not_lt] at a b
            exact le_antisymm b a
      · exact ih rs hr v hv

theorem configTarget_clock (e : ErgodicControl ℝ) (g : GridMap ℝ) :
    Alike (fun c c' => c' = controller s c ∧ c.ut = e.ut ∧ c.model = e.model ∧ c.umin = e.umin ∧ c.umax = e.umax)
      (e.configTarget g) ((controller s e).configTarget g) := by
  unfold ErgodicControl.configTarget
  dsimp only [controller]
  split
  · exact ⟨rfl, rfl, rfl, rfl, rfl⟩
  · refine Alike.same fun pts _ => Alike.same fun ph _ => ?_
    exact ⟨rfl, rfl, rfl, rfl, rfl⟩

theorem tail_clock (hs : 0 < s) {c c' : ErgodicControl ℝ} {ok : V3 ℝ → Prop} (hM : Model s c.model ok)
    (hok : ∀ u ∈ c.ut, ok u) (h : c' = controller s c)
    (hd : c.model = omniModel ∨ c.model = cartModel ∧ c.umin.c1 = 0 ∧ c.umax.c1 = 0) (draws : List Nat) :
    Alike (fun r r' => r' = (controller s r.1, twist s r.2) ∧ Drives r.1) (controlTail c draws) (controlTail c' draws) := by
  unfold controlTail
  have e1 : c'.dt = s * c.dt := by rw [h]; rfl
  have e2 : c'.horizon = s * c.horizon := by rw [h]; rfl
  have e3 : c'.ut = c.ut.map (twist s) := by rw [h]; rfl
  have e4 : c'.model = c.model := by rw [h]; rfl
  have e5 : c'.pose = c.pose := by rw [h]; rfl
  have e6 : c'.buffer = c.buffer := by rw [h]; rfl
  have e7 : c'.map_pos = c.map_pos := by rw [h]; rfl
  have e8 : c'.steps = c.steps := by rw [h]; rfl
  have e9 : c'.rhoT = costate s c.rhoT := by rw [h]; rfl
  have e10 : c'.gradErgodicMetric = c.gradErgodicMetric := by rw [h]; rfl
  have e11 : c'.gradBarrier = c.gradBarrier := by rw [h]; rfl
  have e12 : c'.basis = c.basis := by rw [h]; rfl
  rw [e1, e2, e3, e4, e5, e6, e7, e8, e9, e10, e11, e12, solve hs hM c.dt c.horizon hok]
  refine Alike.same fun traj _ => Alike.same fun total _ => ?_
  dsimp only
  split
  · exact rfl
  refine Alike.bind (R := fun (a b : List (V3 ℝ)) => b = a.map (costate s)) ?_ ?_
  · unfold RungeKutta.solveBack
    rw [numSteps_clock hs]
    exact Alike.same fun n _ => solveBackLoop_clock hM c.dt _ hok _ _ n.toNat c.rhoT []
  · rintro rhot _ rfl
    subst h
    refine Alike.bind (R := fun (a b : List (V3 ℝ)) => b = a.map (twist s) ∧
      (c.model = omniModel ∨ c.model = cartModel ∧ c.umin.c1 = 0 ∧ c.umax.c1 = 0 ∧ ∀ u ∈ a, u.c1 = 0)) ?_ ?_
    · refine alike_and (updateLoop_clock hs c _ rhot) fun a ha => ?_
      rcases hd with hd | ⟨hd, k1, k2⟩
      · exact .inl hd
      · exact .inr ⟨hd, k1, k2, updateLoop_lateral k1 k2 _ _ ha⟩
    · rintro ut' _ ⟨rfl, hd'⟩
      refine (Mirror.col_map (twist s) ut' 0).bind ?_
      rintro u _ rfl
      exact ⟨rfl, hd'⟩

end Clock

/-- C135: planning does not depend on the unit of time.  A controller all of whose settings are given in
another unit, the weights of squared velocities included, fails in the same way or returns the same twist in
the new unit, and is again the same controller in the new unit. -/
theorem C135_control {s : ℝ} (hs : 0 < s) {e : ErgodicControl ℝ} (hd : Clock.Drives e) (g : GridMap ℝ) (x : V3 ℝ)
    (draws : List Nat) :
    Alike (fun r r' => r' = (Clock.controller s r.1, Clock.twist s r.2) ∧ Clock.Drives r.1)
      (e.control g x draws) ((Clock.controller s e).control g x draws) := by
  rw [control_tail, control_tail]
  refine (Clock.configTarget_clock { e with pose := x } g).bind ?_
  rintro c _ ⟨rfl, h1, h2, h3, h4⟩
  replace hd : Clock.Drives c := by
    unfold Clock.Drives
    rw [h1, h2, h3, h4]
    exact hd
  have hshift : Alike (fun a b => b = a.map (Clock.twist s) ∧ ∀ u ∈ a, u ∈ c.ut ∨ u = V3.zero)
      (ErgodicControl.shift c.ut) (ErgodicControl.shift (Clock.controller s c).ut) := by
    unfold ErgodicControl.shift
    rw [show (Clock.controller s c).ut = c.ut.map (Clock.twist s) from rfl, List.length_map]
    split
    · exact rfl
    · refine ⟨?_, fun u hu => ?_⟩
      · rw [List.map_append, List.map_drop, List.map_singleton, Clock.twist_zero]
      · rcases List.mem_append.mp hu with hu | hu
        · exact .inl (List.mem_of_mem_drop hu)
        · exact .inr (List.mem_singleton.mp hu)
  refine hshift.bind ?_
  rintro ut _ ⟨rfl, hut⟩
  obtain ⟨ok, hM, hok, hz⟩ := Clock.model_of hs hd
  replace hok : ∀ u ∈ ut, ok u := fun u hu => by
    rcases hut u hu with h | rfl
    · exact hok u h
    · exact hz
  exact Clock.tail_clock hs hM (c := { c with ut := ut }) hok rfl (by
    rcases hd with hd | ⟨hd, k1, k2, -⟩
    · exact .inl hd
    · exact .inr ⟨hd, k1, k2⟩) draws

end Ergodic
