import Verif.Spec.Targets
import Verif.Lemmas.Session
import Verif.Props.Target
import Verif.Props.Local

/-!
# Property C113: neither the order of the targets nor listing all of them several times matters
-/

namespace Ergodic

theorem motion_append {F : Type} (a b : List (Out F)) : motionOf (a ++ b) = motionOf a ++ motionOf b := by
  induction a with
  | nil => rfl
  | cons o a ih => cases o <;> simp [motionOf, ih]

/-- C113: proportional densities give the same values on every grid. -/
theorem C113_fill {t t' : Target ℝ} (h : Proportional t t') (trans : V2 ℝ) (grid : List (V2 ℝ)) :
    t'.fill trans grid = t.fill trans grid := by
  obtain ⟨k, hk, h⟩ := h
  unfold Target.fill
  dsimp only
  rw [List.map_map, List.map_map]
  have e : (fun p => t'.evaluate p trans) = fun p => k * t.evaluate p trans := funext fun p => h p trans
  have hs : fsum (grid.map fun p => t'.evaluate p trans) = k * fsum (grid.map fun p => t.evaluate p trans) := by
    rw [fsum_real, fsum_real, e, List.sum_map_mul_left]
  refine List.map_congr_left fun p _ => ?_
  simp only [Function.comp]
  rw [hs, real_div, real_div, h]
  exact mul_div_mul_left _ _ hk

/-- controllers that differ in the target only, which describes the same distribution -/
def EcTarget (t t' : Target ℝ) (e e' : ErgodicControl ℝ) : Prop := e' = { e with target := t' } ∧ e.target = t

section
variable {t t' : Target ℝ}

theorem EcTarget.config (ht : Proportional t t') {e e' : ErgodicControl ℝ} (h : EcTarget t t' e e') (g : GridMap ℝ) :
    SameOutcome (EcTarget t t') (e.configTarget g) (e'.configTarget g) := by
  obtain ⟨rfl, rfl⟩ := h
  unfold ErgodicControl.configTarget
  dsimp only
  split
  · exact .ok ⟨rfl, rfl⟩
  · refine SameOutcome.bind (.of_eq rfl) ?_
    rintro _ pg rfl
    rw [C113_fill ht]
    refine SameOutcome.bind (.of_eq rfl) ?_
    rintro _ pk rfl
    exact .ok ⟨rfl, rfl⟩

theorem updateLoop_target (e : ErgodicControl ℝ) (t' : Target ℝ) : ∀ xs rs : List (V3 ℝ),
    ErgodicControl.updateLoop { e with target := t' } xs rs = e.updateLoop xs rs
  | x :: xs, r :: rs => by
    rw [ErgodicControl.updateLoop, ErgodicControl.updateLoop, updateLoop_target e t' xs rs]
    rfl
  | [], _ => rfl
  | _ :: _, [] => rfl

theorem EcTarget.control (ht : Proportional t t') {e e' : ErgodicControl ℝ} (h : EcTarget t t' e e') (g : GridMap ℝ)
    (x : V3 ℝ) (draws : List Nat) :
    SameOutcome (fun r r' => EcTarget t t' r.1 r'.1 ∧ r'.2 = r.2) (e.control g x draws) (e'.control g x draws) := by
  unfold ErgodicControl.control
  refine SameOutcome.bind (EcTarget.config ht (e := { e with pose := x }) (e' := { e' with pose := x }) ?_ g) ?_
  · obtain ⟨rfl, rfl⟩ := h
    exact ⟨rfl, rfl⟩
  rintro a a' ⟨rfl, ha⟩
  refine SameOutcome.bind (.of_eq rfl) ?_
  rintro _ ut rfl
  refine SameOutcome.bind (.of_eq rfl) ?_
  rintro _ traj rfl
  refine SameOutcome.bind (.of_eq rfl) ?_
  rintro _ total rfl
  dsimp only
  split
  · exact .throw _
  · refine SameOutcome.bind (.of_eq rfl) ?_
    rintro _ rhot rfl
    refine SameOutcome.bind (.of_eq (updateLoop_target { a with ut := ut } t' _ _)) ?_
    rintro _ ut' rfl
    refine SameOutcome.bind (.of_eq rfl) ?_
    rintro _ u rfl
    exact .ok ⟨⟨rfl, ha⟩, rfl⟩

/-- nodes that differ in the target only -/
def NodeTarget (t t' : Target ℝ) (s s' : Expl ℝ) : Prop :=
  s' = { s with ec := { s.ec with target := t' } } ∧ s.ec.target = t

/-- reactions that differ in the remembered target only -/
def ReactionTarget (t t' : Target ℝ) (r r' : Expl ℝ × List (Out ℝ)) : Prop := NodeTarget t t' r.1 r'.1 ∧ r'.2 = r.2

variable {s s' : Expl ℝ}

theorem NodeTarget.localize (h : NodeTarget t t' s s') (tf : Option (TransformMsg ℝ)) :
    NodeTarget t t' (s.localize tf) (s'.localize tf) := by
  obtain ⟨rfl, rfl⟩ := h
  cases tf <;> exact ⟨rfl, rfl⟩

theorem NodeTarget.advanceDwa (h : NodeTarget t t' s s') : NodeTarget t t' s.advanceDwa s'.advanceDwa := by
  obtain ⟨rfl, rfl⟩ := h
  unfold Expl.advanceDwa
  dsimp only
  split <;> exact ⟨rfl, rfl⟩

theorem NodeTarget.replan (ht : Proportional t t') (h : NodeTarget t t' s s') (draws : List Nat) :
    SameOutcome (ReactionTarget t t') (s.replan draws) (s'.replan draws) := by
  obtain ⟨rfl, h2⟩ := h
  unfold Expl.replan
  dsimp only
  split
  · exact .ok ⟨⟨rfl, h2⟩, rfl⟩
  · refine SameOutcome.bind (EcTarget.control ht ⟨rfl, h2⟩ s.grid s.pose draws) ?_
    rintro ⟨ec, u⟩ ⟨ec', u'⟩ ⟨⟨h3, h4⟩, h5⟩
    dsimp only at h3 h4 h5
    subst h3 h5
    refine SameOutcome.bind (.of_eq rfl) ?_
    rintro _ p rfl
    exact .ok ⟨⟨rfl, h4⟩, rfl⟩

theorem NodeTarget.avoid (h : NodeTarget t t' s s') : SameOutcome (ReactionTarget t t') s.avoid s'.avoid := by
  obtain ⟨rfl, h2⟩ := h
  unfold Expl.avoid
  dsimp only
  refine SameOutcome.bind (.of_eq rfl) ?_
  rintro _ valid rfl
  split
  · exact .ok ⟨⟨rfl, h2⟩, rfl⟩
  · split
    · refine SameOutcome.bind (.of_eq rfl) ?_
      rintro _ r rfl
      exact .ok ⟨⟨rfl, h2⟩, rfl⟩
    · refine SameOutcome.bind (.of_eq rfl) ?_
      rintro _ xt rfl
      refine SameOutcome.bind (.of_eq rfl) ?_
      rintro _ r rfl
      split
      · refine SameOutcome.bind (.of_eq rfl) ?_
        rintro _ p rfl
        exact .ok ⟨⟨rfl, h2⟩, rfl⟩
      · exact .ok ⟨⟨rfl, h2⟩, rfl⟩

theorem NodeTarget.step (ht : Proportional t t') (h : NodeTarget t t' s s') (e : Event ℝ) :
    SameOutcome (ReactionTarget t t') (s.step e) (s'.step e) := by
  cases e with
  | map m =>
    obtain ⟨rfl, h2⟩ := h
    exact .ok ⟨⟨rfl, h2⟩, rfl⟩
  | odom v =>
    obtain ⟨rfl, h2⟩ := h
    exact .ok ⟨⟨rfl, h2⟩, rfl⟩
  | tick tf draws =>
    have h1 := h.localize tf
    show SameOutcome _ (s.iteration tf draws) (s'.iteration tf draws)
    unfold Expl.iteration
    generalize s.localize tf = a at h1
    generalize s'.localize tf = a' at h1
    have e1 : a'.map_received = a.map_received := by rw [h1.1]
    have e2 : a'.pose_known = a.pose_known := by rw [h1.1]
    dsimp only
    rw [e1, e2]
    split
    · refine SameOutcome.bind (h1.advanceDwa.replan ht draws) ?_
      rintro ⟨b, o⟩ ⟨b', o'⟩ ⟨hb, ho⟩
      refine SameOutcome.bind hb.avoid ?_
      rintro ⟨c, q⟩ ⟨c', q'⟩ ⟨hc, hq⟩
      refine .ok ⟨hc, ?_⟩
      dsimp only at ho hq hc ⊢
      have hu : c'.u = c.u := by rw [hc.1]
      rw [ho, hq, hu]
    · exact .ok ⟨h1, rfl⟩

theorem NodeTarget.node_run (ht : Proportional t t') {n n' : Node ℝ} (hu : n'.up = n.up)
    (h : NodeTarget t t' n.expl n'.expl) (es : List (Event ℝ)) :
    SameOutcome (fun r r' => r'.2 = r.2) (n.run es) (n'.run es) := by
  induction es generalizing n n' with
  | nil => exact .ok rfl
  | cons e es ih =>
    have hs : SameOutcome (fun r r' => r'.1.up = r.1.up ∧ NodeTarget t t' r.1.expl r'.1.expl ∧
        r'.2 = r.2) (n.step e) (n'.step e) := by
      unfold Node.step
      rw [hu]
      split
      · refine SameOutcome.bind (h.step ht e) ?_
        rintro ⟨b, o⟩ ⟨b', o'⟩ ⟨hb, ho⟩
        exact .ok ⟨rfl, hb, ho⟩
      · exact .ok ⟨hu, h, rfl⟩
    refine SameOutcome.bind hs ?_
    rintro ⟨b, o⟩ ⟨b', o'⟩ ⟨hub, hb, ho⟩
    refine SameOutcome.bind (ih hub hb) ?_
    rintro ⟨c, q⟩ ⟨c', q'⟩ hq
    refine .ok ?_
    dsimp only at ho hq ⊢
    rw [ho, hq]

end

/-! ## The two executables -/

/-- the Gaussians of a list of means and deviations, of which none may vanish -/
theorem gaussians_same {l l' : List (V2 ℝ × V2 ℝ)} (hm : ∀ q, q ∈ l' ↔ q ∈ l)
    (hp : ∀ f : V2 ℝ × V2 ℝ → Gaussian ℝ, Proportional ⟨l.map f⟩ ⟨l'.map f⟩) :
    SameOutcome (fun g g' => Proportional ⟨g⟩ ⟨g'⟩) (l.mapM fun t => Gaussian.new t.1 t.2)
      (l'.mapM fun t => Gaussian.new t.1 t.2) := by
  let f : V2 ℝ × V2 ℝ → Gaussian ℝ := fun t =>
    { mu := t.1
      cov := ⟨⟨t.2.c0 *. t.2.c0, lit 0 0⟩, ⟨lit 0 0, t.2.c1 *. t.2.c1⟩⟩
      cov_inv := ⟨⟨lit 1 0 /. (t.2.c0 *. t.2.c0), lit 0 0⟩, ⟨lit 0 0, lit 1 0 /. (t.2.c1 *. t.2.c1)⟩⟩ }
  let bad : V2 ℝ × V2 ℝ → Prop := fun t =>
    ¬ Flt.lt (lit 0 0) (t.2.c0 *. t.2.c0) ∨ ¬ Flt.lt (lit 0 0) (t.2.c1 *. t.2.c1)
  have hnew : ∀ t : V2 ℝ × V2 ℝ, Gaussian.new t.1 t.2 = if bad t then .throw .runtimeError else .ok (f t) := fun _ => rfl
  have key : ∀ l : List (V2 ℝ × V2 ℝ), (l.mapM fun t => Gaussian.new t.1 t.2) =
      if ∃ t ∈ l, bad t then .throw .runtimeError else .ok (l.map f) := by
    intro l
    induction l with
    | nil => simp
    | cons a l ih =>
      rw [List.mapM_cons, ih, hnew]
      by_cases ha : bad a
      · rw [if_pos ha]
        exact (if_pos ⟨a, List.mem_cons_self, ha⟩).symm
      · rw [if_neg ha, Res.ok_bind]
        by_cases hl : ∃ t ∈ l, bad t
        · rw [if_pos hl, if_pos]
          · rfl
          · obtain ⟨t, h1, h2⟩ := hl
            exact ⟨t, List.mem_cons_of_mem _ h1, h2⟩
        · rw [if_neg hl, if_neg]
          · rfl
          · rintro ⟨t, h1, h2⟩
            rcases List.mem_cons.mp h1 with rfl | h1
            · exact ha h2
            · exact hl ⟨t, h1, h2⟩
  rw [key, key]
  have e : (∃ t ∈ l', bad t) ↔ ∃ t ∈ l, bad t := by simp only [hm]
  by_cases h : ∃ t ∈ l, bad t
  · rw [if_pos h, if_pos (e.mpr h)]
    exact .throw _
  · rw [if_neg h, if_neg (fun h' => h (e.mp h'))]
    exact .ok (hp f)

theorem start_motion {ec : ErgodicControl ℝ} {collision : Collision ℝ} {dwa : DynamicWindow ℝ} {t t' : Target ℝ}
    (ht : Proportional t t') {frame : String} {val_dt val_horizon : ℝ} (up : Bool) (es : List (Event ℝ)) :
    SameMotion (session (.ok (⟨(Expl.start ec collision dwa t frame val_dt val_horizon).1, up⟩,
        (Expl.start ec collision dwa t frame val_dt val_horizon).2)) es)
      (session (.ok (⟨(Expl.start ec collision dwa t' frame val_dt val_horizon).1, up⟩,
        (Expl.start ec collision dwa t' frame val_dt val_horizon).2)) es) := by
  unfold session SameMotion
  rw [Res.ok_bind, Res.ok_bind]
  refine SameOutcome.bind (NodeTarget.node_run ht (n := ⟨(Expl.start ec collision dwa t frame val_dt val_horizon).1, up⟩)
    (n' := ⟨(Expl.start ec collision dwa t' frame val_dt val_horizon).1, up⟩) rfl ⟨rfl, rfl⟩ es) ?_
  rintro ⟨n1, o1⟩ ⟨n2, o2⟩ h
  dsimp only at h
  subst h
  refine .ok ?_
  rw [motion_append, motion_append]
  rfl

theorem session_motion_bind {α β : Type} {R : α → β → Prop} {a : Res α} {b : Res β} (h : SameOutcome R a b)
    {f : α → Res (Node ℝ × List (Out ℝ))} {g : β → Res (Node ℝ × List (Out ℝ))} {es : List (Event ℝ)}
    (hf : ∀ x y, R x y → SameMotion (session (f x) es) (session (g y) es)) :
    SameMotion (session (a >>= f) es) (session (b >>= g) es) := by
  cases h with
  | ok h => exact hf _ _ h
  | throw e => exact .throw e
  | ub => exact .ub
  | timeout => exact .timeout

theorem omni_motion (p : Params ℝ) (l : List (V2 ℝ × V2 ℝ)) (hm : ∀ q, q ∈ l ↔ q ∈ p.targets)
    (hp : ∀ f : V2 ℝ × V2 ℝ → Gaussian ℝ, Proportional ⟨p.targets.map f⟩ ⟨l.map f⟩) (es : List (Event ℝ)) :
    SameMotion (session (Node.omni p) es) (session (Node.omni { p with targets := l }) es) := by
  unfold Node.omni
  refine session_motion_bind (.of_eq rfl) ?_
  rintro _ w0 rfl
  refine session_motion_bind (.of_eq rfl) ?_
  rintro _ w1 rfl
  refine session_motion_bind (.of_eq rfl) ?_
  rintro _ w2 rfl
  refine session_motion_bind (gaussians_same hm hp) ?_
  intro gs gs' hg
  refine session_motion_bind (.of_eq rfl) ?_
  rintro _ c rfl
  refine session_motion_bind (.of_eq rfl) ?_
  rintro _ ec rfl
  refine session_motion_bind (.of_eq rfl) ?_
  rintro _ w rfl
  exact start_motion hg _ es

theorem cart_motion (p : Params ℝ) (l : List (V2 ℝ × V2 ℝ)) (hm : ∀ q, q ∈ l ↔ q ∈ p.targets)
    (hp : ∀ f : V2 ℝ × V2 ℝ → Gaussian ℝ, Proportional ⟨p.targets.map f⟩ ⟨l.map f⟩) (es : List (Event ℝ)) :
    SameMotion (session (Node.cart p) es) (session (Node.cart { p with targets := l }) es) := by
  unfold Node.cart
  refine session_motion_bind (.of_eq rfl) ?_
  rintro _ w0 rfl
  refine session_motion_bind (.of_eq rfl) ?_
  rintro _ w1 rfl
  refine session_motion_bind (gaussians_same hm hp) ?_
  intro gs gs' hg
  refine session_motion_bind (.of_eq rfl) ?_
  rintro _ c rfl
  refine session_motion_bind (.of_eq rfl) ?_
  rintro _ ec rfl
  refine session_motion_bind (.of_eq rfl) ?_
  rintro _ w rfl
  exact start_motion hg _ es

theorem perm_proportional {l l' : List (V2 ℝ × V2 ℝ)} (h : l'.Perm l) (f : V2 ℝ × V2 ℝ → Gaussian ℝ) :
    Proportional ⟨l.map f⟩ ⟨l'.map f⟩ := by
  refine ⟨1, one_ne_zero, fun p trans => ?_⟩
  rw [evaluate_eq, evaluate_eq, one_mul]
  exact ((h.map f).map _).sum_eq

theorem repeat_proportional (l : List (V2 ℝ × V2 ℝ)) (n : Nat) (f : V2 ℝ × V2 ℝ → Gaussian ℝ) :
    Proportional ⟨l.map f⟩ ⟨((List.replicate (n + 1) l).flatten).map f⟩ := by
  refine ⟨n + 1, by positivity, fun p trans => ?_⟩
  rw [evaluate_eq, evaluate_eq]
  dsimp only
  rw [List.map_flatten, List.map_flatten, List.sum_flatten, List.map_replicate, List.map_replicate, List.map_replicate,
    List.sum_replicate, nsmul_eq_mul]
  push_cast
  rfl

theorem mem_repeat {α : Type} (l : List α) (n : Nat) (q : α) : q ∈ (List.replicate (n + 1) l).flatten ↔ q ∈ l := by
  rw [List.mem_flatten]
  constructor
  · rintro ⟨a, ha, hq⟩
    rw [(List.mem_replicate.mp ha).2] at hq
    exact hq
  · intro h
    exact ⟨l, List.mem_replicate.mpr ⟨by omega, rfl⟩, h⟩

/-- C113: the order in which targets are listed does not matter to the motion of the robot. -/
theorem C113_order (p : Params ℝ) (l : List (V2 ℝ × V2 ℝ)) (h : l.Perm p.targets) (es : List (Event ℝ)) :
    SameMotion (session (Node.omni p) es) (session (Node.omni { p with targets := l }) es) ∧
    SameMotion (session (Node.cart p) es) (session (Node.cart { p with targets := l }) es) :=
  ⟨omni_motion p l (fun _ => h.mem_iff) (perm_proportional h) es,
    cart_motion p l (fun _ => h.mem_iff) (perm_proportional h) es⟩

/-- C113: nor does it matter whether all targets are listed once or several times. -/
theorem C113_repeat (p : Params ℝ) (n : Nat) (es : List (Event ℝ)) :
    SameMotion (session (Node.omni p) es)
      (session (Node.omni { p with targets := (List.replicate (n + 1) p.targets).flatten }) es) ∧
    SameMotion (session (Node.cart p) es)
      (session (Node.cart { p with targets := (List.replicate (n + 1) p.targets).flatten }) es) :=
  ⟨omni_motion p _ (mem_repeat _ _) (repeat_proportional _ n) es,
    cart_motion p _ (mem_repeat _ _) (repeat_proportional _ n) es⟩

theorem mem_motion {F : Type} {os : List (Out F)} {u : TwistMsg F} (h : Out.twist u ∈ os) : Out.twist u ∈ motionOf os := by
  induction os with
  | nil => cases h
  | cons o os ih =>
    rcases List.mem_cons.mp h with rfl | hq
    · exact List.mem_cons_self
    · cases o with
      | target m => exact ih hq
      | trajectory p => exact List.mem_cons_of_mem _ (ih hq)
      | dwaPath p => exact List.mem_cons_of_mem _ (ih hq)
      | twist t => exact List.mem_cons_of_mem _ (ih hq)

/-- A run in which a twist is published: listing the target a thousand times leaves it as it is. -/
example : ∃ out out' u, session (Node.omni (sideParams 1 1 (-1) 1)) (farRun 0) = .ok out ∧
    session (Node.omni { sideParams 1 1 (-1) 1 with
      targets := (List.replicate 1000 (sideParams 1 1 (-1) 1).targets).flatten }) (farRun 0) = .ok out' ∧
    Out.twist u ∈ out ∧ Out.twist u ∈ motionOf out' := by
  obtain ⟨n, o, n0, nb, out, u, hn, hr, -, hu⟩ := far_case 0
  have h1 : session (Node.omni (sideParams 1 1 (-1) 1)) (farRun 0) = .ok (o ++ out) := by
    unfold session
    rw [hn, Res.ok_bind]
    dsimp only
    rw [hr, Res.ok_bind]
  have h2 := (C113_repeat (sideParams 1 1 (-1) 1) 999 (farRun 0)).1
  obtain ⟨out', h3, h4⟩ := SameOutcome.ok_of h2 h1
  refine ⟨_, out', u, h1, h3, List.mem_append_right _ hu, ?_⟩
  rw [h4]
  exact mem_motion (List.mem_append_right _ hu)

/-- Two targets in either order. -/
example (p : Params ℝ) (a b : V2 ℝ × V2 ℝ) (es : List (Event ℝ)) :
    SameMotion (session (Node.omni { p with targets := [a, b] }) es) (session (Node.omni { p with targets := [b, a] }) es) :=
  (C113_order { p with targets := [a, b] } [b, a] (List.Perm.swap _ _ _) es).1

end Ergodic
