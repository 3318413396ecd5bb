import Verif.Props.MirrorWindow

/-!
# Property C132, continued: iterations in which the dynamic window takes over, in the mirror

Exact arithmetic.
-/

namespace Ergodic
open Real

/-- The first computation's result, if it has one, has a counterpart in the second. -/
theorem Alike.result {α β : Type} {R : α → β → Prop} {a : Res α} {b : Res β} (h : Alike R a b) {r : α}
    (hr : a = .ok r) : ∃ r', b = .ok r' ∧ R r r' := by
  subst hr
  cases b with
  | ok r' => exact ⟨r', rfl, h⟩
  | throw => exact h.elim
  | ub => exact h.elim
  | timeout => exact h.elim

namespace Mirror
variable {m : Mirror}

theorem model_known {M : TwistModel ℝ} (h : M = omniModel ∨ M = cartModel) : m.Model M := by
  rcases h with rfl | rfl
  · exact m.model_omni
  · exact m.model_cart

theorem validateSeen {g g' : GridMap ℝ} (h : m.Maps g g') {c : Collision ℝ} (hs : Sensible c g) (u : V3 ℝ)
    (dt : ℝ) (n : Nat) : ∀ {x x' : V3 ℝ}, m.Poses x x' → m.Seen c g u dt n x →
    validateLoop c g' (m.twist u) dt n x' = validateLoop c g u dt n x := by
  induction n with
  | zero => intros; rfl
  | succ n ih =>
    intro x x' hx hc
    obtain ⟨c1, c2⟩ := seen_succ hc
    have hx1 := stepPose_mirror hx u dt
    show (c.collisionCheck g' (stepPose (m.twist u) dt x')).bind (fun hit =>
        if hit then .ok false else validateLoop c g' (m.twist u) dt n (stepPose (m.twist u) dt x')) =
      (c.collisionCheck g (stepPose u dt x)).bind (fun hit =>
        if hit then .ok false else validateLoop c g u dt n (stepPose u dt x))
    rw [(C132_check m h hs hx1 c1).1]
    cases hk : c.collisionCheck g (stepPose u dt x) with
    | ok b =>
      cases b with
      | true => rfl
      | false => exact ih hx1 (c2 hk)
    | throw e => rfl
    | ub => rfl
    | timeout => rfl

theorem localize_odom (s : Expl ℝ) (tf : Option (TransformMsg ℝ)) :
    (s.localize tf).advanceDwa.vb = s.vb := by
  have : (s.localize tf).vb = s.vb := by cases tf <;> rfl
  rw [← this]
  unfold Expl.advanceDwa
  split <;> rfl

/-- Replanning, with what the takeover needs to know. -/
theorem replan_result {s s' : Expl ℝ} (h : m.Nodes s s') (hv : s'.vb = m.twist s.vb) (hf : m.Fair s.ec)
    (hM : s.ec.model = omniModel ∨ s.ec.model = cartModel) (hr : s.map_received = true) (hk : s.pose_known = true)
    (hs : m.Suits s.ec s.grid) (draws : List Nat) {t : Expl ℝ} {o : List (Out ℝ)} (ht : s.replan draws = .ok (t, o)) :
    ∃ t' o', s'.replan draws = .ok (t', o') ∧ m.Nodes t t' ∧ t'.vb = m.twist t.vb ∧ twists o = [] ∧ twists o' = [] ∧
      m.Fair t.ec ∧ t.ec.model = s.ec.model ∧ t.map_received = true ∧ t.pose_known = true ∧
      (t.follow_dwa = false → m.Poses t.ec.pose t'.ec.pose) := by
  unfold Expl.replan at ht ⊢
  rw [h.follow_dwa]
  by_cases hd : s.follow_dwa = true
  · rw [if_pos hd] at ht ⊢
    cases ht
    exact ⟨s', [], rfl, h, hv, rfl, rfl, hf, rfl, hr, hk, fun h => by rw [hd] at h; cases h⟩
  · rw [if_neg hd] at ht ⊢
    obtain ⟨⟨ec, u⟩, h1, ht⟩ := Res.bind_eq_ok.mp ht
    obtain ⟨⟨ec', u'⟩, h1', hu, hec, hp, hf', hm⟩ :=
      (C132_control m h.ec hf hM (h.grid hr).toExtent hs (h.pose hk) draws).result h1
    dsimp only at hu hec hp hf' hm ht
    obtain ⟨p, h2, ht⟩ := Res.bind_eq_ok.mp ht
    have hmod : m.Model ec.model := model_known (by rw [hm]; exact hM)
    have hpath : Alike (fun _ _ => True) (ec.path s.map_frame_id) (ec'.path s'.map_frame_id) := by
      unfold ErgodicControl.path
      rw [hec.model, hec.dt, hec.horizon, hec.ut]
      exact (solve hmod ec.dt ec.horizon ec.ut hp).bind fun _ _ _ => trivial
    obtain ⟨p', h2', -⟩ := hpath.result h2
    cases ht
    rw [h1', Res.ok_bind]
    dsimp only
    rw [h2', Res.ok_bind]
    exact ⟨_, _, rfl, { h with ec := hec, u := hu, follow_dwa := rfl }, hv, rfl, rfl, hf', hm, hr, hk, fun _ => hp⟩

end Mirror

/-- C132: validation and, when it fails, the search of the window: the node in the mirror ends in the
mirrored state. -/
theorem C132_takeover (m : Mirror) {s s' : Expl ℝ} (h : m.Nodes s s') (hv : s'.vb = m.twist s.vb)
    (hM : s.ec.model = omniModel ∨ s.ec.model = cartModel) (hr : s.map_received = true) (hk : s.pose_known = true)
    (hp : s.follow_dwa = false → m.Poses s.ec.pose s'.ec.pose) (hq : m.Steered s) {t : Expl ℝ} {o : List (Out ℝ)}
    (ht : s.avoid = .ok (t, o)) :
    ∃ t' o', s'.avoid = .ok (t', o') ∧ m.Nodes t t' ∧ t'.vb = m.twist t.vb ∧ twists o = [] ∧ twists o' = [] ∧
      t.ec = s.ec := by
  have hg := h.grid hr
  have hx := h.pose hk
  have hval : validateControl s'.collision s'.grid s'.pose s'.u s'.val_dt s'.val_horizon =
      validateControl s.collision s.grid s.pose s.u s.val_dt s.val_horizon := by
    rw [h.collision, h.val_dt, h.val_horizon, h.u]
    unfold validateControl
    cases hn : numSteps s.val_horizon s.val_dt with
    | ok n => exact Mirror.validateSeen hg hq.sensible s.u s.val_dt n.toNat hx (hq.seen n hn)
    | throw e => rfl
    | ub => rfl
    | timeout => rfl
  unfold Expl.avoid at ht ⊢
  rw [hval]
  obtain ⟨valid, h1, ht⟩ := Res.bind_eq_ok.mp ht
  rw [h1, Res.ok_bind]
  cases valid with
  | true =>
    simp only [if_true, Res.ok.injEq, Prod.mk.injEq] at ht ⊢
    obtain ⟨rfl, rfl⟩ := ht
    exact ⟨s', [], ⟨rfl, rfl⟩, h, hv, rfl, rfl, rfl⟩
  | false =>
    obtain ⟨w1, w2, w3⟩ := hq.window h1
    simp only [Bool.false_eq_true, if_false] at ht ⊢
    rw [h.follow_dwa]
    cases hd : s.follow_dwa with
    | true =>
      simp only [hd, if_true] at ht ⊢
      obtain ⟨⟨b, u⟩, h2, ht⟩ := Res.bind_eq_ok.mp ht
      cases ht
      have := C132_window m hg w1 hx w2 s.u w3 (hq.follow h1 hd) h2
      rw [h.dwa, hv, h.u, this, Res.ok_bind]
      exact ⟨_, _, rfl, { h with dwa := rfl, u := rfl, follow_dwa := rfl }, rfl, rfl, rfl, rfl⟩
    | false =>
      simp only [hd, Bool.false_eq_true, if_false] at ht ⊢
      obtain ⟨ref, h2, ht⟩ := Res.bind_eq_ok.mp ht
      obtain ⟨⟨b, u⟩, h3, ht⟩ := Res.bind_eq_ok.mp ht
      have hopt : Alike (List.Forall₂ m.Poses) s.ec.optTraj s'.ec.optTraj := by
        unfold ErgodicControl.optTraj
        rw [h.ec.model, h.ec.dt, h.ec.horizon, h.ec.ut]
        exact Mirror.solve (Mirror.model_known hM) _ _ _ (hp hd)
      obtain ⟨ref', h2', hrr⟩ := hopt.result h2
      have := C132_track m hg w1 hx w2 hrr s.ec.dt w3 (hq.track h1 hd ref h2) h3
      rw [h2', Res.ok_bind, h.dwa, hv, show s'.ec.timeStep = s.ec.dt from h.ec.dt, this, Res.ok_bind]
      dsimp only at ht ⊢
      cases b with
      | false =>
        simp only [Bool.false_eq_true, if_false, Res.ok.injEq, Prod.mk.injEq] at ht
        obtain ⟨rfl, rfl⟩ := ht
        rw [if_neg Bool.false_ne_true]
        exact ⟨_, _, rfl, { h with dwa := rfl, u := rfl, follow_dwa := rfl }, rfl, rfl, rfl, rfl⟩
      | true =>
        simp only [if_true] at ht ⊢
        obtain ⟨p, h4, ht⟩ := Res.bind_eq_ok.mp ht
        unfold constTwistPath at h4 ⊢
        obtain ⟨n, h5, -⟩ := Res.bind_eq_ok.mp h4
        cases ht
        rw [h5]
        exact ⟨_, _, rfl, { h with dwa := rfl, u := rfl, follow_dwa := rfl, i := rfl }, rfl, rfl, rfl, rfl⟩

/-- C132: one iteration of the control loop, whether or not the dynamic window takes over. -/
theorem C132_loop (m : Mirror) {s s' : Expl ℝ} (h : m.Nodes s s') (hv : s'.vb = m.twist s.vb) (hf : m.Fair s.ec)
    (hM : s.ec.model = omniModel ∨ s.ec.model = cartModel) {tf tf' : Option (TransformMsg ℝ)}
    (ht : (tf = none ∧ tf' = none) ∨
      ∃ a b, tf = some a ∧ tf' = some b ∧ m.Poses (Mirror.poseOf a) (Mirror.poseOf b))
    (draws : List Nat)
    (hq : s.map_received = true → (s.localize tf).pose_known = true → m.Suits s.ec s.grid ∧
      ∀ t o, (s.localize tf).advanceDwa.replan draws = .ok (t, o) → m.Steered t)
    {t : Expl ℝ} {o : List (Out ℝ)} (hi : s.iteration tf draws = .ok (t, o)) :
    ∃ t' o', s'.iteration tf' draws = .ok (t', o') ∧ m.Nodes t t' ∧ t'.vb = m.twist t.vb ∧
      twists o' = (twists o).map m.twist ∧ m.Fair t.ec ∧ t.ec.model = s.ec.model := by
  have hl := Mirror.localize_mirror h ht
  have ha := Mirror.advance_mirror hl
  have hva : (s'.localize tf').advanceDwa.vb = m.twist (s.localize tf).advanceDwa.vb := by
    rw [Mirror.localize_odom, Mirror.localize_odom, hv]
  have el : (s.localize tf).ec.model = s.ec.model ∧ (m.Fair s.ec → m.Fair (s.localize tf).ec) ∧
      (m.Suits s.ec s.grid → m.Suits (s.localize tf).ec (s.localize tf).grid) ∧
      (s.localize tf).map_received = s.map_received ∧ (s.localize tf).vb = s.vb := by
    cases tf with
    | none => exact ⟨rfl, id, id, rfl, rfl⟩
    | some a => exact ⟨rfl, id, fun h => ⟨h.x, h.y, h.gridx, h.gridy, h.size⟩, rfl, rfl⟩
  have el' : (s'.localize tf').vb = s'.vb := by cases tf' <;> rfl
  obtain ⟨el1, el2, el3, el4, el5⟩ := el
  have ea : (s.localize tf).advanceDwa.ec = (s.localize tf).ec ∧
      (s.localize tf).advanceDwa.grid = (s.localize tf).grid ∧
      (s.localize tf).advanceDwa.map_received = (s.localize tf).map_received ∧
      (s.localize tf).advanceDwa.pose_known = (s.localize tf).pose_known := by
    unfold Expl.advanceDwa
    split <;> exact ⟨rfl, rfl, rfl, rfl⟩
  obtain ⟨ea1, ea2, ea3, ea4⟩ := ea
  unfold Expl.iteration at hi ⊢
  dsimp only at hi ⊢
  rw [hl.map_received, hl.pose_known]
  by_cases hb : ((s.localize tf).map_received && (s.localize tf).pose_known) = true
  · rw [if_pos hb] at hi ⊢
    rw [Bool.and_eq_true] at hb
    obtain ⟨q1, q2⟩ := hq (el4.symm.trans hb.1) hb.2
    obtain ⟨⟨t1, o1⟩, h1, hi⟩ := Res.bind_eq_ok.mp hi
    obtain ⟨⟨t2, o2⟩, h2, hi⟩ := Res.bind_eq_ok.mp hi
    cases hi
    obtain ⟨t1', o1', h1', hn, hv1, e1, e1', hf', hm', hr1, hk1, hp1⟩ :=
      Mirror.replan_result ha hva (by rw [ea1]; exact el2 hf) (by rw [ea1, el1]; exact hM)
        (by rw [ea3]; exact hb.1) (by rw [ea4]; exact hb.2) (by rw [ea1, ea2]; exact el3 q1) draws h1
    obtain ⟨t2', o2', h2', hn2, hv2, e2, e2', hec⟩ :=
      C132_takeover m hn hv1 (by rw [hm', ea1, el1]; exact hM) hr1 hk1 hp1 (q2 t1 o1 h1) h2
    rw [h1', Res.ok_bind]
    dsimp only
    rw [h2', Res.ok_bind]
    refine ⟨_, _, rfl, hn2, hv2, ?_, by rw [hec]; exact hf', by rw [hec, hm', ea1, el1]⟩
    unfold twists at e1 e1' e2 e2' ⊢
    simp only [List.filterMap_append, e1, e1', e2, e2', List.nil_append]
    show [t2'.u] = [m.twist t2.u]
    rw [hn2.u]
  · rw [if_neg hb] at hi ⊢
    cases hi
    exact ⟨_, _, rfl, hl, by rw [el', el5, hv], rfl, el2 hf, el1⟩

/-- C132: a whole history, takeovers included.  The node in the mirror, fed the mirrored history, publishes
the mirrored twists, one by one, and ends in the mirrored state. -/
theorem C132_history (m : Mirror) {es es' : List (Event ℝ)} (he : List.Forall₂ m.Feeds es es') :
    ∀ {s s' : Expl ℝ}, m.Nodes s s' → s'.vb = m.twist s.vb → m.Fair s.ec →
    (s.ec.model = omniModel ∨ s.ec.model = cartModel) → m.Governed s es →
    ∀ {t : Expl ℝ} {o : List (Out ℝ)}, s.run es = .ok (t, o) →
    ∃ t' o', s'.run es' = .ok (t', o') ∧ m.Nodes t t' ∧ t'.vb = m.twist t.vb ∧
      twists o' = (twists o).map m.twist := by
  induction he with
  | nil =>
    intro s s' h hv _ _ _ t o ht
    cases ht
    exact ⟨s', [], rfl, h, hv, rfl⟩
  | @cons e e' es es' h1 _ ih =>
    intro s s' h hv hf hM ⟨hq, hu⟩ t o ht
    unfold Expl.run at ht ⊢
    obtain ⟨⟨t1, o1⟩, k1, ht⟩ := Res.bind_eq_ok.mp ht
    obtain ⟨⟨t2, o2⟩, k2, ht⟩ := Res.bind_eq_ok.mp ht
    cases ht
    have hst : ∃ t' o', s'.step e' = .ok (t', o') ∧ m.Nodes t1 t' ∧ t'.vb = m.twist t1.vb ∧
        twists o' = (twists o1).map m.twist ∧ m.Fair t1.ec ∧ t1.ec.model = s.ec.model := by
      obtain ⟨h1, h1'⟩ := h1
      cases h1 with
      | map hm =>
        cases k1
        exact ⟨_, _, rfl, { h with map_received := rfl, grid := fun _ => hm }, hv, rfl, hf, rfl⟩
      | odom v w =>
        cases k1
        exact ⟨_, _, rfl, { h with }, h1' v w rfl rfl, rfl, hf, rfl⟩
      | lost draws => exact C132_loop m h hv hf hM (.inl ⟨rfl, rfl⟩) draws (hq none draws rfl) k1
      | tick draws hp => exact C132_loop m h hv hf hM (.inr ⟨_, _, rfl, rfl, hp⟩) draws (hq _ draws rfl) k1
    obtain ⟨t1', o1', k1', hn, hv1, ho, hf', hm'⟩ := hst
    obtain ⟨t2', o2', k2', hn2, hv2, ho2⟩ := ih hn hv1 hf' (by rw [hm']; exact hM) (hu t1 o1 k1) k2
    rw [k1', Res.ok_bind]
    dsimp only
    rw [k2', Res.ok_bind]
    refine ⟨_, _, rfl, hn2, hv2, ?_⟩
    unfold twists at ho ho2 ⊢
    rw [List.filterMap_append, List.filterMap_append, List.map_append, ho, ho2]

end Ergodic
