import Verif.Props.ExchangeWorld
import Verif.Props.MirrorTakeover

/-!
# Property C133, continued: the dynamic window, takeovers and histories with the axes exchanged

Exact arithmetic.
-/

namespace Ergodic
open Real

namespace Exchange

/-- a reflection with the same effect on twists -/
def side : Mirror := ⟨true, false, 0, 0⟩

theorem side_twist : side.twist = twist := by
  funext u
  simp [Mirror.twist, Mirror.turn, Mirror.sx, Mirror.sy, side, twist]

theorem search_exchange {d : DynamicWindow ℝ} {vb : V3 ℝ} (h : FairWindow d vb) {cost cost' : V3 ℝ → Res ℝ}
    (hc : ∀ v, IsSample d vb v → cost' (twist v) = cost v) (h1 : Sole d vb cost) {b : Bool} {u : V3 ℝ}
    (hu : d.searchWindow vb cost = .ok (b, u)) : d.searchWindow (twist vb) cost' = .ok (b, twist u) := by
  have := C132_search side (.inr h) (by rw [side_twist]; exact hc) h1 hu
  rwa [side_twist] at this

theorem rollout_exchange {g g' : GridMap ℝ} (h : Maps g g') {d : DynamicWindow ℝ} (hs : Sensible d.collision g) (u : V3 ℝ)
    (n : Nat) : ∀ {x x' : V3 ℝ}, Poses x x' → Seen d.collision g u d.dt n x →
    d.rollout g' (twist u) n x' = d.rollout g u n x := by
  induction n with
  | zero => intros; rfl
  | succ n ih =>
    intro x x' hx hc
    obtain ⟨c1, c2⟩ := seen_succ hc
    have hx1 := stepPose_exchange hx u d.dt
    show (d.collision.collisionCheck g' (stepPose (twist u) d.dt x')).bind (fun hit =>
        if hit then .ok (some Flt.maxFin) else d.rollout g' (twist u) n (stepPose (twist u) d.dt x')) =
      (d.collision.collisionCheck g (stepPose u d.dt x)).bind (fun hit =>
        if hit then .ok (some Flt.maxFin) else d.rollout g u n (stepPose u d.dt x))
    rw [(C133_check h hs hx1 c1).1]
    cases hk : d.collision.collisionCheck g (stepPose u d.dt x) with
    | ok b =>
      cases b with
      | true => rfl
      | false => exact ih hx1 (c2 hk)
    | throw e => rfl
    | ub => rfl
    | timeout => rfl

theorem objectiveTwist_exchange {g g' : GridMap ℝ} (h : Maps g g') {d : DynamicWindow ℝ}
    (hs : Sensible d.collision g) {x x' : V3 ℝ} (hx : Poses x x') (vref u : V3 ℝ)
    (hc : Seen d.collision g u d.dt d.steps.toNat x) :
    d.objectiveTwist g' x' (twist vref) (twist u) = d.objectiveTwist g x vref u := by
  unfold DynamicWindow.objectiveTwist
  rw [rollout_exchange h hs u _ hx hc]
  have : ((twist vref).sub (twist u)).dot ((twist vref).sub (twist u)) = (vref.sub u).dot (vref.sub u) := by
    simp only [V3.sub, V3.dot, twist, real_sub, real_add, real_mul]
    ring
  dsimp only
  simp only [this]

theorem poseGap_exchange {a a' b b' : V3 ℝ} (ha : Poses a a') (hb : Poses b b') : poseGap a' b' = poseGap a b := by
  obtain ⟨a0, a1, a2, a3⟩ := ha
  obtain ⟨b0, b1, b2, b3⟩ := hb
  unfold poseGap
  congr 1
  · rw [a0, a1, b0, b1]
    congr 1
    ring
  · have hcos : Real.cos (a'.c2 - b'.c2) = Real.cos (a.c2 - b.c2) := by
      rw [Real.cos_sub, Real.cos_sub, a2, a3, b2, b3]
      ring
    rcases Real.Angle.cos_eq_iff_coe_eq_or_eq_neg.mp hcos with h | h
    · rw [h]
    · rw [h, Real.Angle.abs_toReal_neg]

theorem trajLoop_exchange {g g' : GridMap ℝ} (h : Maps g g') {d : DynamicWindow ℝ} (hs : Sensible d.collision g)
    (u : V3 ℝ) {ref ref' : List (V3 ℝ)} (hr : List.Forall₂ Poses ref ref') (tf : ℝ)
    (n : Nat) : ∀ {x x' : V3 ℝ} (t cost : ℝ), Poses x x' → Seen d.collision g u d.dt n x →
    d.trajLoop g' (twist u) ref' tf n x' t cost = d.trajLoop g u ref tf n x t cost := by
  induction n with
  | zero => intros; rfl
  | succ n ih =>
    intro x x' t cost hx hc
    obtain ⟨c1, c2⟩ := seen_succ hc
    have hx1 := stepPose_exchange hx u d.dt
    rw [trajLoop_succ, trajLoop_succ, (C133_check h hs hx1 c1).1, ← hr.length_eq]
    cases hk : d.collision.collisionCheck g (stepPose u d.dt x) with
    | ok b =>
      cases b with
      | true => rfl
      | false =>
        simp only [Res.ok_bind, Bool.false_eq_true, if_false]
        cases castU32 (Flt.round (Flt.ofInt (DynamicWindow.lastCol ref.length) *. t /. tf : ℝ)) with
        | ok j =>
          simp only [Res.ok_bind]
          have hj := Mirror.col_forall₂ hr j.toNat
          revert hj
          cases col ref j.toNat <;> cases col ref' j.toNat <;> intro hj <;>
            first | exact hj.elim | rfl | skip
          · simp only [Res.ok_bind]
            rw [poseGap_exchange hj hx1]
            exact ih _ _ hx1 (c2 hk)
          · rw [show _ = _ from hj]; rfl
        | throw e => rfl
        | ub => rfl
        | timeout => rfl
    | throw e => rfl
    | ub => rfl
    | timeout => rfl

end Exchange

/-- C133: the search for the twist nearest to a given one, with the axes exchanged. -/
theorem C133_window {g g' : GridMap ℝ} (h : Exchange.Maps g g') {d : DynamicWindow ℝ} (hs : Sensible d.collision g)
    {x x' : V3 ℝ} (hx : Exchange.Poses x x') {vb : V3 ℝ} (hf : Exchange.FairWindow d vb) (vref : V3 ℝ)
    (hc : ∀ v, IsSample d vb v → Exchange.Seen d.collision g v d.dt d.steps.toNat x)
    (h1 : Sole d vb fun v => d.objectiveTwist g x vref v) {b : Bool} {u : V3 ℝ}
    (hu : d.controlTwist g x vb vref = .ok (b, u)) :
    d.controlTwist g' x' (Exchange.twist vb) (Exchange.twist vref) = .ok (b, Exchange.twist u) :=
  Exchange.search_exchange hf (fun v hv => Exchange.objectiveTwist_exchange h hs hx vref v (hc v hv)) h1 hu

/-- C133: the search for the twist that best follows a reference, with the axes exchanged. -/
theorem C133_track {g g' : GridMap ℝ} (h : Exchange.Maps g g') {d : DynamicWindow ℝ} (hs : Sensible d.collision g)
    {x x' : V3 ℝ} (hx : Exchange.Poses x x') {vb : V3 ℝ} (hf : Exchange.FairWindow d vb) {ref ref' : List (V3 ℝ)}
    (hr : List.Forall₂ Exchange.Poses ref ref') (dt : ℝ)
    (hc : ∀ v, IsSample d vb v → Exchange.Seen d.collision g v d.dt d.steps.toNat x)
    (h1 : Sole d vb fun v => d.objectiveTraj g x v ref (ref.length * dt)) {b : Bool} {u : V3 ℝ}
    (hu : d.controlTraj g x vb ref dt = .ok (b, u)) :
    d.controlTraj g' x' (Exchange.twist vb) ref' dt = .ok (b, Exchange.twist u) := by
  unfold DynamicWindow.controlTraj at hu ⊢
  dsimp only at hu ⊢
  have e : (Flt.ofInt (ref.length : ℕ) *. dt : ℝ) = ref.length * dt := by simp [real_mul, real_ofInt]
  rw [← hr.length_eq]
  refine Exchange.search_exchange hf (fun v hv => ?_) (by rw [e]; exact h1) hu
  exact Exchange.trajLoop_exchange h hs v hr _ _ _ _ hx (hc v hv)

/-! ## The node -/

namespace Exchange

theorem localize_exchange {s s' : Expl ℝ} (h : Nodes s s') {tf tf' : Option (TransformMsg ℝ)}
    (ht : (tf = none ∧ tf' = none) ∨
      ∃ a b, tf = some a ∧ tf' = some b ∧ Poses (Mirror.poseOf a) (Mirror.poseOf b)) :
    Nodes (s.localize tf) (s'.localize tf') := by
  rcases ht with ⟨rfl, rfl⟩ | ⟨a, b, rfl, rfl, hp⟩
  · exact h
  · exact {
      ec := { h.ec with
        buffer_size := by
          show (ReplayBuffer.append _ _).buffer_size = (ReplayBuffer.append _ _).buffer_size
          unfold ReplayBuffer.append
          split <;> split <;> exact h.ec.buffer_size
        batch_size := by
          show (ReplayBuffer.append _ _).batch_size = (ReplayBuffer.append _ _).batch_size
          unfold ReplayBuffer.append
          split <;> split <;> exact h.ec.batch_size
        memory := append_exchange h.ec.buffer_size h.ec.memory hp }
      collision := h.collision
      dwa := h.dwa
      map_received := h.map_received
      grid := h.grid
      val_dt := h.val_dt
      val_horizon := h.val_horizon
      vb := h.vb
      u := h.u
      pose := fun _ => hp
      pose_known := rfl
      follow_dwa := h.follow_dwa
      i := h.i }

theorem advance_exchange {s s' : Expl ℝ} (h : Nodes s s') : Nodes s.advanceDwa s'.advanceDwa := by
  unfold Expl.advanceDwa
  rw [h.follow_dwa, h.i, h.dwa]
  split
  · exact { h with dwa := rfl, follow_dwa := rfl, i := rfl }
  · exact h

theorem model_known {M : TwistModel ℝ} (h : M = omniModel ∨ M = cartModel) : Model M := by
  rcases h with rfl | rfl
  · exact model_omni
  · exact model_cart

/-- Replanning, with what the takeover needs to know. -/
theorem replan_exchange {s s' : Expl ℝ} (h : Nodes s s') (hf : Fair s.ec)
    (hM : s.ec.model = omniModel ∨ s.ec.model = cartModel) (hr : s.map_received = true) (hk : s.pose_known = true)
    (draws : List Nat) {t : Expl ℝ} {o : List (Out ℝ)} (ht : s.replan draws = .ok (t, o)) :
    ∃ t' o', s'.replan draws = .ok (t', o') ∧ Nodes t t' ∧ twists o = [] ∧ twists o' = [] ∧
      Fair t.ec ∧ t.ec.model = s.ec.model ∧ t.map_received = true ∧ t.pose_known = true ∧
      (t.follow_dwa = false → Poses t.ec.pose t'.ec.pose) := by
  unfold Expl.replan at ht ⊢
  rw [h.follow_dwa]
  by_cases hd : s.follow_dwa = true
  · rw [if_pos hd] at ht ⊢
    cases ht
    exact ⟨s', [], rfl, h, rfl, rfl, hf, rfl, hr, hk, fun h => by rw [hd] at h; cases h⟩
  · rw [if_neg hd] at ht ⊢
    obtain ⟨⟨ec, u⟩, h1, ht⟩ := Res.bind_eq_ok.mp ht
    obtain ⟨⟨ec', u'⟩, h1', hu, hec, hp, hf', hm⟩ :=
      (C133_control h.ec hf hM (h.grid hr).toExtent (h.pose hk) draws).result h1
    dsimp only at hu hec hp hf' hm ht
    obtain ⟨p, h2, ht⟩ := Res.bind_eq_ok.mp ht
    have hmod : Model ec.model := model_known (by rw [hm]; exact hM)
    have hpath : Alike (fun _ _ => True) (ec.path s.map_frame_id) (ec'.path s'.map_frame_id) := by
      unfold ErgodicControl.path
      rw [hec.model, hec.dt, hec.horizon, hec.ut]
      exact (solve hmod ec.dt ec.horizon ec.ut hp).bind fun _ _ _ => trivial
    obtain ⟨p', h2', -⟩ := hpath.result h2
    cases ht
    rw [h1', Res.ok_bind]
    dsimp only
    rw [h2', Res.ok_bind]
    exact ⟨_, _, rfl, { h with ec := hec, u := hu, follow_dwa := rfl }, rfl, rfl, hf', hm, hr, hk, fun _ => hp⟩

end Exchange

/-- C133: validation and, when it fails, the search of the window. -/
theorem C133_takeover {s s' : Expl ℝ} (h : Exchange.Nodes s s')
    (hM : s.ec.model = omniModel ∨ s.ec.model = cartModel) (hr : s.map_received = true) (hk : s.pose_known = true)
    (hp : s.follow_dwa = false → Exchange.Poses s.ec.pose s'.ec.pose) (hq : Exchange.Steered s)
    {t : Expl ℝ} {o : List (Out ℝ)} (ht : s.avoid = .ok (t, o)) :
    ∃ t' o', s'.avoid = .ok (t', o') ∧ Exchange.Nodes t t' ∧ twists o = [] ∧ twists o' = [] ∧ t.ec = s.ec := by
  have hg := h.grid hr
  have hx := h.pose hk
  have hval : validateControl s'.collision s'.grid s'.pose s'.u s'.val_dt s'.val_horizon =
      validateControl s.collision s.grid s.pose s.u s.val_dt s.val_horizon := by
    rw [h.collision, h.val_dt, h.val_horizon, h.u]
    exact C133_validate hg hq.sensible hx s.u s.val_dt s.val_horizon hq.seen
  unfold Expl.avoid at ht ⊢
  rw [hval]
  obtain ⟨valid, h1, ht⟩ := Res.bind_eq_ok.mp ht
  rw [h1, Res.ok_bind]
  cases valid with
  | true =>
    simp only [if_true, Res.ok.injEq, Prod.mk.injEq] at ht ⊢
    obtain ⟨rfl, rfl⟩ := ht
    exact ⟨s', [], ⟨rfl, rfl⟩, h, rfl, rfl, rfl⟩
  | false =>
    obtain ⟨w1, w2, w3⟩ := hq.window h1
    simp only [Bool.false_eq_true, if_false] at ht ⊢
    rw [h.follow_dwa]
    cases hd : s.follow_dwa with
    | true =>
      simp only [hd, if_true] at ht ⊢
      obtain ⟨⟨b, u⟩, h2, ht⟩ := Res.bind_eq_ok.mp ht
      cases ht
      have := C133_window hg w1 hx w2 s.u w3 (hq.follow h1 hd) h2
      rw [h.dwa, h.vb, h.u, this, Res.ok_bind]
      exact ⟨_, _, rfl, { h with dwa := rfl, vb := rfl, u := rfl, follow_dwa := rfl }, rfl, rfl, rfl⟩
    | false =>
      simp only [hd, Bool.false_eq_true, if_false] at ht ⊢
      obtain ⟨ref, h2, ht⟩ := Res.bind_eq_ok.mp ht
      obtain ⟨⟨b, u⟩, h3, ht⟩ := Res.bind_eq_ok.mp ht
      have hopt : Alike (List.Forall₂ Exchange.Poses) s.ec.optTraj s'.ec.optTraj := by
        unfold ErgodicControl.optTraj
        rw [h.ec.model, h.ec.dt, h.ec.horizon, h.ec.ut]
        exact Exchange.solve (Exchange.model_known hM) _ _ _ (hp hd)
      obtain ⟨ref', h2', hrr⟩ := hopt.result h2
      have := C133_track hg w1 hx w2 hrr s.ec.dt w3 (hq.track h1 hd ref h2) h3
      rw [h2', Res.ok_bind, h.dwa, h.vb, show s'.ec.timeStep = s.ec.dt from h.ec.dt, this, Res.ok_bind]
      dsimp only at ht ⊢
      cases b with
      | false =>
        simp only [Bool.false_eq_true, if_false, Res.ok.injEq, Prod.mk.injEq] at ht
        obtain ⟨rfl, rfl⟩ := ht
        rw [if_neg Bool.false_ne_true]
        exact ⟨_, _, rfl, { h with dwa := rfl, vb := rfl, u := rfl, follow_dwa := rfl }, rfl, rfl, rfl⟩
      | true =>
        simp only [if_true] at ht ⊢
        obtain ⟨p, h4, ht⟩ := Res.bind_eq_ok.mp ht
        unfold constTwistPath at h4 ⊢
        obtain ⟨n, h5, -⟩ := Res.bind_eq_ok.mp h4
        cases ht
        rw [h5]
        exact ⟨_, _, rfl, { h with dwa := rfl, vb := rfl, u := rfl, follow_dwa := rfl, i := rfl }, rfl, rfl, rfl⟩

/-- C133: one iteration of the control loop: the node in the exchanged plane publishes the exchanged twist
and ends in the exchanged state. -/
theorem C133_loop {s s' : Expl ℝ} (h : Exchange.Nodes s s') (hf : Exchange.Fair s.ec)
    (hM : s.ec.model = omniModel ∨ s.ec.model = cartModel) {tf tf' : Option (TransformMsg ℝ)}
    (ht : (tf = none ∧ tf' = none) ∨
      ∃ a b, tf = some a ∧ tf' = some b ∧ Exchange.Poses (Mirror.poseOf a) (Mirror.poseOf b))
    (draws : List Nat)
    (hq : s.map_received = true → (s.localize tf).pose_known = true →
      ∀ t o, (s.localize tf).advanceDwa.replan draws = .ok (t, o) → Exchange.Steered t)
    {t : Expl ℝ} {o : List (Out ℝ)} (hi : s.iteration tf draws = .ok (t, o)) :
    ∃ t' o', s'.iteration tf' draws = .ok (t', o') ∧ Exchange.Nodes t t' ∧
      twists o' = (twists o).map Exchange.twist ∧ Exchange.Fair t.ec ∧ t.ec.model = s.ec.model := by
  have hl := Exchange.localize_exchange h ht
  have ha := Exchange.advance_exchange hl
  have el : (s.localize tf).ec.model = s.ec.model ∧ (Exchange.Fair s.ec → Exchange.Fair (s.localize tf).ec) ∧
      (s.localize tf).map_received = s.map_received := by
    cases tf with
    | none => exact ⟨rfl, id, rfl⟩
    | some a => exact ⟨rfl, id, rfl⟩
  obtain ⟨el1, el2, el4⟩ := el
  have ea : (s.localize tf).advanceDwa.ec = (s.localize tf).ec ∧
      (s.localize tf).advanceDwa.map_received = (s.localize tf).map_received ∧
      (s.localize tf).advanceDwa.pose_known = (s.localize tf).pose_known := by
    unfold Expl.advanceDwa
    split <;> exact ⟨rfl, rfl, rfl⟩
  obtain ⟨ea1, ea3, ea4⟩ := ea
  unfold Expl.iteration at hi ⊢
  dsimp only at hi ⊢
  rw [hl.map_received, hl.pose_known]
  by_cases hb : ((s.localize tf).map_received && (s.localize tf).pose_known) = true
  · rw [if_pos hb] at hi ⊢
    rw [Bool.and_eq_true] at hb
    have q2 := hq (el4.symm.trans hb.1) hb.2
    obtain ⟨⟨t1, o1⟩, h1, hi⟩ := Res.bind_eq_ok.mp hi
    obtain ⟨⟨t2, o2⟩, h2, hi⟩ := Res.bind_eq_ok.mp hi
    cases hi
    obtain ⟨t1', o1', h1', hn, e1, e1', hf', hm', hr1, hk1, hp1⟩ :=
      Exchange.replan_exchange ha (by rw [ea1]; exact el2 hf) (by rw [ea1, el1]; exact hM)
        (by rw [ea3]; exact hb.1) (by rw [ea4]; exact hb.2) draws h1
    obtain ⟨t2', o2', h2', hn2, e2, e2', hec⟩ :=
      C133_takeover hn (by rw [hm', ea1, el1]; exact hM) hr1 hk1 hp1 (q2 t1 o1 h1) h2
    rw [h1', Res.ok_bind]
    dsimp only
    rw [h2', Res.ok_bind]
    refine ⟨_, _, rfl, hn2, ?_, by rw [hec]; exact hf', by rw [hec, hm', ea1, el1]⟩
    unfold twists at e1 e1' e2 e2' ⊢
    simp only [List.filterMap_append, e1, e1', e2, e2', List.nil_append]
    show [t2'.u] = [Exchange.twist t2.u]
    rw [hn2.u]
  · rw [if_neg hb] at hi ⊢
    cases hi
    exact ⟨_, _, rfl, hl, rfl, el2 hf, el1⟩

/-- C133: a whole history.  The node in the exchanged plane, fed the exchanged history, publishes the
exchanged twists, one by one, and ends in the exchanged state. -/
theorem C133_history {es es' : List (Event ℝ)} (he : List.Forall₂ Exchange.Events es es') :
    ∀ {s s' : Expl ℝ}, Exchange.Nodes s s' → Exchange.Fair s.ec →
    (s.ec.model = omniModel ∨ s.ec.model = cartModel) → Exchange.Governed s es →
    ∀ {t : Expl ℝ} {o : List (Out ℝ)}, s.run es = .ok (t, o) →
    ∃ t' o', s'.run es' = .ok (t', o') ∧ Exchange.Nodes t t' ∧ twists o' = (twists o).map Exchange.twist := by
  induction he with
  | nil =>
    intro s s' h _ _ _ t o ht
    cases ht
    exact ⟨s', [], rfl, h, rfl⟩
  | @cons e e' es es' h1 _ ih =>
    intro s s' h hf hM ⟨hq, hu⟩ t o ht
    unfold Expl.run at ht ⊢
    obtain ⟨⟨t1, o1⟩, k1, ht⟩ := Res.bind_eq_ok.mp ht
    obtain ⟨⟨t2, o2⟩, k2, ht⟩ := Res.bind_eq_ok.mp ht
    cases ht
    have hst : ∃ t' o', s'.step e' = .ok (t', o') ∧ Exchange.Nodes t1 t' ∧
        twists o' = (twists o1).map Exchange.twist ∧ Exchange.Fair t1.ec ∧ t1.ec.model = s.ec.model := by
      cases h1 with
      | map hm =>
        cases k1
        exact ⟨_, _, rfl, { h with map_received := rfl, grid := fun _ => hm }, rfl, hf, rfl⟩
      | odom v =>
        cases k1
        exact ⟨_, _, rfl, { h with vb := rfl }, rfl, hf, rfl⟩
      | lost draws => exact C133_loop h hf hM (.inl ⟨rfl, rfl⟩) draws (hq none draws rfl) k1
      | tick draws hp => exact C133_loop h hf hM (.inr ⟨_, _, rfl, rfl, hp⟩) draws (hq _ draws rfl) k1
    obtain ⟨t1', o1', k1', hn, ho, hf', hm'⟩ := hst
    obtain ⟨t2', o2', k2', hn2, ho2⟩ := ih hn hf' (by rw [hm']; exact hM) (hu t1 o1 k1) k2
    rw [k1', Res.ok_bind]
    dsimp only
    rw [k2', Res.ok_bind]
    refine ⟨_, _, rfl, hn2, ?_⟩
    unfold twists at ho ho2 ⊢
    rw [List.filterMap_append, List.filterMap_append, List.map_append, ho, ho2]

/-- C133: a controller fresh from its constructor, given the exchanged target, is in the exchanged state. -/
theorem C133_fresh {M : TwistModel ℝ} {c : Collision ℝ} {dt H res w : ℝ} {nb bs bt : Nat} {R : M3 ℝ}
    {lo hi : V3 ℝ} {e : ErgodicControl ℝ} (h : ErgodicControl.new M c dt H res w nb bs bt R lo hi = .ok e)
    (t : Target ℝ) : Exchange.Controllers (e.setTarget t) (e.setTarget (Exchange.target t)) := by
  simp only [ErgodicControl.new, Res.bind_eq_ok] at h
  obtain ⟨n, -, h⟩ := h
  split at h
  · cases h
  · cases h
    refine ⟨rfl, rfl, rfl, rfl, rfl, rfl, rfl, rfl, rfl, ⟨nb, rfl, rfl⟩, rfl, rfl, rfl, rfl, ?_, ?_, ?_, rfl, rfl,
      .nil, rfl⟩
    · simp [ErgodicControl.setTarget, Exchange.twist, V3.zero, real_lit]
    · simp [ErgodicControl.setTarget, Exchange.vec, V3.zero, real_lit]
    · have z : (lit 0 0 : ℝ) = 0 := by simp [real_lit]
      have hz : ∀ ks : List (Int × Int), ∀ m, ks.length ≤ m → ks.zip (List.replicate m (0 : ℝ)) = ks.map fun k => (k, 0) := by
        intro ks
        induction ks with
        | nil => intros; simp
        | cons k ks ih =>
          intro m hm
          cases m with
          | zero => simp at hm
          | succ m => rw [List.replicate_succ, List.zip_cons_cons, ih m (by simpa using hm), List.map_cons]
      simp only [ErgodicControl.setTarget, z]
      have hl : (Basis.new (0 : ℝ) 0 nb).k.length ≤ nb * nb := by simp [Basis.new, Basis.numbers]
      rw [hz _ _ (by simpa [Basis.new, Basis.numbers] using hl), List.map_map]
      refine ((Exchange.numbers_exchange nb).symm.map _).trans ?_
      rw [List.map_map]
      exact List.Perm.refl _

/-- C133: two nodes started with the same settings, one with the exchanged target. -/
theorem C133_start {M : TwistModel ℝ} {c : Collision ℝ} {dt H res w : ℝ} {nb bs bt : Nat} {R : M3 ℝ}
    {lo hi : V3 ℝ} {e : ErgodicControl ℝ} (h : ErgodicControl.new M c dt H res w nb bs bt R lo hi = .ok e)
    (c' : Collision ℝ) (d : DynamicWindow ℝ) (t : Target ℝ) (f f' : String) (vdt vh : ℝ) :
    Exchange.Nodes (Expl.start e c' d t f vdt vh).1 (Expl.start e c' d (Exchange.target t) f' vdt vh).1 where
  ec := C133_fresh h t
  collision := rfl
  dwa := rfl
  map_received := rfl
  grid := fun h => by cases h
  val_dt := rfl
  val_horizon := rfl
  vb := by simp [Expl.start, Exchange.twist, V3.zero, real_lit]
  u := by simp [Expl.start, Exchange.twist, V3.zero, real_lit]
  pose := fun h => by cases h
  pose_known := rfl
  follow_dwa := rfl
  i := rfl

end Ergodic
