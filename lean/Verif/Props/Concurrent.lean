import Verif.Spec.Concurrent
import Verif.Props.ExplorationRefuted

/-!
# Property C103: callbacks between the calls of an iteration

`ros::AsyncSpinner` delivers messages while an iteration of the control loop is running.  Unless a
new map arrives after the controller has planned, the iteration is one that could have happened
without concurrency.  If one does arrive the iteration may be a new one, but what it publishes is
still checked against a map that is at most as old as the check.
-/

namespace Ergodic
variable {F : Type} [Flt F]

/-! ## What the delivery of callbacks commutes with -/

namespace Expl

theorem deliver_nil (s : Expl F) : s.deliver [] = s := rfl

theorem deliver_cons (s : Expl F) (c : Callback F) (cs : List (Callback F)) :
    s.deliver (c :: cs) = (s.deliverOne c).deliver cs := rfl

theorem deliver_append (s : Expl F) (a b : List (Callback F)) :
    s.deliver (a ++ b) = (s.deliver a).deliver b := by
  simp [deliver, List.foldl_append]

/-- Only the map, its flag and the measured twist change. -/
theorem deliver_frame (s : Expl F) (cs : List (Callback F)) :
    ∃ g f v, s.deliver cs = { s with grid := g, map_received := f, vb := v } := by
  induction cs generalizing s with
  | nil => exact ⟨s.grid, s.map_received, s.vb, rfl⟩
  | cons c cs ih =>
    obtain ⟨g, f, v, h⟩ := ih (s.deliverOne c)
    refine ⟨g, f, v, ?_⟩
    rw [deliver_cons, h]
    cases c <;> rfl

theorem deliver_received (s : Expl F) (cs : List (Callback F)) (h : s.map_received = true) :
    (s.deliver cs).map_received = true := by
  induction cs generalizing s with
  | nil => exact h
  | cons c cs ih =>
    rw [deliver_cons]
    apply ih
    cases c
    · rfl
    · exact h

theorem deliver_localize (s : Expl F) (tf : Option (TransformMsg F)) (cs : List (Callback F)) :
    (s.localize tf).deliver cs = (s.deliver cs).localize tf := by
  induction cs generalizing s with
  | nil => rfl
  | cons c cs ih =>
    rw [deliver_cons, deliver_cons, ← ih]
    congr 1
    cases c <;> cases tf <;> rfl

theorem deliver_advance (s : Expl F) (cs : List (Callback F)) :
    (s.deliver cs).advanceDwa = s.advanceDwa.deliver cs := by
  induction cs generalizing s with
  | nil => rfl
  | cons c cs ih =>
    rw [deliver_cons, deliver_cons, ih]
    congr 1
    obtain ⟨_, _, _, _, _, _, _, _, _, _, _, _, f, _⟩ := s
    cases c <;> cases f <;> rfl

/-- Odometry only replaces the measured twist. -/
theorem deliver_noMap (s : Expl F) (cs : List (Callback F)) (h : NoMap cs) :
    ∃ v, ∀ r : Expl F, r.vb = s.vb → r.deliver cs = { r with vb := v } := by
  induction cs generalizing s with
  | nil => exact ⟨s.vb, fun r hr => by rw [deliver_nil, ← hr]⟩
  | cons c cs ih =>
    obtain ⟨w, rfl⟩ := h c (by simp)
    obtain ⟨v, hv⟩ := ih { s with vb := w } (fun c hc => h c (by simp [hc]))
    refine ⟨v, fun r _ => ?_⟩
    rw [deliver_cons, hv (r.deliverOne (.odom w)) rfl]
    rfl

theorem replan_vb {s r : Expl F} {draws : List Nat} {o : List (Out F)}
    (h : s.replan draws = .ok (r, o)) : r.vb = s.vb := by
  rcases replan_ok h with ⟨-, rfl, -⟩ | ⟨-, _, _, _, -, -, rfl, -⟩ <;> rfl

theorem deliver_replan (s : Expl F) (cs : List (Callback F)) (h : NoMap cs) (draws : List Nat) :
    (s.deliver cs).replan draws =
      (s.replan draws >>= fun r => .ok (r.1.deliver cs, r.2)) := by
  obtain ⟨v, hv⟩ := s.deliver_noMap cs h
  rw [hv s rfl]
  cases hr : s.replan draws with
  | ok r =>
    rw [Res.ok_bind, hv r.1 (replan_vb (o := r.2) hr)]
    unfold replan at hr ⊢
    dsimp only
    split at hr
    · rename_i hf
      rw [if_pos hf]
      simp only [Res.ok.injEq] at hr
      rw [← hr]
    · rename_i hf
      rw [if_neg hf]
      simp only [Res.bind_eq_ok, Res.ok.injEq] at hr
      obtain ⟨⟨ec, u⟩, hc, p, hp, rfl⟩ := hr
      dsimp only at hp
      simp only [hc, Res.ok_bind, hp]
  | throw e =>
    unfold replan at hr ⊢
    dsimp only
    split at hr
    · simp at hr
    · rename_i hf
      rw [if_neg hf]
      cases hc : s.ec.control s.grid s.pose draws with
      | ok a =>
        rw [hc, Res.ok_bind] at hr
        dsimp only at hr ⊢
        simp only [Res.ok_bind]
        cases hp : a.1.path s.map_frame_id with
        | ok p => rw [hp] at hr; simp at hr
        | throw e' => rw [hp] at hr; simpa using hr
        | ub => rw [hp] at hr; simp at hr
        | timeout => rw [hp] at hr; simp at hr
      | throw e' => rw [hc] at hr; simpa using hr
      | ub => rw [hc] at hr; simp at hr
      | timeout => rw [hc] at hr; simp at hr
  | ub =>
    unfold replan at hr ⊢
    dsimp only
    split at hr
    · simp at hr
    · rename_i hf
      rw [if_neg hf]
      cases hc : s.ec.control s.grid s.pose draws with
      | ok a =>
        rw [hc, Res.ok_bind] at hr
        dsimp only at hr ⊢
        simp only [Res.ok_bind]
        cases hp : a.1.path s.map_frame_id with
        | ok p => rw [hp] at hr; simp at hr
        | throw e' => rw [hp] at hr; simp at hr
        | ub => simp
        | timeout => rw [hp] at hr; simp at hr
      | throw e' => rw [hc] at hr; simp at hr
      | ub => simp
      | timeout => rw [hc] at hr; simp at hr
  | timeout =>
    unfold replan at hr ⊢
    dsimp only
    split at hr
    · simp at hr
    · rename_i hf
      rw [if_neg hf]
      cases hc : s.ec.control s.grid s.pose draws with
      | ok a =>
        rw [hc, Res.ok_bind] at hr
        dsimp only at hr ⊢
        simp only [Res.ok_bind]
        cases hp : a.1.path s.map_frame_id with
        | ok p => rw [hp] at hr; simp at hr
        | throw e' => rw [hp] at hr; simp at hr
        | ub => rw [hp] at hr; simp at hr
        | timeout => simp
      | throw e' => rw [hc] at hr; simp at hr
      | ub => rw [hc] at hr; simp at hr
      | timeout => simp

theorem avoidC_noMap (s : Expl F) (cs : List (Callback F)) (h : NoMap cs) :
    s.avoidC cs = (s.deliver cs).avoid := by
  obtain ⟨v, hv⟩ := s.deliver_noMap cs h
  unfold avoidC avoid
  rw [hv s rfl]

theorem run_append (s : Expl F) (l1 l2 : List (Event F)) : s.run (l1 ++ l2) =
    (s.run l1 >>= fun r => r.1.run l2 >>= fun q => .ok (q.1, r.2 ++ q.2)) := by
  induction l1 generalizing s with
  | nil =>
    simp only [List.nil_append, run, Res.ok_bind]
    cases s.run l2 <;> simp
  | cons e l1 ih =>
    simp only [List.cons_append, run, ih]
    cases s.step e with
    | ok a =>
      simp only [Res.ok_bind]
      cases a.1.run l1 with
      | ok b =>
        simp only [Res.ok_bind]
        cases b.1.run l2 <;> simp
      | throw _ => simp
      | ub => simp
      | timeout => simp
    | throw _ => simp
    | ub => simp
    | timeout => simp

theorem run_asEvents (s : Expl F) (cs : List (Callback F)) :
    s.run (asEvents cs) = .ok (s.deliver cs, []) := by
  induction cs generalizing s with
  | nil => rfl
  | cons c cs ih =>
    have hs : s.step c.event = .ok (s.deliverOne c, []) := by cases c <;> rfl
    show s.run (c.event :: asEvents cs) = _
    rw [run, hs, Res.ok_bind]
    dsimp only
    rw [ih, Res.ok_bind]
    rfl

theorem run_tick (s : Expl F) (tf : Option (TransformMsg F)) (draws : List Nat) :
    s.run [.tick tf draws] = s.iteration tf draws := by
  simp only [run, step]
  cases s.iteration tf draws <;> simp

/-- callbacks, an iteration, callbacks -/
theorem run_around (s : Expl F) (a b : List (Callback F)) (tf : Option (TransformMsg F))
    (draws : List Nat) : s.run (asEvents a ++ [.tick tf draws] ++ asEvents b) =
      ((s.deliver a).iteration tf draws >>= fun r => .ok (r.1.deliver b, r.2)) := by
  rw [run_append, run_append, run_asEvents, Res.ok_bind]
  dsimp only
  rw [run_tick]
  cases (s.deliver a).iteration tf draws with
  | ok r => simp [run_asEvents]
  | throw _ => simp
  | ub => simp
  | timeout => simp

end Expl

/-! ## Iterations that could have happened without concurrency -/

/-- C103: when no map message arrives between the planning and the end of the iteration, the
iteration does what the loop does without concurrency, failures included: if a map and a pose are
known when the flag is tested, as if every callback had come before the iteration; otherwise as if
those after the test had come after it. -/
theorem C103_linear_partial (s : Expl F) (tf : Option (TransformMsg F)) (draws : List Nat) (c : Slots F)
    (h1 : NoMap c.check) (h2 : NoMap c.search) :
    (((s.localize tf).deliver c.flag).map_received = true ∧ (s.localize tf).pose_known = true →
      s.iterationC tf draws c = s.run (asEvents c.all ++ [.tick tf draws])) ∧
    (¬(((s.localize tf).deliver c.flag).map_received = true ∧ (s.localize tf).pose_known = true) →
      s.iterationC tf draws c =
        s.run (asEvents c.flag ++ [.tick tf draws] ++ asEvents (c.plan ++ c.check ++ c.search))) := by
  have hpk : ∀ cs, ((s.localize tf).deliver cs).pose_known = (s.localize tf).pose_known := by
    intro cs
    obtain ⟨g, f, v, e⟩ := (s.localize tf).deliver_frame cs
    rw [e]
  constructor
  · rintro ⟨ha, hb⟩
    have hall := s.run_around c.all [] tf draws
    rw [show asEvents ([] : List (Callback F)) = [] from rfl, List.append_nil] at hall
    rw [hall]
    unfold Expl.iterationC
    dsimp only
    rw [if_pos (by rw [ha, hpk, hb]; rfl)]
    unfold Expl.iteration
    dsimp only
    have hcond : ((s.deliver c.all).localize tf).map_received = true := by
      rw [← Expl.deliver_localize, Slots.all, List.append_assoc, List.append_assoc,
        Expl.deliver_append]
      exact Expl.deliver_received _ _ ha
    rw [if_pos (by rw [hcond, ← Expl.deliver_localize, hpk, hb]; rfl)]
    have hs : ((s.deliver c.all).localize tf).advanceDwa =
        ((((s.localize tf).deliver c.flag).deliver c.plan).advanceDwa).deliver (c.check ++ c.search) := by
      rw [← Expl.deliver_localize, ← Expl.deliver_advance, Slots.all]
      simp only [Expl.deliver_append]
    rw [hs, Expl.deliver_replan _ _ (fun x hx => by
      rw [List.mem_append] at hx
      exact hx.elim (h1 x) (h2 x))]
    cases ((((s.localize tf).deliver c.flag).deliver c.plan).advanceDwa).replan draws with
    | ok r =>
      simp only [Res.ok_bind]
      rw [Expl.avoidC_noMap _ _ h2, ← Expl.deliver_append]
      cases (r.1.deliver (c.check ++ c.search)).avoid with
      | ok q => simp [Expl.deliver_nil]
      | throw _ => simp
      | ub => simp
      | timeout => simp
    | throw _ => simp
    | ub => simp
    | timeout => simp
  · intro hn
    rw [Expl.run_around]
    unfold Expl.iterationC Expl.iteration
    dsimp only
    rw [if_neg (by
      intro hc
      rw [Bool.and_eq_true] at hc
      exact hn ⟨hc.1, by rw [← hpk]; exact hc.2⟩)]
    rw [if_neg (by
      intro hc
      rw [Bool.and_eq_true, ← Expl.deliver_localize] at hc
      exact hn ⟨hc.1, by rw [← hpk]; exact hc.2⟩)]
    rw [Res.ok_bind, Expl.deliver_localize]

/-- C103: without callbacks after the flag is tested the iteration is the loop's. -/
theorem C103_sequential (s : Expl F) (tf : Option (TransformMsg F)) (draws : List Nat)
    (cs : List (Callback F)) :
    s.iterationC tf draws { flag := cs } = s.run (asEvents cs ++ [.tick tf draws]) := by
  obtain ⟨h1, h2⟩ := C103_linear_partial s tf draws { flag := cs } (by simp [NoMap]) (by simp [NoMap])
  by_cases h : ((s.localize tf).deliver cs).map_received = true ∧ (s.localize tf).pose_known = true
  · simpa [Slots.all] using h1 h
  · simpa [asEvents] using h2 h

/-! ## What holds in every concurrent execution -/

section history
variable {ec : ErgodicControl F} {collision : Collision F} {dwa : DynamicWindow F}
  {target : Target F} {frame : String} {val_dt val_horizon : F} {es : List (Event F)}
  {os : List (List (Out F))} {s t : Expl F} {o : List (Out F)}

theorem ExplInv.congr {es' : List (Event F)} (h : ExplInv ec collision dwa target frame val_dt val_horizon es s)
    (h1 : maps es = maps es') (h2 : odoms es = odoms es') (h3 : poses es = poses es') :
    ExplInv ec collision dwa target frame val_dt val_horizon es' s := by
  obtain ⟨a1, a2, a3, a4, a5, a6, a7, a8, a9, a10, a11, a12, a13⟩ := h
  exact ⟨a1, a2, a3, a4, a5, h1 ▸ a6, h1 ▸ a7, h3 ▸ a8, h3 ▸ a9, by rw [a10, lastOdom, lastOdom, h2], a11,
    h3 ▸ a12, a13⟩

theorem ExplInv.deliver (h : ExplInv ec collision dwa target frame val_dt val_horizon es s)
    (cs : List (Callback F)) :
    ExplInv ec collision dwa target frame val_dt val_horizon (es ++ asEvents cs) (s.deliver cs) := by
  induction cs generalizing es s with
  | nil => simpa [asEvents, Expl.deliver] using h
  | cons c cs ih =>
    have hs : s.step c.event = .ok (s.deliverOne c, []) := by cases c <;> rfl
    have := ih (h.step hs)
    rw [List.append_assoc] at this
    exact this

theorem asEvents_append (a b : List (Callback F)) : asEvents (a ++ b) = asEvents a ++ asEvents b := by
  simp [asEvents]

theorem maps_append (a b : List (Event F)) : maps (a ++ b) = maps a ++ maps b := by simp [maps]

theorem odoms_append (a b : List (Event F)) : odoms (a ++ b) = odoms a ++ odoms b := by simp [odoms]

theorem poses_append (a b : List (Event F)) : poses (a ++ b) = poses a ++ poses b := by simp [poses]

theorem poses_asEvents (cs : List (Callback F)) : poses (asEvents cs) = [] := by
  induction cs with
  | nil => rfl
  | cons c cs ih =>
    show poses ([c.event] ++ asEvents cs) = []
    rw [poses_append, ih]
    cases c <;> rfl

theorem maps_tick (tf : Option (TransformMsg F)) (draws : List Nat) : maps [Event.tick tf draws] = [] := rfl

theorem odoms_tick (tf : Option (TransformMsg F)) (draws : List Nat) : odoms [Event.tick tf draws] = [] := rfl

/-- the state after the pose has been looked up and some callbacks have run -/
theorem ExplInv.during (h : ExplInv ec collision dwa target frame val_dt val_horizon es s)
    (tf : Option (TransformMsg F)) (draws : List Nat) (cs : List (Callback F)) :
    ExplInv ec collision dwa target frame val_dt val_horizon (es ++ asEvents cs ++ [.tick tf draws])
      ((s.localize tf).deliver cs) := by
  refine ((h.localize tf draws).deliver cs).congr ?_ ?_ ?_
  · simp only [maps_append, maps_tick, List.append_nil]
  · simp only [odoms_append, odoms_tick, List.append_nil]
  · simp only [poses_append, poses_asEvents, List.append_nil]

/-- further callbacks -/
theorem ExplInv.more {tf : Option (TransformMsg F)} {draws : List Nat} {a b : List (Callback F)}
    (h : ExplInv ec collision dwa target frame val_dt val_horizon (es ++ asEvents a ++ [.tick tf draws]) s) :
    ExplInv ec collision dwa target frame val_dt val_horizon (es ++ asEvents (a ++ b) ++ [.tick tf draws])
      (s.deliver b) := by
  refine (h.deliver b).congr ?_ ?_ ?_
  · simp only [maps_append, maps_tick, asEvents_append, List.append_nil, List.nil_append,
      List.append_assoc]
  · simp only [odoms_append, odoms_tick, asEvents_append, List.append_nil, List.nil_append,
      List.append_assoc]
  · simp only [poses_append, poses_asEvents, asEvents_append, List.append_nil]

theorem Expl.avoidC_ok {s r : Expl F} {cs : List (Callback F)} {o : List (Out F)}
    (h : s.avoidC cs = .ok (r, o)) :
    (validateControl s.collision s.grid s.pose s.u s.val_dt s.val_horizon = .ok true ∧
      r = s.deliver cs ∧ o = []) ∨
    (validateControl s.collision s.grid s.pose s.u s.val_dt s.val_horizon = .ok false ∧
      (((s.deliver cs).follow_dwa = true ∧ ∃ b u, (s.deliver cs).dwa.controlTwist (s.deliver cs).grid
          (s.deliver cs).pose (s.deliver cs).vb (s.deliver cs).u = .ok (b, u) ∧
          r = { s.deliver cs with u := u, follow_dwa := false } ∧ o = []) ∨
       ((s.deliver cs).follow_dwa = false ∧ ∃ ref b u, (s.deliver cs).ec.optTraj = .ok ref ∧
          (s.deliver cs).dwa.controlTraj (s.deliver cs).grid (s.deliver cs).pose (s.deliver cs).vb ref
            (s.deliver cs).ec.dt = .ok (b, u) ∧
          ((b = false ∧ r = { s.deliver cs with u := u, follow_dwa := false } ∧ o = []) ∨
           (b = true ∧ ∃ p, r = { s.deliver cs with u := u, follow_dwa := true, i := 0 } ∧
             o = [.dwaPath p]))))) := by
  unfold avoidC at h
  rw [Res.bind_eq_ok] at h
  obtain ⟨valid, hv, h⟩ := h
  cases valid with
  | true =>
    simp only [if_true, Res.ok.injEq, Prod.mk.injEq] at h
    exact Or.inl ⟨hv, h.1.symm, h.2.symm⟩
  | false =>
    right
    refine ⟨hv, ?_⟩
    simp only [Bool.false_eq_true, if_false] at h
    cases hf : (s.deliver cs).follow_dwa with
    | true =>
      left
      rw [if_pos hf] at h
      simp only [Res.bind_eq_ok, Res.ok.injEq, Prod.mk.injEq] at h
      obtain ⟨⟨b, u⟩, hc, h1, h2⟩ := h
      exact ⟨rfl, b, u, hc, h1.symm, h2.symm⟩
    | false =>
      right
      rw [if_neg (by rw [hf]; simp)] at h
      simp only [Res.bind_eq_ok] at h
      obtain ⟨ref, hr, ⟨b, u⟩, hc, h⟩ := h
      refine ⟨rfl, ref, b, u, hr, hc, ?_⟩
      cases b with
      | false =>
        left
        simp only [Bool.false_eq_true, if_false, Res.ok.injEq, Prod.mk.injEq] at h
        exact ⟨rfl, h.1.symm, h.2.symm⟩
      | true =>
        right
        simp only [if_true, Res.bind_eq_ok, Res.ok.injEq, Prod.mk.injEq] at h
        obtain ⟨p, hp, h1, h2⟩ := h
        exact ⟨rfl, p, h1.symm, h2.symm⟩

theorem Expl.iterationC_ok {s t : Expl F} {tf : Option (TransformMsg F)} {draws : List Nat}
    {c : Slots F} {o : List (Out F)} (h : s.iterationC tf draws c = .ok (t, o)) :
    (¬(((s.localize tf).deliver c.flag).map_received = true ∧
        ((s.localize tf).deliver c.flag).pose_known = true) ∧
      t = (s.localize tf).deliver c.all ∧ o = []) ∨
    ((((s.localize tf).deliver c.flag).map_received = true ∧
        ((s.localize tf).deliver c.flag).pose_known = true) ∧ ∃ r o1 o2,
      (((s.localize tf).deliver (c.flag ++ c.plan)).advanceDwa).replan draws = .ok (r, o1) ∧
      (r.deliver c.check).avoidC c.search = .ok (t, o2) ∧ o = o1 ++ o2 ++ [.twist t.u]) := by
  unfold iterationC at h
  dsimp only at h
  split at h
  · rename_i hc
    right
    rw [Bool.and_eq_true] at hc
    simp only [Res.bind_eq_ok] at h
    obtain ⟨⟨r, o1⟩, hr, ⟨t', o2⟩, ha, h⟩ := h
    simp only [Res.ok.injEq, Prod.mk.injEq] at h
    obtain ⟨rfl, rfl⟩ := h
    exact ⟨hc, r, o1, o2, by rw [deliver_append]; exact hr, ha, rfl⟩
  · rename_i hc
    left
    rw [Bool.and_eq_true] at hc
    simp only [Res.ok.injEq, Prod.mk.injEq] at h
    refine ⟨hc, ?_, h.2.symm⟩
    rw [← h.1, Slots.all]
    simp only [deliver_append]

theorem ExplInv.avoidC {tf : Option (TransformMsg F)} {draws : List Nat} {a cs : List (Callback F)}
    (h : ExplInv ec collision dwa target frame val_dt val_horizon (es ++ asEvents a ++ [.tick tf draws]) s)
    (hr : s.avoidC cs = .ok (t, o)) :
    ExplInv ec collision dwa target frame val_dt val_horizon (es ++ asEvents (a ++ cs) ++ [.tick tf draws]) t := by
  obtain ⟨h1, h2, h3, h4, h5, h6, h7, h8, h9, h10, h11, h12, h13⟩ := h.more (b := cs)
  rcases Expl.avoidC_ok hr with ⟨-, rfl, -⟩ | ⟨-, ⟨-, b, u, -, rfl, -⟩ |
    ⟨-, ref, b, u, -, -, ⟨-, rfl, -⟩ | ⟨-, p, rfl, -⟩⟩⟩
  all_goals exact ⟨h1, h2, h3, h4, h5, h6, h7, h8, h9, h10, h11, h12, h13⟩

theorem ExplInv.iterationC {tf : Option (TransformMsg F)} {draws : List Nat} {c : Slots F}
    (h : ExplInv ec collision dwa target frame val_dt val_horizon es s)
    (hs : s.iterationC tf draws c = .ok (t, o)) :
    ExplInv ec collision dwa target frame val_dt val_horizon (es ++ asEvents c.all ++ [.tick tf draws]) t := by
  rcases Expl.iterationC_ok hs with ⟨-, rfl, -⟩ | ⟨-, r, o1, o2, hr, ha, -⟩
  · exact h.during tf draws c.all
  · exact ExplInv.avoidC (((h.during tf draws _).advance.replan hr).more) ha

/-- The node's state after a concurrent execution. -/
theorem ConcTrace.inv (h : ConcTrace (Expl.start ec collision dwa target frame val_dt val_horizon).1 es os s) :
    ExplInv ec collision dwa target frame val_dt val_horizon es s := by
  induction h with
  | nil => exact Trace.inv .nil
  | snoc _ hs ih => exact ih.iterationC hs

theorem iterationC_twists {tf : Option (TransformMsg F)} {draws : List Nat} {c : Slots F}
    (h : s.iterationC tf draws c = .ok (t, o)) :
    (twists o = [t.u] ∧ ((s.localize tf).deliver c.flag).map_received = true ∧
        ((s.localize tf).deliver c.flag).pose_known = true) ∨
    (twists o = [] ∧ ¬(((s.localize tf).deliver c.flag).map_received = true ∧
        ((s.localize tf).deliver c.flag).pose_known = true)) := by
  rcases Expl.iterationC_ok h with ⟨hc, -, rfl⟩ | ⟨hc, r, o1, o2, hr, ha, rfl⟩
  · exact Or.inr ⟨rfl, hc⟩
  · left
    have h1 : twists o1 = [] := by
      rcases Expl.replan_ok hr with ⟨-, -, rfl⟩ | ⟨-, _, _, _, -, -, -, rfl⟩ <;> rfl
    have h2 : twists o2 = [] := by
      rcases Expl.avoidC_ok ha with ⟨-, -, rfl⟩ | ⟨-, ⟨-, _, _, -, -, rfl⟩ |
        ⟨-, _, _, _, -, -, ⟨-, -, rfl⟩ | ⟨-, _, -, rfl⟩⟩⟩ <;> rfl
    rw [twists_append, twists_append, h1, h2]
    exact ⟨rfl, hc⟩

/-- C103: in a concurrent execution too an iteration publishes exactly one twist when a map has
arrived before the flag is tested and a transform lookup has succeeded, otherwise none. -/
theorem C103_one_per_iteration {tf : Option (TransformMsg F)} {draws : List Nat} {c : Slots F}
    (h : ConcTrace (Expl.start ec collision dwa target frame val_dt val_horizon).1 es os s)
    (hs : s.iterationC tf draws c = .ok (t, o)) :
    (twists o).length = if maps (es ++ asEvents c.flag) ≠ [] ∧ poses (es ++ [.tick tf draws]) ≠ []
      then 1 else 0 := by
  have hi := h.inv.during tf draws c.flag
  have e1 := hi.map_received_eq
  have e2 := hi.pose_known_eq
  have q1 : maps (es ++ asEvents c.flag ++ [.tick tf draws]) = maps (es ++ asEvents c.flag) := by
    simp [maps_append, maps_tick]
  have q2 : poses (es ++ asEvents c.flag ++ [.tick tf draws]) = poses (es ++ [.tick tf draws]) := by
    simp [poses_append, poses_asEvents]
  rw [q1] at e1
  rw [q2] at e2
  rcases iterationC_twists hs with ⟨ht, ha, hb⟩ | ⟨ht, hn⟩
  · rw [e1] at ha
    rw [e2] at hb
    rw [if_pos ⟨by simpa using ha, by simpa using hb⟩, ht]
    rfl
  · rw [e1, e2] at hn
    rw [if_neg (by simpa using hn), ht]
    rfl

/-- C103: whatever twist a concurrent execution publishes, in every arithmetic with a strict `<`: it
keeps the robot out of collision over the validation horizon on the last map that arrived before the
validation; or it is a sample of the window around the last velocity measured before the search,
and its rollout is collision-free on the last map that arrived before the search; or it is zero. -/
theorem C103_safe [StrictLt F] {tf : Option (TransformMsg F)} {draws : List Nat} {c : Slots F}
    (h : ConcTrace (Expl.start ec collision dwa target frame val_dt val_horizon).1 es os s)
    (hs : s.iterationC tf draws c = .ok (t, o)) (u : V3 F) (hu : u ∈ twists o) :
    ∃ m1 m2 p, (maps (es ++ asEvents (c.flag ++ c.plan ++ c.check))).getLast? = some m1 ∧
      (maps (es ++ asEvents c.all)).getLast? = some m2 ∧
      (poses (es ++ [.tick tf draws])).getLast? = some p ∧
      ((∃ n, numSteps val_horizon val_dt = .ok n ∧
        ∀ k < n.toNat, collision.collisionCheck (mapOf m1) (poseAfter u val_dt p (k + 1)) = .ok false) ∨
       (IsSample dwa (lastOdom (es ++ asEvents c.all)) u ∧ FreeRollout dwa (mapOf m2) p u) ∨
       u = ⟨lit 0 0, lit 0 0, lit 0 0⟩) := by
  have hone := C103_one_per_iteration h hs
  rcases iterationC_twists hs with ⟨htw, -⟩ | ⟨htw, -⟩
  swap
  · rw [htw] at hu; simp at hu
  rw [htw] at hone hu
  split at hone
  swap
  · simp at hone
  rename_i hne
  rw [List.mem_singleton] at hu
  subst hu
  -- the maps and the pose
  have hlast : ∀ b, ∃ m, (maps (es ++ asEvents (c.flag ++ b))).getLast? = some m := by
    intro b
    have : maps (es ++ asEvents (c.flag ++ b)) ≠ [] := by
      rw [asEvents, List.map_append, ← List.append_assoc, maps_append]
      intro hc
      rw [List.append_eq_nil_iff] at hc
      exact hne.1 hc.1
    exact ⟨_, List.getLast?_eq_some_getLast this⟩
  obtain ⟨m1, hm1⟩ := hlast (c.plan ++ c.check)
  obtain ⟨m2, hm2⟩ := hlast (c.plan ++ c.check ++ c.search)
  obtain ⟨p, hp⟩ : ∃ p, (poses (es ++ [.tick tf draws])).getLast? = some p :=
    ⟨_, List.getLast?_eq_some_getLast hne.2⟩
  simp only [← List.append_assoc] at hm1 hm2
  refine ⟨m1, m2, p, hm1, hm2, hp, ?_⟩
  have hpose : ∀ b, poses (es ++ asEvents b ++ [.tick tf draws]) = poses (es ++ [.tick tf draws]) := by
    intro b; simp [poses_append, poses_asEvents]
  have hmap : ∀ b, maps (es ++ asEvents b ++ [.tick tf draws]) = maps (es ++ asEvents b) := by
    intro b; simp [maps_append, maps_tick]
  have hodo : lastOdom (es ++ asEvents c.all ++ [.tick tf draws]) = lastOdom (es ++ asEvents c.all) := by
    unfold lastOdom; simp [odoms_append, odoms_tick]
  rcases Expl.iterationC_ok hs with ⟨-, -, rfl⟩ | ⟨-, r, o1, o2, hr, ha, rfl⟩
  · simp [twists] at htw
  have hi1 := ((h.inv.during tf draws (c.flag ++ c.plan)).advance.replan hr).more (b := c.check)
  have hi2 := hi1.more (b := c.search)
  have e1 := hi1.collision_eq
  have e3 := hi1.val_dt_eq
  have e4 := hi1.val_horizon_eq
  have e5 := hi1.grid_eq m1 (by rw [hmap]; exact hm1)
  have e6 := hi1.pose_eq p (by rw [hpose]; exact hp)
  have f2 := hi2.dwa_eq
  have f5 := hi2.grid_eq m2 (by rw [hmap]; exact hm2)
  have f6 := hi2.pose_eq p (by rw [hpose]; exact hp)
  have f7 : ((r.deliver c.check).deliver c.search).vb = lastOdom (es ++ asEvents c.all) := by
    rw [← hodo]; exact hi2.vb_eq
  rcases Expl.avoidC_ok ha with ⟨hv, rfl, -⟩ | ⟨-, ⟨-, b, v, hv, rfl, -⟩ |
    ⟨-, ref, b, v, -, hv, ⟨-, rfl, -⟩ | ⟨-, q, rfl, -⟩⟩⟩
  · left
    have hu : ((r.deliver c.check).deliver c.search).u = (r.deliver c.check).u := by
      obtain ⟨g, f, v, e⟩ := (r.deliver c.check).deliver_frame c.search
      rw [e]
    rw [hu]
    rw [e1, e3, e4, e5, e6] at hv
    have hn : ∃ n, numSteps val_horizon val_dt = .ok n := by
      simp only [validateControl, Res.bind_eq_ok] at hv
      obtain ⟨n, hn, -⟩ := hv
      exact ⟨n, hn⟩
    obtain ⟨n, hn⟩ := hn
    exact ⟨n, hn, (C20_accepts_iff _ _ _ _ _ _ n hn).mp hv⟩
  · right
    rw [f2, f5, f6, f7] at hv
    rcases search_free (ref := []) (dt_ref := val_dt) (Or.inl hv) with hf | ⟨-, hz⟩
    · exact Or.inl hf
    · exact Or.inr hz
  all_goals
    right
    rw [f2, f5, f6, f7] at hv
    rcases search_free (vref := V3.zero) (Or.inr hv) with hf | ⟨-, hz⟩
    · exact Or.inl hf
    · exact Or.inr hz

/-- `published_in` for concurrent executions. -/
theorem published_in_conc [StrictLt F] (P : V3 F → Prop) (hz : P V3.zero)
    (hec : ∀ e e' g x u draws, EcReach ec e → e.control g x draws = .ok (e', u) → P u)
    (hd : ∀ vb, vb = V3.zero ∨ vb ∈ odoms es → ∀ u, IsSample dwa vb u → P u)
    (h : ConcTrace (Expl.start ec collision dwa target frame val_dt val_horizon).1 es os s) :
    P s.u ∧ ∀ u ∈ twists os.flatten, P u := by
  induction h with
  | nil => exact ⟨hz, by simp [twists]⟩
  | @snoc s t es os tf draws c o ht hs ih =>
    obtain ⟨ih1, ih2⟩ := ih (fun vb hvb => hd vb (by
      rcases hvb with h | h
      · exact Or.inl h
      · right; simp only [odoms, List.filterMap_append, List.mem_append] at h ⊢; exact Or.inl (Or.inl h)))
    have hu : P t.u := by
      obtain ⟨-, -, -, -, -, -, -, -, f9, -, -⟩ := s.localize_frame tf
      have hdu : ∀ (x : Expl F) cs, (x.deliver cs).u = x.u := by
        intro x cs
        obtain ⟨g, f, v, e⟩ := x.deliver_frame cs
        rw [e]
      rcases Expl.iterationC_ok hs with ⟨-, rfl, rfl⟩ | ⟨-, r, o1, o2, hr, ha, rfl⟩
      · rw [hdu, f9]; exact ih1
      · have hi1 := (ht.inv.during tf draws (c.flag ++ c.plan)).advance
        have hi2 := ((hi1.replan hr).more (b := c.check)).more (b := c.search)
        have hru : P r.u := by
          rcases Expl.replan_ok hr with ⟨-, rfl, -⟩ | ⟨-, ec', u, p, hc', -, rfl, -⟩
          · obtain ⟨i, f, e⟩ := ((s.localize tf).deliver (c.flag ++ c.plan)).advanceDwa_frame
            rw [e]; dsimp only; rw [hdu, f9]; exact ih1
          · exact hec _ _ _ _ _ _ hi1.ec_reach hc'
        have hvb : ((r.deliver c.check).deliver c.search).vb = V3.zero ∨
            ((r.deliver c.check).deliver c.search).vb ∈ odoms (es ++ asEvents c.all ++ [.tick tf draws]) := by
          rw [hi2.vb_eq]
          unfold lastOdom
          cases hl : (odoms (es ++ asEvents (c.flag ++ c.plan ++ c.check ++ c.search) ++
              [Event.tick tf draws])).getLast? with
          | none => exact Or.inl rfl
          | some v => exact Or.inr (List.mem_of_getLast? hl)
        have hsamp := hd _ hvb
        rw [← hi2.dwa_eq] at hsamp
        rcases Expl.avoidC_ok ha with ⟨hv, rfl, -⟩ | ⟨-, ⟨-, b, v, hv, rfl, -⟩ |
          ⟨-, ref, b, v, -, hv, ⟨-, rfl, -⟩ | ⟨-, q, rfl, -⟩⟩⟩
        · rw [hdu, hdu]; exact hru
        · rcases search_free (ref := []) (dt_ref := val_dt) (Or.inl hv) with hf | ⟨-, rfl⟩
          · exact hsamp _ hf.1
          · exact hz
        all_goals
          rcases search_free (vref := V3.zero) (Or.inr hv) with hf | ⟨-, rfl⟩
          · exact hsamp _ hf.1
          · exact hz
    refine ⟨hu, fun v hv => ?_⟩
    rw [List.flatten_append, twists_append, List.mem_append] at hv
    rcases hv with hv | hv
    · exact ih2 v hv
    · simp only [List.flatten_cons, List.flatten_nil, List.append_nil] at hv
      rcases iterationC_twists hs with ⟨e, -⟩ | ⟨e, -⟩
      · rw [e, List.mem_singleton] at hv; rw [hv]; exact hu
      · rw [e] at hv; simp at hv

end history

/-- C103: the velocity limits of C70 hold in concurrent executions of the omni-directional robot. -/
theorem C103_limits (p : Params ℝ) (n : Node ℝ) (o : List (Out ℝ)) (es : List (Event ℝ))
    (os : List (List (Out ℝ))) (t : Expl ℝ) (hl : LimitsOk p) (hz : RecoverableAll p ⟨0, 0, 0⟩)
    (ho : ∀ v ∈ odoms es, RecoverableAll p v) (hn : Node.omni p = .ok (n, o))
    (hr : ConcTrace n.expl es os t) : ∀ u ∈ twists os.flatten, WithinParams p u := by
  obtain ⟨w0, w1, w2, target, collision, ec, dwa, hec, hdwa, hs, hup⟩ := omni_ok hn
  rw [show n.expl = _ from congrArg Prod.fst hs] at hr
  have hzero : (V3.zero : V3 ℝ) = ⟨0, 0, 0⟩ := by simp [V3.zero]
  refine (published_in_conc (WithinParams p) ?_ ?_ ?_ hr).2
  · rw [hzero]; exact hl
  · intro e e' g x u draws hre hc
    exact ec_in_box hec hre hc
  · intro vb hvb u hu
    have hv : RecoverableAll p vb := by
      rcases hvb with rfl | hvb
      · rw [hzero]; exact hz
      · exact ho vb hvb
    simp only [DynamicWindow.new, Res.bind_eq_ok, Res.ok.injEq] at hdwa
    obtain ⟨steps, -, rfl⟩ := hdwa
    exact (C55_within_partial _ vb u (by obtain ⟨a, b, c⟩ := hv; exact ⟨a, b, c⟩) hu).1

/-! ## An iteration that could not have happened without concurrency -/

/-- Full statement of C103: every iteration of a concurrent execution does what the loop does when
the callbacks run between two iterations, some before and the others after it. -/
def C103_statement : Prop :=
  ∀ (p : Params ℝ) (n : Node ℝ) (o0 : List (Out ℝ)) (es : List (Event ℝ)) (os : List (List (Out ℝ)))
    (s : Expl ℝ), Node.omni p = .ok (n, o0) → n.up = true → ConcTrace n.expl es os s →
    ∀ (tf : Option (TransformMsg ℝ)) (draws : List Nat) (c : Slots ℝ) (t : Expl ℝ) (o : List (Out ℝ)),
      s.iterationC tf draws c = .ok (t, o) →
      ∃ a b t', c.all = a ++ b ∧ s.run (asEvents a ++ [.tick tf draws] ++ asEvents b) = .ok (t', o)

/-- one free cell, larger than what the detector looks at -/
def coarseMsg : OccupancyGrid ℝ := ⟨1, 1, 2 ^ 20, 0, 0, [0]⟩

theorem coarse_wf : WellFormed (mapOf coarseMsg) := ⟨by decide, by decide⟩

theorem coarse_clear (pose : V3 ℝ) (h0 : 0 ≤ pose.c0) (h1 : pose.c0 < 2 ^ 20) (h2 : 0 ≤ pose.c1)
    (h3 : pose.c1 < 2 ^ 20) : nearDetector.collisionCheck (mapOf coarseMsg) pose = .ok false := by
  have hw := C08_half_open_exact (mapOf coarseMsg) (by norm_num [mapOf, coarseMsg]) pose.c0 pose.c1 0 0
    ⟨by decide, by decide⟩ (by
      simp only [InHalfOpenCell, mapOf, coarseMsg, UInt32.toNat_zero]
      norm_num
      norm_num at h1 h3
      exact ⟨h0, h1, h2, h3⟩)
  have e1 := castI32_floor (x := (0:ℝ)/2^20) (by norm_num) (by norm_num)
  have e2 := castI32_floor (x := ((0:ℝ)+1)/2^20) (by norm_num) (by norm_num)
  have e3 := castI32_floor (x := (1:ℝ)/2^20) (by norm_num) (by norm_num)
  have z1 : ⌊(0:ℝ)/2^20⌋ = 0 := by norm_num
  have z2 : ⌊((0:ℝ)+1)/2^20⌋ = 0 := by rw [Int.floor_eq_iff]; norm_num
  have z3 : ⌊(1:ℝ)/2^20⌋ = 0 := by rw [Int.floor_eq_iff]; norm_num
  have hc : nearDetector.config (mapOf coarseMsg) pose =
      .ok { r_bnd := 0, r_col := 0, r_max := 0, cx := u2i 0, cy := u2i 0 } := by
    simp only [Collision.config, hw, Res.ok_bind]
    simp only [nearDetector, mapOf, coarseMsg, real_div, real_add, e1, e2, e3, z1, z2, z3, Res.ok_bind]
  simp only [Collision.collisionCheck, hc, Res.ok_bind]
  rfl

/-- every twist within the limits passes validation on it -/
theorem coarse_valid (u : V3 ℝ) (h0 : |u.c0| ≤ 1) (h1 : |u.c1| ≤ 1) :
    validateControl nearDetector (mapOf coarseMsg) midPose u 0.1 0.1 = .ok true := by
  rw [C20_accepts_iff _ _ _ _ _ _ 1 steps_val]
  intro k hk
  have hk : k = 0 := by
    have : k < 1 := hk
    omega
  subst hk
  have hp := planar_le (C76_poseAfter u 0.1 (by norm_num) midPose 1)
  have hs : speed u ≤ 2 := by
    unfold speed
    rw [Real.sqrt_le_left (by norm_num)]
    have := sq_abs u.c0
    have := sq_abs u.c1
    nlinarith [abs_nonneg u.c0, abs_nonneg u.c1]
  have hr : speed u * (((1 : ℕ) : ℝ) * |(0.1:ℝ)|) ≤ 0.2 := by
    rw [abs_of_pos (by norm_num)]
    push_cast
    linarith
  obtain ⟨ha, hb⟩ := hp
  have ha := abs_le.mp (ha.trans hr)
  have hb := abs_le.mp (hb.trans hr)
  rw [show midPose.c0 = (1.5:ℝ) from rfl] at ha
  rw [show midPose.c1 = (1.5:ℝ) from rfl] at hb
  rw [Nat.zero_add]
  apply coarse_clear
  · linarith [ha.1]
  · linarith [ha.2]
  · linarith [hb.1]
  · linarith [hb.2]

/-- planning on it throws: the target grid would have 2^40 points -/
theorem coarse_throws {e : ErgodicControl ℝ} (hr : e.resolution = 1) (hl : e.basis.lx = 0)
    (x : V3 ℝ) (draws : List Nat) : e.control (mapOf coarseMsg) x draws = .throw .logicError := by
  have hf : ⌊((2:ℝ) ^ 20) / 1 + 1 / 2⌋₊ = 2 ^ 20 := by
    rw [Nat.floor_eq_iff (by positivity)]; constructor <;> norm_num
  have hp : ErgodicControl.phiGrid ((2:ℝ) ^ 20) (2 ^ 20) 1 = .throw .logicError :=
    C62_too_many _ _ _ (by positivity) (by positivity) one_pos (2 ^ 20 + 1) (2 ^ 20 + 1)
      (by rw [hf]) (by rw [hf]) (by norm_num) (by norm_num) (by norm_num)
  have hm : (mapOf coarseMsg).xmax -. (mapOf coarseMsg).xmin = (2:ℝ) ^ 20 ∧
      (mapOf coarseMsg).ymax -. (mapOf coarseMsg).ymin = (2:ℝ) ^ 20 := by
    simp [mapOf, coarseMsg]
  unfold ErgodicControl.control ErgodicControl.configTarget
  dsimp only
  rw [hm.1, hm.2, if_neg, hr, hp]
  · rfl
  · rw [hl, Bool.and_eq_true, not_and_or]
    left
    rw [real_almostEqual]
    norm_num

/-- One state of a concurrent execution, three iterations: with the message arriving after the plan
the planned twist is published; with the message after the iteration the dynamic window takes over;
with the message before the iteration planning throws. -/
theorem conc_run : ∃ (n : Node ℝ) (o0 : List (Out ℝ)) (es : List (Event ℝ)) (os : List (List (Out ℝ)))
    (s t t' : Expl ℝ) (p q : PathMsg ℝ) (u v : V3 ℝ),
    Node.omni (sideParams 1 1 (-1) 1) = .ok (n, o0) ∧ n.up = true ∧
    ConcTrace n.expl es os s ∧ odoms es = [⟨1, 1 + 1, 1⟩] ∧
    s.iterationC (some midTf) [] { check := [.map coarseMsg] } = .ok (t, [.trajectory p, .twist u]) ∧
    s.iteration (some midTf) [] = .ok (t', [.trajectory p, .dwaPath q, .twist v]) ∧
    (s.deliver [.map coarseMsg]).iteration (some midTf) [] = .throw .logicError := by
  obtain ⟨target, ec, Rinv, o0, hec, hn⟩ := side_omni 1 1 (by norm_num) (by norm_num) 1 (-1) 1
  -- the first iteration only receives the map and the odometry
  have hfirst : (Expl.start ec nearDetector (sideDwa 1 1 1 (-1) 1) target "map" 0.1 0.1).1.iterationC
      none [] { flag := [.map sideMsg, .odom ⟨1, 1 + 1, 1⟩] } =
      .ok (((Expl.start ec nearDetector (sideDwa 1 1 1 (-1) 1) target "map" 0.1 0.1).1.mapCallback
        sideMsg).odomCallback ⟨1, 1 + 1, 1⟩, []) := rfl
  have htr := ConcTrace.snoc .nil hfirst
  generalize hs : ((Expl.start ec nearDetector (sideDwa 1 1 1 (-1) 1) target "map" 0.1 0.1).1.mapCallback
      sideMsg).odomCallback ⟨1, 1 + 1, 1⟩ = s at htr
  have hb : EcBuilt omniModel nearDetector 1 2 1 1 2 10 0 Rinv ⟨-1, -1, -1⟩ ⟨1, 1, 1⟩ s.ec := by
    rw [← hs]; exact ⟨ec, hec, .setTarget _ .start⟩
  have h1 : s.collision = nearDetector := by rw [← hs]; rfl
  have h2 : s.dwa = sideDwa 1 (UInt32.ofNat 1) 1 (-1) 1 := by rw [← hs]; rfl
  have h3 : s.map_received = true := by rw [← hs]; rfl
  have h4 : s.grid = mapOf sideMsg := by rw [← hs]; rfl
  have h5 : s.vb = ⟨1, 1 + 1, 1⟩ := by rw [← hs]; rfl
  have h6 : s.val_dt = 0.1 := by rw [← hs]; rfl
  have h7 : s.val_horizon = 0.1 := by rw [← hs]; rfl
  have h8 : s.follow_dwa = false := by rw [← hs]; rfl
  have h9 : s.ec.resolution = 1 ∧ s.ec.basis.lx = 0 := by
    refine ⟨hb.inv.resolution_eq, ?_⟩
    rw [← hs]
    show ec.basis.lx = 0
    unfold ErgodicControl.new at hec
    rw [demo_steps, Res.ok_bind, if_neg (by decide)] at hec
    simp only [Res.ok.injEq] at hec
    rw [← hec]
    simp [Basis.new]
  have hpose : s.localize (some midTf) =
      { s with pose := midPose, ec := s.ec.addStateMemory midPose, pose_known := true } := by
    simp only [Expl.localize, midTf, midTf_yaw, midPose]
  have hadv : (s.localize (some midTf)).advanceDwa = s.localize (some midTf) := by
    rw [hpose]
    unfold Expl.advanceDwa
    rw [if_neg (by dsimp only; rw [h8]; simp)]
  -- the sequential iteration
  obtain ⟨ec', oseq, htick, -, -⟩ := side_tick s 1 1 1 (-1) 1 (by norm_num) (by norm_num)
    (by norm_num) (by norm_num) (by norm_num) (Or.inl rfl) hb h1 h2 h3 h4 h5 h6 h7 h8
  rcases Expl.iteration_ok htick with ⟨hc, -, -⟩ | ⟨hc, r, o1, o2, hr, ha, ho⟩
  · rw [hpose] at hc
    simp [h3] at hc
  rw [hadv, hpose] at hr
  rcases Expl.replan_ok hr with ⟨hf, -⟩ | ⟨-, ec1, u, p, hctl, hpath, rfl, rfl⟩
  · simp [h8] at hf
  have hlim : |u.c0| ≤ 1 ∧ |u.c1| ≤ 1 := by
    have hb1 : EcBuilt omniModel nearDetector 1 2 1 1 2 10 0 Rinv ⟨-1, -1, -1⟩ ⟨1, 1, 1⟩
        (s.ec.addStateMemory midPose) := by
      obtain ⟨e0, a, b⟩ := hb; exact ⟨e0, a, .addStateMemory _ b⟩
    have hu := (C59_not_outside hb1 hctl).1
    simp only [NotOutside, real_lt_false] at hu
    exact ⟨abs_le.mpr hu.1, abs_le.mpr ⟨by linarith [hu.2.1.1], by linarith [hu.2.1.2]⟩⟩
  -- what it publishes
  have hseq : ∃ q v, oseq = [.trajectory p, .dwaPath q, .twist v] := by
    rcases Expl.avoid_ok ha with ⟨hv, -, -⟩ | ⟨-, ⟨hf, -⟩ | ⟨-, ref, b, v, -, -, hd⟩⟩
    · dsimp only at hv
      rw [h1, h4, h6, h7, side_invalid u hlim.1 hlim.2] at hv
      simp at hv
    · simp [h8] at hf
    · rcases hd with ⟨-, hh, -⟩ | ⟨-, q, -, -, rfl⟩
      · have := congrArg Expl.follow_dwa hh
        simp at this
      · exact ⟨q, _, ho⟩
  -- the concurrent iteration
  have hconc : ∃ t, s.iterationC (some midTf) [] { check := [.map coarseMsg] } =
      .ok (t, [.trajectory p, .twist u]) := by
    unfold Expl.iterationC
    dsimp only
    rw [Expl.deliver_nil, if_pos hc, Expl.deliver_nil, hadv, hpose, hr, Res.ok_bind]
    dsimp only
    unfold Expl.avoidC
    have hv := coarse_valid u hlim.1 hlim.2
    simp only [Expl.deliver, List.foldl_cons, List.foldl_nil, Expl.deliverOne, Expl.mapCallback, h1, h6, h7]
    rw [show s.grid.update coarseMsg = mapOf coarseMsg from rfl, hv, Res.ok_bind]
    exact ⟨_, rfl⟩
  have hth : (s.deliver [.map coarseMsg]).iteration (some midTf) [] = .throw .logicError := by
    unfold Expl.iteration
    dsimp only
    rw [← Expl.deliver_localize, hpose]
    simp only [Expl.deliver, List.foldl_cons, List.foldl_nil, Expl.deliverOne, Expl.mapCallback]
    simp only [Bool.and_self, if_true]
    unfold Expl.advanceDwa
    rw [if_neg (by dsimp only; rw [h8]; simp)]
    unfold Expl.replan
    rw [if_neg (by dsimp only; rw [h8]; simp)]
    dsimp only
    rw [show s.grid.update coarseMsg = mapOf coarseMsg from rfl,
      coarse_throws (e := s.ec.addStateMemory midPose) h9.1 h9.2]
    rfl
  obtain ⟨t, hconc⟩ := hconc
  obtain ⟨q, v, rfl⟩ := hseq
  exact ⟨_, _, _, _, s, t, _, p, q, u, v, hn, lt_two_one, htr, rfl, hconc, htick, hth⟩

/-- C103 is false: planned on one map, checked on the next.  On the first map every twist within the
limits is rejected and the dynamic window takes over; on the second the controller cannot plan.  In
between, the planned twist is published. -/
theorem C103_refuted : ¬ C103_statement := by
  intro hst
  obtain ⟨n, o0, es, os, s, t, t', p, q, u, v, hn, hup, htr, -, hconc, htick, hth⟩ := conc_run
  obtain ⟨a, b, t2, hab, hrun⟩ := hst _ _ _ _ _ _ hn hup htr _ _ _ _ _ hconc
  rw [Expl.run_around] at hrun
  have hab' : [Callback.map coarseMsg] = a ++ b := hab
  cases a with
  | nil =>
    rw [Expl.deliver_nil, htick, Res.ok_bind] at hrun
    simp at hrun
  | cons x a =>
    simp only [List.cons_append, List.cons.injEq] at hab'
    obtain ⟨rfl, hab'⟩ := hab'
    obtain rfl : a = [] := (List.append_eq_nil_iff.mp hab'.symm).1
    rw [hth] at hrun
    simp at hrun

/-- the hypotheses of `C103_safe` and `C103_one_per_iteration` are met -/
example : ∃ (ec : ErgodicControl ℝ) (collision : Collision ℝ) (dwa : DynamicWindow ℝ) (target : Target ℝ)
    (es : List (Event ℝ)) (os : List (List (Out ℝ))) (s t : Expl ℝ) (c : Slots ℝ) (o : List (Out ℝ)) (u : V3 ℝ),
    ConcTrace (Expl.start ec collision dwa target "map" 0.1 0.1).1 es os s ∧
    s.iterationC (some midTf) [] c = .ok (t, o) ∧ u ∈ twists o ∧ ¬ NoMap c.check := by
  obtain ⟨n, o0, es, os, s, t, t', p, q, u, v, hn, -, htr, -, hconc, -⟩ := conc_run
  obtain ⟨_, _, _, target, collision, ec, dwa, -, -, hs, -⟩ := omni_ok hn
  rw [show n.expl = _ from congrArg Prod.fst hs] at htr
  refine ⟨ec, collision, dwa, target, es, os, s, t, _, _, u, htr, hconc, ?_, ?_⟩
  · simp [twists, Out.twist?]
  · intro h
    obtain ⟨w, hw⟩ := h _ (List.mem_singleton_self _)
    cases hw

/-- and so are those of `C103_limits` -/
example : ∃ (p : Params ℝ) (n : Node ℝ) (o : List (Out ℝ)) (es : List (Event ℝ)) (os : List (List (Out ℝ)))
    (t : Expl ℝ), LimitsOk p ∧ RecoverableAll p ⟨0, 0, 0⟩ ∧ (∀ v ∈ odoms es, RecoverableAll p v) ∧
    Node.omni p = .ok (n, o) ∧ ConcTrace n.expl es os t ∧ twists os.flatten ≠ [] := by
  obtain ⟨n, o0, es, os, s, t, t', p, q, u, v, hn, -, htr, hod, hconc, -⟩ := conc_run
  refine ⟨_, n, o0, _, _, t, ?_, ?_, ?_, hn, .snoc htr hconc, ?_⟩
  · simp only [LimitsOk, WithinParams, sideParams]
    norm_num
  · simp only [RecoverableAll, Recoverable, sideParams]
    norm_num
  · intro w hw
    have : odoms (es ++ asEvents ({ check := [.map coarseMsg] } : Slots ℝ).all ++ [.tick (some midTf) []]) =
        odoms es := by
      simp [odoms_append, Slots.all, asEvents, Callback.event, odoms, Event.odom?]
    rw [this, hod, List.mem_singleton] at hw
    subst hw
    simp only [RecoverableAll, Recoverable, sideParams]
    norm_num
  · simp [twists, Out.twist?]

/-- odometry at every place meets the hypotheses of `C103_linear_partial` -/
example : ∃ c : Slots ℝ, c.flag = [.map sideMsg] ∧ c.search = [.odom ⟨0, 1, 0⟩] ∧
    NoMap c.check ∧ NoMap c.search :=
  ⟨⟨[.map sideMsg], [.map coarseMsg], [.odom ⟨1, 1, 1⟩], [.odom ⟨0, 1, 0⟩]⟩, rfl, rfl, by simp [NoMap], by simp [NoMap]⟩

end Ergodic
