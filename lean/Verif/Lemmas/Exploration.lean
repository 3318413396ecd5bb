import Verif.Spec.Exploration
import Verif.Props.DynamicWindow
import Verif.Props.ErgodicControl

/-! # What one event, and a history of events, does to the exploration node -/

namespace Ergodic
variable {F : Type} [Flt F]

/-! ## The dynamic window search -/

theorem trajLoop_free (d : DynamicWindow F) (g : GridMap F) (u : V3 F) (ref : List (V3 F)) (tf : F)
    (c : F) : ∀ (n : Nat) (x : V3 F) (t cost : F), d.trajLoop g u ref tf n x t cost = .ok c →
      (∀ k < n, d.collision.collisionCheck g (poseAfter u d.dt x (k + 1)) = .ok false) ∨
        c = Flt.maxFin := by
  intro n
  induction n with
  | zero => intro x t cost _; left; intro k hk; omega
  | succ n ih =>
    intro x t cost h
    rw [DynamicWindow.trajLoop, Res.bind_eq_ok] at h
    obtain ⟨b, hb, h⟩ := h
    cases b with
    | true => right; simpa using h.symm
    | false =>
      simp only [Bool.false_eq_true, if_false, Res.bind_eq_ok] at h
      obtain ⟨j, -, xr, -, h⟩ := h
      rcases ih _ _ _ h with h | h
      · left
        intro k hk
        cases k with
        | zero => exact hb
        | succ k => exact h k (by omega)
      · exact Or.inr h

/-- Whatever the search returns is a sampled twist with a collision-free rollout, or it reports
failure and returns zero. -/
theorem search_free [StrictLt F] {d : DynamicWindow F} {g : GridMap F} {x0 vb vref : V3 F}
    {ref : List (V3 F)} {dt_ref : F} {b : Bool} {u : V3 F}
    (h : d.controlTwist g x0 vb vref = .ok (b, u) ∨ d.controlTraj g x0 vb ref dt_ref = .ok (b, u)) :
    (IsSample d vb u ∧ FreeRollout d g x0 u) ∨ (b = false ∧ u = V3.zero) := by
  rcases h with h | h
  · obtain ⟨m, -, hb, (⟨rfl, rfl⟩ | ⟨hlt, hu, hm, -⟩)⟩ := searchWindow_spec d vb _ b u h
    · exact Or.inr ⟨hb.mpr StrictLt.max_close, rfl⟩
    · rcases (objectiveTwist_ok d g x0 vref u m).mp hm with ⟨hf, -⟩ | ⟨-, rfl⟩
      · exact Or.inl ⟨hu, hf⟩
      · rw [StrictLt.irrefl] at hlt; simp at hlt
  · obtain ⟨m, -, hb, (⟨rfl, rfl⟩ | ⟨hlt, hu, hm, -⟩)⟩ := searchWindow_spec d vb _ b u h
    · exact Or.inr ⟨hb.mpr StrictLt.max_close, rfl⟩
    · rcases trajLoop_free d g u ref _ m _ _ _ _ hm with hf | rfl
      · exact Or.inl ⟨hu, hf⟩
      · rw [StrictLt.irrefl] at hlt; simp at hlt

/-! ## One iteration -/

namespace Expl

theorem localize_frame (s : Expl F) (tf : Option (TransformMsg F)) :
    (s.localize tf).collision = s.collision ∧ (s.localize tf).dwa = s.dwa ∧
    (s.localize tf).map_received = s.map_received ∧ (s.localize tf).vb = s.vb ∧
    (s.localize tf).grid = s.grid ∧ (s.localize tf).map_frame_id = s.map_frame_id ∧
    (s.localize tf).val_dt = s.val_dt ∧ (s.localize tf).val_horizon = s.val_horizon ∧
    (s.localize tf).u = s.u ∧ (s.localize tf).follow_dwa = s.follow_dwa ∧
    (s.localize tf).i = s.i := by
  cases tf <;> simp [localize]

omit [Flt F] in
theorem advanceDwa_frame (s : Expl F) : ∃ i f, s.advanceDwa = { s with i := i, follow_dwa := f } := by
  unfold advanceDwa
  split
  · exact ⟨_, _, rfl⟩
  · exact ⟨s.i, s.follow_dwa, rfl⟩

theorem replan_ok {s r : Expl F} {draws : List Nat} {o : List (Out F)}
    (h : s.replan draws = .ok (r, o)) :
    (s.follow_dwa = true ∧ r = s ∧ o = []) ∨
    (s.follow_dwa = false ∧ ∃ ec u p, s.ec.control s.grid s.pose draws = .ok (ec, u) ∧
      ec.path s.map_frame_id = .ok p ∧ r = { s with ec := ec, u := u } ∧ o = [.trajectory p]) := by
  unfold replan at h
  split at h
  · rename_i hf
    simp only [Res.ok.injEq, Prod.mk.injEq] at h
    exact Or.inl ⟨hf, h.1.symm, h.2.symm⟩
  · rename_i hf
    simp only [Res.bind_eq_ok, Res.ok.injEq] at h
    obtain ⟨⟨ec, u⟩, hc, p, hp, h⟩ := h
    simp only [Prod.mk.injEq] at h
    exact Or.inr ⟨by simpa using hf, ec, u, p, hc, hp, h.1.symm, h.2.symm⟩

theorem avoid_ok {s r : Expl F} {o : List (Out F)} (h : s.avoid = .ok (r, o)) :
    (validateControl s.collision s.grid s.pose s.u s.val_dt s.val_horizon = .ok true ∧ r = s ∧ o = []) ∨
    (validateControl s.collision s.grid s.pose s.u s.val_dt s.val_horizon = .ok false ∧
      ((s.follow_dwa = true ∧ ∃ b u, s.dwa.controlTwist s.grid s.pose s.vb s.u = .ok (b, u) ∧
          r = { s with u := u, follow_dwa := false } ∧ o = []) ∨
       (s.follow_dwa = false ∧ ∃ ref b u, s.ec.optTraj = .ok ref ∧
          s.dwa.controlTraj s.grid s.pose s.vb ref s.ec.dt = .ok (b, u) ∧
          ((b = false ∧ r = { s with u := u, follow_dwa := false } ∧ o = []) ∨
           (b = true ∧ ∃ p, constTwistPath s.map_frame_id s.pose u s.dwa.dt s.dwa.horizon = .ok p ∧
              r = { s with u := u, follow_dwa := true, i := 0 } ∧ o = [.dwaPath p]))))) := by
  unfold avoid at h
  rw [Res.bind_eq_ok] at h
  obtain ⟨valid, hv, h⟩ := h
  cases valid with
  | true =>
    simp only [if_true, Res.ok.injEq, Prod.mk.injEq] at h
    exact Or.inl ⟨hv, h.1.symm, h.2.symm⟩
  | false =>
    right
    refine ⟨hv, ?_⟩
    simp only [Bool.false_eq_true, if_false] at h
    cases hf : s.follow_dwa with
    | true =>
      left
      rw [if_pos hf] at h
      simp only [Res.bind_eq_ok, Res.ok.injEq, Prod.mk.injEq] at h
      obtain ⟨⟨b, u⟩, hc, h1, h2⟩ := h
      exact ⟨rfl, b, u, hc, h1.symm, h2.symm⟩
    | false =>
      right
      rw [if_neg (by rw [hf]; simp)] at h
      simp only [Res.bind_eq_ok] at h
      obtain ⟨ref, hr, ⟨b, u⟩, hc, h⟩ := h
      refine ⟨rfl, ref, b, u, hr, hc, ?_⟩
      cases b with
      | false =>
        left
        simp only [Bool.false_eq_true, if_false, Res.ok.injEq, Prod.mk.injEq] at h
        exact ⟨rfl, h.1.symm, h.2.symm⟩
      | true =>
        right
        simp only [if_true, Res.bind_eq_ok, Res.ok.injEq, Prod.mk.injEq] at h
        obtain ⟨p, hp, h1, h2⟩ := h
        exact ⟨rfl, p, hp, h1.symm, h2.symm⟩

theorem iteration_ok {s t : Expl F} {tf : Option (TransformMsg F)} {draws : List Nat}
    {o : List (Out F)} (h : s.iteration tf draws = .ok (t, o)) :
    (((s.localize tf).map_received && (s.localize tf).pose_known) = false ∧ t = s.localize tf ∧
      o = []) ∨
    (((s.localize tf).map_received && (s.localize tf).pose_known) = true ∧ ∃ r o1 o2,
      (s.localize tf).advanceDwa.replan draws = .ok (r, o1) ∧ r.avoid = .ok (t, o2) ∧
      o = o1 ++ o2 ++ [.twist t.u]) := by
  unfold iteration at h
  dsimp only at h
  cases hc : ((s.localize tf).map_received && (s.localize tf).pose_known) with
  | false =>
    rw [if_neg (by rw [hc]; simp)] at h
    simp only [Res.ok.injEq, Prod.mk.injEq] at h
    exact Or.inl ⟨rfl, h.1.symm, h.2.symm⟩
  | true =>
    rw [if_pos hc] at h
    simp only [Res.bind_eq_ok] at h
    obtain ⟨⟨r, o1⟩, hr, ⟨t', o2⟩, ha, h⟩ := h
    simp only [Res.ok.injEq, Prod.mk.injEq] at h
    obtain ⟨rfl, rfl⟩ := h
    exact Or.inr ⟨rfl, r, o1, o2, hr, ha, rfl⟩

end Expl

theorem control_buffer {e e' : ErgodicControl F} {g : GridMap F} {x u : V3 F} {draws : List Nat}
    (h : e.control g x draws = .ok (e', u)) : e'.buffer = e.buffer ∧ e'.target = e.target := by
  unfold ErgodicControl.control at h
  simp only [Res.bind_eq_ok] at h
  obtain ⟨ec, hec, ut, -, traj, -, total, -, h⟩ := h
  obtain ⟨lx, ly, phik, rfl⟩ := ErgodicControl.configTarget_frame hec
  split at h
  · simp at h
  · simp only [Res.bind_eq_ok, Res.ok.injEq, Prod.mk.injEq] at h
    obtain ⟨rhot, -, ut', -, u', -, rfl, -⟩ := h
    exact ⟨rfl, rfl⟩

/-! ## Histories -/

/-- What holds of the node's state after a history. -/
structure ExplInv (ec : ErgodicControl F) (collision : Collision F) (dwa : DynamicWindow F)
    (target : Target F) (frame : String) (val_dt val_horizon : F) (es : List (Event F)) (s : Expl F) : Prop where
  collision_eq : s.collision = collision
  dwa_eq : s.dwa = dwa
  frame_eq : s.map_frame_id = frame
  val_dt_eq : s.val_dt = val_dt
  val_horizon_eq : s.val_horizon = val_horizon
  map_received_eq : s.map_received = !(maps es).isEmpty
  grid_eq : ∀ m, (maps es).getLast? = some m → s.grid = mapOf m
  pose_known_eq : s.pose_known = !(poses es).isEmpty
  pose_eq : ∀ p, (poses es).getLast? = some p → s.pose = p
  vb_eq : s.vb = lastOdom es
  ec_reach : EcReach ec s.ec
  buffer_eq : s.ec.buffer = (poses es).foldl ReplayBuffer.append ec.buffer
  target_eq : s.ec.target = target

/-- The invariant after the `try` block. -/
theorem ExplInv.localize {ec : ErgodicControl F} {collision : Collision F} {dwa : DynamicWindow F}
    {target : Target F} {frame : String} {val_dt val_horizon : F} {es : List (Event F)} {s : Expl F}
    (h : ExplInv ec collision dwa target frame val_dt val_horizon es s) (tf : Option (TransformMsg F))
    (draws : List Nat) :
    ExplInv ec collision dwa target frame val_dt val_horizon (es ++ [.tick tf draws]) (s.localize tf) := by
  obtain ⟨h1, h2, h3, h4, h5, h6, h7, h8, h9, h10, h11, h12, h13⟩ := h
  have hm : maps (es ++ [Event.tick tf draws]) = maps es := by
    simp [maps, Event.map?]
  have ho : odoms (es ++ [Event.tick tf draws]) = odoms es := by
    simp [odoms, Event.odom?]
  cases tf with
  | none =>
    have hp : poses (es ++ [Event.tick none draws]) = poses es := by
      simp [poses, Event.pose?]
    refine ⟨h1, h2, h3, h4, h5, ?_, ?_, ?_, ?_, ?_, h11, ?_, h13⟩
    · rw [hm]; exact h6
    · rw [hm]; exact h7
    · rw [hp]; exact h8
    · rw [hp]; exact h9
    · rw [lastOdom, ho]; exact h10
    · rw [hp]; exact h12
  | some t =>
    have hp : poses (es ++ [Event.tick (some t) draws]) =
        poses es ++ [⟨t.x, t.y, getYaw t.qx t.qy t.qz t.qw⟩] := by
      simp [poses, Event.pose?]
    refine ⟨h1, h2, h3, h4, h5, ?_, ?_, ?_, ?_, ?_, ?_, ?_, h13⟩
    · rw [hm]; exact h6
    · rw [hm]; exact h7
    · rw [hp]; simp [Expl.localize]
    · rw [hp]
      intro p hp'
      simp only [List.getLast?_concat, Option.some.injEq] at hp'
      rw [← hp']; rfl
    · rw [lastOdom, ho]; exact h10
    · exact .addStateMemory _ h11
    · rw [hp, List.foldl_append, ← h12]; rfl

theorem ExplInv.advance {ec : ErgodicControl F} {collision : Collision F} {dwa : DynamicWindow F}
    {target : Target F} {frame : String} {val_dt val_horizon : F} {es : List (Event F)} {s : Expl F}
    (h : ExplInv ec collision dwa target frame val_dt val_horizon es s) :
    ExplInv ec collision dwa target frame val_dt val_horizon es s.advanceDwa := by
  obtain ⟨h1, h2, h3, h4, h5, h6, h7, h8, h9, h10, h11, h12, h13⟩ := h
  obtain ⟨i, f, e⟩ := s.advanceDwa_frame
  rw [e]
  exact ⟨h1, h2, h3, h4, h5, h6, h7, h8, h9, h10, h11, h12, h13⟩

theorem ExplInv.replan {ec : ErgodicControl F} {collision : Collision F} {dwa : DynamicWindow F}
    {target : Target F} {frame : String} {val_dt val_horizon : F} {es : List (Event F)} {s r : Expl F}
    {draws : List Nat} {o : List (Out F)}
    (h : ExplInv ec collision dwa target frame val_dt val_horizon es s)
    (hr : s.replan draws = .ok (r, o)) :
    ExplInv ec collision dwa target frame val_dt val_horizon es r := by
  rcases Expl.replan_ok hr with ⟨-, rfl, -⟩ | ⟨-, ec', u, p, hc, -, rfl, -⟩
  · exact h
  · obtain ⟨h1, h2, h3, h4, h5, h6, h7, h8, h9, h10, h11, h12, h13⟩ := h
    refine ⟨h1, h2, h3, h4, h5, h6, h7, h8, h9, h10, ?_, ?_, ?_⟩
    · exact .control _ _ _ h11 hc
    · dsimp only
      rw [(control_buffer hc).1]; exact h12
    · dsimp only
      rw [(control_buffer hc).2]; exact h13

theorem ExplInv.avoid {ec : ErgodicControl F} {collision : Collision F} {dwa : DynamicWindow F}
    {target : Target F} {frame : String} {val_dt val_horizon : F} {es : List (Event F)} {s r : Expl F}
    {o : List (Out F)} (h : ExplInv ec collision dwa target frame val_dt val_horizon es s)
    (hr : s.avoid = .ok (r, o)) : ExplInv ec collision dwa target frame val_dt val_horizon es r := by
  obtain ⟨h1, h2, h3, h4, h5, h6, h7, h8, h9, h10, h11, h12, h13⟩ := h
  rcases Expl.avoid_ok hr with ⟨-, rfl, -⟩ | ⟨-, ⟨-, b, u, -, rfl, -⟩ |
    ⟨-, ref, b, u, -, -, ⟨-, rfl, -⟩ | ⟨-, p, -, rfl, -⟩⟩⟩
  all_goals exact ⟨h1, h2, h3, h4, h5, h6, h7, h8, h9, h10, h11, h12, h13⟩

theorem ExplInv.step {ec : ErgodicControl F} {collision : Collision F} {dwa : DynamicWindow F}
    {target : Target F} {frame : String} {val_dt val_horizon : F} {es : List (Event F)} {s t : Expl F} {e : Event F}
    {o : List (Out F)} (h : ExplInv ec collision dwa target frame val_dt val_horizon es s)
    (hs : s.step e = .ok (t, o)) :
    ExplInv ec collision dwa target frame val_dt val_horizon (es ++ [e]) t := by
  cases e with
  | map m =>
    obtain ⟨h1, h2, h3, h4, h5, h6, h7, h8, h9, h10, h11, h12, h13⟩ := h
    simp only [Expl.step, Res.ok.injEq, Prod.mk.injEq] at hs
    obtain ⟨rfl, -⟩ := hs
    have hm : maps (es ++ [Event.map m]) = maps es ++ [m] := by simp [maps, Event.map?]
    have ho : odoms (es ++ [Event.map m]) = odoms es := by simp [odoms, Event.odom?]
    have hp : poses (es ++ [Event.map m]) = poses es := by simp [poses, Event.pose?]
    refine ⟨h1, h2, h3, h4, h5, ?_, ?_, ?_, ?_, ?_, h11, ?_, h13⟩
    · rw [hm]; simp [Expl.mapCallback]
    · rw [hm]
      intro m' hm'
      simp only [List.getLast?_concat, Option.some.injEq] at hm'
      rw [← hm']; rfl
    · rw [hp]; exact h8
    · rw [hp]; exact h9
    · rw [lastOdom, ho]; exact h10
    · rw [hp]; exact h12
  | odom v =>
    obtain ⟨h1, h2, h3, h4, h5, h6, h7, h8, h9, h10, h11, h12, h13⟩ := h
    simp only [Expl.step, Res.ok.injEq, Prod.mk.injEq] at hs
    obtain ⟨rfl, -⟩ := hs
    have hm : maps (es ++ [Event.odom v]) = maps es := by simp [maps, Event.map?]
    have ho : odoms (es ++ [Event.odom v]) = odoms es ++ [v] := by simp [odoms, Event.odom?]
    have hp : poses (es ++ [Event.odom v]) = poses es := by simp [poses, Event.pose?]
    refine ⟨h1, h2, h3, h4, h5, ?_, ?_, ?_, ?_, ?_, h11, ?_, h13⟩
    · rw [hm]; exact h6
    · rw [hm]; exact h7
    · rw [hp]; exact h8
    · rw [hp]; exact h9
    · rw [lastOdom, ho, List.getLast?_concat]; rfl
    · rw [hp]; exact h12
  | tick tf draws =>
    rcases Expl.iteration_ok hs with ⟨-, rfl, -⟩ | ⟨-, r, o1, o2, hr, ha, -⟩
    · exact h.localize tf draws
    · exact (((h.localize tf draws).advance).replan hr).avoid ha

theorem Trace.inv {ec : ErgodicControl F} {collision : Collision F} {dwa : DynamicWindow F}
    {target : Target F} {frame : String} {val_dt val_horizon : F} {es : List (Event F)}
    {os : List (List (Out F))} {s : Expl F}
    (h : Trace (Expl.start ec collision dwa target frame val_dt val_horizon).1 es os s) :
    ExplInv ec collision dwa target frame val_dt val_horizon es s := by
  induction h with
  | nil =>
    exact ⟨rfl, rfl, rfl, rfl, rfl, rfl, by simp [maps], rfl, by simp [poses], rfl,
      .setTarget _ .start, rfl, rfl⟩
  | snoc _ hs ih => exact ih.step hs

/-- a trace and `run` describe the same thing -/
theorem run_iff_trace (s t : Expl F) (es : List (Event F)) (out : List (Out F)) :
    s.run es = .ok (t, out) ↔ ∃ os, Trace s es os t ∧ out = os.flatten := by
  have hrun : ∀ (l1 l2 : List (Event F)) (s : Expl F), s.run (l1 ++ l2) =
      (s.run l1 >>= fun r => r.1.run l2 >>= fun q => .ok (q.1, r.2 ++ q.2)) := by
    intro l1
    induction l1 with
    | nil =>
      intro l2 s
      simp only [List.nil_append, Expl.run, Res.ok_bind]
      cases s.run l2 <;> simp
    | cons e l1 ih =>
      intro l2 s
      simp only [List.cons_append, Expl.run, ih]
      cases s.step e with
      | ok a =>
        simp only [Res.ok_bind]
        cases a.1.run l1 with
        | ok b =>
          simp only [Res.ok_bind]
          cases b.1.run l2 <;> simp
        | throw _ => simp
        | ub => simp
        | timeout => simp
      | throw _ => simp
      | ub => simp
      | timeout => simp
  have hone : ∀ (s : Expl F) (e : Event F), s.run [e] = s.step e := by
    intro s e
    simp only [Expl.run]
    cases s.step e <;> simp
  constructor
  · induction es using List.reverseRecOn generalizing t out with
    | nil =>
      intro h
      simp only [Expl.run, Res.ok.injEq, Prod.mk.injEq] at h
      obtain ⟨rfl, rfl⟩ := h
      exact ⟨[], .nil, rfl⟩
    | append_singleton es e ih =>
      intro h
      rw [hrun] at h
      simp only [Res.bind_eq_ok, Res.ok.injEq, Prod.mk.injEq] at h
      obtain ⟨⟨r, o1⟩, h1, ⟨q, o2⟩, h2, rfl, rfl⟩ := h
      rw [hone] at h2
      obtain ⟨os, ht, rfl⟩ := ih r o1 h1
      exact ⟨os ++ [o2], .snoc ht h2, by simp⟩
  · rintro ⟨os, ht, rfl⟩
    induction ht with
    | nil => rfl
    | snoc _ hs ih =>
      rw [hrun, ih, Res.ok_bind]
      dsimp only
      rw [hone, hs, Res.ok_bind]
      simp

end Ergodic
