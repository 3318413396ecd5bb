import Verif.Spec.Torn
import Verif.Props.Concurrent

/-!
# Property C114: odometry that arrives while the velocity window is computed

The window may be made of pieces of several measured velocities.  What is published stays within the
velocity limits and is checked for collisions all the same, but the acceleration limits may be
exceeded by as much as the velocity changed between two messages.
-/

namespace Ergodic

section any
variable {F : Type} [Flt F]

/-! ## What the reads see -/

theorem putAll_odom (vb v : V3 F) (ws : List (Write F)) :
    (odomWrites v ++ ws).foldl Write.put vb = ws.foldl Write.put v := by
  simp [odomWrites, Write.put]

/-- once all assignments are done the last message is there -/
theorem settled (vb : V3 F) (msgs : List (V3 F)) :
    (writesOf msgs).foldl Write.put vb = (vb :: msgs).getLast (by simp) := by
  induction msgs generalizing vb with
  | nil => rfl
  | cons v msgs ih =>
    rw [writesOf, List.flatMap_cons, putAll_odom, ← writesOf, ih]
    simp

theorem deliver_odoms (s : Expl F) (msgs : List (V3 F)) :
    s.deliver (odomCallbacks msgs) = { s with vb := (writesOf msgs).foldl Write.put s.vb } := by
  induction msgs generalizing s with
  | nil => rfl
  | cons v msgs ih =>
    have e : (writesOf (v :: msgs)).foldl Write.put s.vb = (writesOf msgs).foldl Write.put v := by
      rw [writesOf, List.flatMap_cons, putAll_odom, ← writesOf]
    rw [odomCallbacks, List.map_cons, Expl.deliver_cons, ← odomCallbacks, ih, e]
    rfl

theorem seen_mixed (vb : V3 F) (msgs : List (V3 F)) (k : Nat) :
    Mixed (vb :: msgs) (seen vb (writesOf msgs) k) := by
  induction msgs generalizing vb k with
  | nil => simp [seen, writesOf, Mixed]
  | cons v msgs ih =>
    have hmono : ∀ a, Mixed (v :: msgs) a → Mixed (vb :: v :: msgs) a := by
      rintro a ⟨⟨p, hp, e1⟩, ⟨q, hq, e2⟩, r, hr, e3⟩
      exact ⟨⟨p, List.mem_cons_of_mem _ hp, e1⟩, ⟨q, List.mem_cons_of_mem _ hq, e2⟩, r,
        List.mem_cons_of_mem _ hr, e3⟩
    match k with
    | 0 => exact ⟨⟨vb, by simp, rfl⟩, ⟨vb, by simp, rfl⟩, vb, by simp, rfl⟩
    | 1 => exact ⟨⟨v, by simp, rfl⟩, ⟨vb, by simp, rfl⟩, vb, by simp, rfl⟩
    | 2 => exact ⟨⟨v, by simp, rfl⟩, ⟨v, by simp, rfl⟩, vb, by simp, rfl⟩
    | k + 3 =>
      have e : seen vb (writesOf (v :: msgs)) (k + 3) = seen v (writesOf msgs) k := rfl
      rw [e]
      exact hmono _ (ih v k)

/-- C114, in every arithmetic: whatever the order of reads and assignments, each component read for
the window is that component of the velocity stored before or of one of the messages. -/
theorem C114_reads (vb : V3 F) (msgs : List (V3 F)) (g : Gaps) :
    Mixed (vb :: msgs) (readLower vb (writesOf msgs) g) ∧
      Mixed (vb :: msgs) (readUpper vb (writesOf msgs) g) :=
  ⟨⟨(seen_mixed vb msgs _).1, (seen_mixed vb msgs _).2.1, (seen_mixed vb msgs _).2.2⟩,
   ⟨(seen_mixed vb msgs _).1, (seen_mixed vb msgs _).2.1, (seen_mixed vb msgs _).2.2⟩⟩

/-- the two ends of one axis, and the axes among each other, see different velocities -/
example : readLower (⟨1, 2, 3⟩ : V3 ℚ) (writesOf [⟨4, 5, 6⟩]) { x2 := 1 } = ⟨1, 2, 3⟩ ∧
    readUpper (⟨1, 2, 3⟩ : V3 ℚ) (writesOf [⟨4, 5, 6⟩]) { x2 := 1 } = ⟨4, 2, 3⟩ ∧
    readLower (⟨1, 2, 3⟩ : V3 ℚ) (writesOf [⟨4, 5, 6⟩]) { y1 := 2 } = ⟨1, 5, 3⟩ := ⟨rfl, rfl, rfl⟩

/-! ## The search -/

theorem windowT_same (d : DynamicWindow F) (vb : V3 F) : d.windowT vb vb = d.window vb := rfl

theorem searchWindowT_eq (d : DynamicWindow F) (a b : V3 F) (cost : V3 F → Res F) :
    d.searchWindowT a b cost =
      ((sampleList (d.windowT a b).1 (d.windowT a b).2 d.vx_samples.toNat d.vy_samples.toNat
          d.vth_samples.toNat).foldlM (consider cost) (Flt.maxFin, V3.zero) >>= fun s =>
        if almostEqual s.1 Flt.maxFin then .ok (false, s.2) else .ok (true, s.2)) := by
  simp only [DynamicWindow.searchWindowT, vxLoop_eq]

theorem mem_samples (d : DynamicWindow F) (a b u : V3 F) :
    u ∈ sampleList (d.windowT a b).1 (d.windowT a b).2 d.vx_samples.toNat d.vy_samples.toNat
      d.vth_samples.toNat ↔ IsSampleT d a b u := by
  simp only [sampleList, List.mem_flatMap, List.mem_map, List.mem_range, IsSampleT]
  constructor
  · rintro ⟨i, hi, j, hj, k, hk, rfl⟩; exact ⟨i, hi, j, hj, k, hk, rfl⟩
  · rintro ⟨i, hi, j, hj, k, hk, rfl⟩; exact ⟨i, hi, j, hj, k, hk, rfl⟩

theorem searchWindowT_spec [StrictLt F] {d : DynamicWindow F} {a b : V3 F} {cost : V3 F → Res F}
    {r : Bool} {u : V3 F} (h : d.searchWindowT a b cost = .ok (r, u)) :
    (∃ m, Flt.lt m Flt.maxFin = true ∧ IsSampleT d a b u ∧ cost u = .ok m) ∨
      (r = false ∧ u = V3.zero) := by
  rw [searchWindowT_eq] at h
  obtain ⟨⟨m, u'⟩, hs, h⟩ := Res.bind_eq_ok.mp h
  obtain ⟨-, h2⟩ := foldlM_consider _ _ _ hs
  have hb : u = u' ∧ (r = false ↔ almostEqual m Flt.maxFin = true) := by
    by_cases ha : almostEqual m (Flt.maxFin : F) = true
    · simp only [ha, if_true, Res.ok.injEq, Prod.mk.injEq] at h
      exact ⟨h.2.symm, by simp [← h.1, ha]⟩
    · simp only [ha, Bool.false_eq_true, if_false, Res.ok.injEq, Prod.mk.injEq] at h
      exact ⟨h.2.symm, by simp [← h.1, ha]⟩
  obtain ⟨rfl, hb⟩ := hb
  rcases h2 with h2 | ⟨h2, l1, l2, h3, h4, -⟩
  · simp only [Prod.mk.injEq] at h2
    obtain ⟨rfl, rfl⟩ := h2
    exact Or.inr ⟨hb.mpr StrictLt.max_close, rfl⟩
  · exact Or.inl ⟨m, h2, (mem_samples d a b u).mp (by rw [h3]; simp), h4⟩

/-- a torn search too returns a sample whose rollout is free, or zero -/
theorem search_freeT [StrictLt F] {d : DynamicWindow F} {g : GridMap F} {x0 a b vref : V3 F}
    {ref : List (V3 F)} {dt_ref : F} {r : Bool} {u : V3 F}
    (h : d.controlTwistT g x0 a b vref = .ok (r, u) ∨ d.controlTrajT g x0 a b ref dt_ref = .ok (r, u)) :
    (IsSampleT d a b u ∧ FreeRollout d g x0 u) ∨ (r = false ∧ u = V3.zero) := by
  rcases h with h | h
  · rcases searchWindowT_spec h with ⟨m, hlt, hu, hm⟩ | hz
    · rcases (objectiveTwist_ok d g x0 vref u m).mp hm with ⟨hf, -⟩ | ⟨-, rfl⟩
      · exact Or.inl ⟨hu, hf⟩
      · rw [StrictLt.irrefl] at hlt; simp at hlt
    · exact Or.inr hz
  · rcases searchWindowT_spec h with ⟨m, hlt, hu, hm⟩ | hz
    · rcases trajLoop_free d g u ref _ m _ _ _ _ hm with hf | rfl
      · exact Or.inl ⟨hu, hf⟩
      · rw [StrictLt.irrefl] at hlt; simp at hlt
    · exact Or.inr hz

/-! ## The iteration -/

/-- C114, in every arithmetic: when all messages are complete before the first read the iteration is
one with whole callbacks. -/
theorem C114_whole (s : Expl F) (tf : Option (TransformMsg F)) (draws : List Nat) (c : Slots F)
    (msgs : List (V3 F)) :
    s.iterationT tf draws c msgs { x1 := (writesOf msgs).length } =
      s.iterationC tf draws { c with search := c.search ++ odomCallbacks msgs } := by
  have hs : ∀ vb : V3 F, readLower vb (writesOf msgs) { x1 := (writesOf msgs).length } =
      (writesOf msgs).foldl Write.put vb ∧ readUpper vb (writesOf msgs) { x1 := (writesOf msgs).length } =
      (writesOf msgs).foldl Write.put vb := by
    intro vb
    have e : seen vb (writesOf msgs) (writesOf msgs).length = (writesOf msgs).foldl Write.put vb := by
      rw [seen, List.take_length]
    constructor
    · simp only [readLower, Nat.add_zero, e]
    · simp only [readUpper, Nat.add_zero, e]
  have ha : ∀ x : Expl F, x.avoidT c.search msgs { x1 := (writesOf msgs).length } =
      x.avoidC (c.search ++ odomCallbacks msgs) := by
    intro x
    unfold Expl.avoidT Expl.avoidC
    dsimp only
    rw [Expl.deliver_append, deliver_odoms, (hs _).1, (hs _).2]
    rfl
  unfold Expl.iterationT Expl.iterationC
  dsimp only
  simp only [ha, ← List.append_assoc]
  rw [Expl.deliver_append _ _ (odomCallbacks msgs), deliver_odoms]

/-- executions with whole callbacks are among those with torn odometry -/
theorem ConcTrace.torn {s t : Expl F} {es : List (Event F)} {os : List (List (Out F))}
    (h : ConcTrace s es os t) : TornTrace s es os t := by
  induction h with
  | nil => exact .nil
  | @snoc t t' es os tf draws c o _ hs ih =>
    have hw := C114_whole t tf draws c []
    rw [show ({ c with search := c.search ++ odomCallbacks [] } : Slots F) = c by simp [odomCallbacks]] at hw
    have := TornTrace.snoc ih (hw.trans hs)
    simpa [odomCallbacks] using this

theorem Expl.avoidT_ok {s r : Expl F} {cs : List (Callback F)} {msgs : List (V3 F)} {g : Gaps}
    {o : List (Out F)} (h : s.avoidT cs msgs g = .ok (r, o)) :
    (validateControl s.collision s.grid s.pose s.u s.val_dt s.val_horizon = .ok true ∧
      r = s.deliver (cs ++ odomCallbacks msgs) ∧ o = []) ∨
    (∃ b u f i, ((∃ vref, (s.deliver cs).dwa.controlTwistT (s.deliver cs).grid (s.deliver cs).pose
          (readLower (s.deliver cs).vb (writesOf msgs) g) (readUpper (s.deliver cs).vb (writesOf msgs) g)
          vref = .ok (b, u)) ∨
        ∃ ref dt_ref, (s.deliver cs).dwa.controlTrajT (s.deliver cs).grid (s.deliver cs).pose
          (readLower (s.deliver cs).vb (writesOf msgs) g) (readUpper (s.deliver cs).vb (writesOf msgs) g)
          ref dt_ref = .ok (b, u)) ∧
      r = { s.deliver (cs ++ odomCallbacks msgs) with u := u, follow_dwa := f, i := i } ∧
      (o = [] ∨ ∃ p, o = [.dwaPath p])) := by
  unfold avoidT at h
  rw [Expl.deliver_append, deliver_odoms]
  rw [Res.bind_eq_ok] at h
  obtain ⟨valid, hv, h⟩ := h
  cases valid with
  | true =>
    simp only [if_true, Res.ok.injEq, Prod.mk.injEq] at h
    exact Or.inl ⟨hv, h.1.symm, h.2.symm⟩
  | false =>
    right
    simp only [Bool.false_eq_true, if_false] at h
    split at h
    · simp only [Res.bind_eq_ok, Res.ok.injEq, Prod.mk.injEq] at h
      obtain ⟨⟨b, u⟩, hc, h1, h2⟩ := h
      exact ⟨b, u, _, _, Or.inl ⟨_, hc⟩, h1.symm, Or.inl h2.symm⟩
    · simp only [Res.bind_eq_ok] at h
      obtain ⟨ref, hr, ⟨b, u⟩, hc, h⟩ := h
      cases b with
      | false =>
        simp only [Bool.false_eq_true, if_false, Res.ok.injEq, Prod.mk.injEq] at h
        exact ⟨_, u, _, _, Or.inr ⟨_, _, hc⟩, h.1.symm, Or.inl h.2.symm⟩
      | true =>
        simp only [if_true, Res.bind_eq_ok, Res.ok.injEq, Prod.mk.injEq] at h
        obtain ⟨p, hp, h1, h2⟩ := h
        exact ⟨_, u, _, _, Or.inr ⟨_, _, hc⟩, h1.symm, Or.inr ⟨p, h2.symm⟩⟩

theorem Expl.iterationT_ok {s t : Expl F} {tf : Option (TransformMsg F)} {draws : List Nat}
    {c : Slots F} {msgs : List (V3 F)} {g : Gaps} {o : List (Out F)}
    (h : s.iterationT tf draws c msgs g = .ok (t, o)) :
    (t = (s.localize tf).deliver (c.all ++ odomCallbacks msgs) ∧ o = []) ∨
    ((((s.localize tf).deliver c.flag).map_received = true ∧
        ((s.localize tf).deliver c.flag).pose_known = true) ∧ ∃ r o1 o2,
      (((s.localize tf).deliver (c.flag ++ c.plan)).advanceDwa).replan draws = .ok (r, o1) ∧
      (r.deliver c.check).avoidT c.search msgs g = .ok (t, o2) ∧ o = o1 ++ o2 ++ [.twist t.u]) := by
  unfold iterationT at h
  dsimp only at h
  split at h
  · rename_i hc
    right
    rw [Bool.and_eq_true] at hc
    simp only [Res.bind_eq_ok] at h
    obtain ⟨⟨r, o1⟩, hr, ⟨t', o2⟩, ha, h⟩ := h
    simp only [Res.ok.injEq, Prod.mk.injEq] at h
    obtain ⟨rfl, rfl⟩ := h
    exact ⟨hc, r, o1, o2, by rw [deliver_append]; exact hr, ha, rfl⟩
  · left
    simp only [Res.ok.injEq, Prod.mk.injEq] at h
    refine ⟨?_, h.2.symm⟩
    rw [← h.1, Slots.all]
    simp only [deliver_append, deliver_odoms]

theorem iterationT_twists {s t : Expl F} {tf : Option (TransformMsg F)} {draws : List Nat} {c : Slots F}
    {msgs : List (V3 F)} {g : Gaps} {o : List (Out F)} (h : s.iterationT tf draws c msgs g = .ok (t, o)) :
    twists o = [t.u] ∨ twists o = [] := by
  rcases Expl.iterationT_ok h with ⟨-, rfl⟩ | ⟨-, r, o1, o2, hr, ha, rfl⟩
  · exact Or.inr rfl
  · left
    have h1 : twists o1 = [] := by
      rcases Expl.replan_ok hr with ⟨-, -, rfl⟩ | ⟨-, _, _, _, -, -, -, rfl⟩ <;> rfl
    have h2 : twists o2 = [] := by
      rcases Expl.avoidT_ok ha with ⟨-, -, rfl⟩ | ⟨_, _, _, _, -, -, rfl | ⟨_, rfl⟩⟩ <;> rfl
    rw [twists_append, twists_append, h1, h2]
    rfl

section history
variable {ec : ErgodicControl F} {collision : Collision F} {dwa : DynamicWindow F}
  {target : Target F} {frame : String} {val_dt val_horizon : F} {es : List (Event F)}
  {os : List (List (Out F))} {s t : Expl F} {o : List (Out F)}

theorem ExplInv.iterationT {tf : Option (TransformMsg F)} {draws : List Nat} {c : Slots F}
    {msgs : List (V3 F)} {g : Gaps} (h : ExplInv ec collision dwa target frame val_dt val_horizon es s)
    (hs : s.iterationT tf draws c msgs g = .ok (t, o)) :
    ExplInv ec collision dwa target frame val_dt val_horizon
      (es ++ asEvents (c.all ++ odomCallbacks msgs) ++ [.tick tf draws]) t := by
  rcases Expl.iterationT_ok hs with ⟨rfl, -⟩ | ⟨-, r, o1, o2, hr, ha, -⟩
  · exact h.during tf draws _
  · have hi := (((h.during tf draws _).advance.replan hr).more (b := c.check)).more
      (b := c.search ++ odomCallbacks msgs)
    rw [← List.append_assoc, show c.flag ++ c.plan ++ c.check ++ c.search = c.all from rfl] at hi
    obtain ⟨h1, h2, h3, h4, h5, h6, h7, h8, h9, h10, h11, h12, h13⟩ := hi
    rcases Expl.avoidT_ok ha with ⟨-, rfl, -⟩ | ⟨b, u, f, i, -, rfl, -⟩
    all_goals exact ⟨h1, h2, h3, h4, h5, h6, h7, h8, h9, h10, h11, h12, h13⟩

theorem TornTrace.inv (h : TornTrace (Expl.start ec collision dwa target frame val_dt val_horizon).1 es os s) :
    ExplInv ec collision dwa target frame val_dt val_horizon es s := by
  induction h with
  | nil => exact Trace.inv .nil
  | snoc _ hs ih => exact ih.iterationT hs

theorem odoms_callbacks (msgs : List (V3 F)) : odoms (asEvents (odomCallbacks msgs)) = msgs := by
  induction msgs with
  | nil => rfl
  | cons v msgs ih =>
    have e : odoms (asEvents (odomCallbacks (v :: msgs))) =
        v :: odoms (asEvents (odomCallbacks msgs)) := rfl
    rw [e, ih]

theorem lastOdom_mem (es : List (Event F)) : lastOdom es ∈ V3.zero :: odoms es := by
  unfold lastOdom
  cases hl : (odoms es).getLast? with
  | none => exact List.mem_cons_self
  | some v => exact List.mem_cons_of_mem _ (List.mem_of_getLast? hl)

omit [Flt F] in
theorem Mixed.mono {l l' : List (V3 F)} {a : V3 F} (h : Mixed l a) (hl : ∀ v ∈ l, v ∈ l') : Mixed l' a := by
  obtain ⟨⟨p, hp, e1⟩, ⟨q, hq, e2⟩, r, hr, e3⟩ := h
  exact ⟨⟨p, hl p hp, e1⟩, ⟨q, hl q hq, e2⟩, r, hl r hr, e3⟩

/-- C114: whatever twist an execution with torn odometry publishes, in every arithmetic with a strict
`<`: it keeps the robot out of collision over the validation horizon on the last map that arrived
before the validation; or its rollout is collision-free on the last map that arrived before the
search and it is a sample of a window each end of which comes from a velocity measured so far; or it
is zero. -/
theorem C114_safe [StrictLt F] {tf : Option (TransformMsg F)} {draws : List Nat} {c : Slots F}
    {msgs : List (V3 F)} {g : Gaps}
    (h : TornTrace (Expl.start ec collision dwa target frame val_dt val_horizon).1 es os s)
    (hs : s.iterationT tf draws c msgs g = .ok (t, o)) (u : V3 F) (hu : u ∈ twists o) :
    ∃ m1 m2 p, (maps (es ++ asEvents (c.flag ++ c.plan ++ c.check))).getLast? = some m1 ∧
      (maps (es ++ asEvents c.all)).getLast? = some m2 ∧
      (poses (es ++ [.tick tf draws])).getLast? = some p ∧
      ((∃ n, numSteps val_horizon val_dt = .ok n ∧
        ∀ k < n.toNat, collision.collisionCheck (mapOf m1) (poseAfter u val_dt p (k + 1)) = .ok false) ∨
       (FreeRollout dwa (mapOf m2) p u ∧ ∃ a b,
         Mixed (lastOdom (es ++ asEvents c.all) :: msgs) a ∧
         Mixed (lastOdom (es ++ asEvents c.all) :: msgs) b ∧ IsSampleT dwa a b u) ∨
       u = ⟨lit 0 0, lit 0 0, lit 0 0⟩) := by
  have hut : u = t.u := by
    rcases iterationT_twists hs with e | e
    · rw [e, List.mem_singleton] at hu; exact hu
    · rw [e] at hu; simp at hu
  rcases Expl.iterationT_ok hs with ⟨-, rfl⟩ | ⟨⟨hc1, hc2⟩, r, o1, o2, hr, ha, rfl⟩
  · simp [twists] at hu
  subst hut
  have hi0 := h.inv.during tf draws c.flag
  have hne1 : maps (es ++ asEvents c.flag) ≠ [] := by
    have := hi0.map_received_eq
    rw [hc1, maps_append, maps_tick, List.append_nil] at this
    intro hc
    rw [hc] at this
    simp at this
  have hne2 : poses (es ++ [.tick tf draws]) ≠ [] := by
    have := hi0.pose_known_eq
    rw [hc2, poses_append, poses_append, poses_asEvents, List.append_nil, ← poses_append] at this
    intro hc
    rw [hc] at this
    simp at this
  have hlast : ∀ b, ∃ m, (maps (es ++ asEvents (c.flag ++ b))).getLast? = some m := by
    intro b
    have : maps (es ++ asEvents (c.flag ++ b)) ≠ [] := by
      rw [asEvents, List.map_append, ← List.append_assoc, maps_append]
      intro hc
      rw [List.append_eq_nil_iff] at hc
      exact hne1 hc.1
    exact ⟨_, List.getLast?_eq_some_getLast this⟩
  obtain ⟨m1, hm1⟩ := hlast (c.plan ++ c.check)
  obtain ⟨m2, hm2⟩ := hlast (c.plan ++ c.check ++ c.search)
  obtain ⟨p, hp⟩ : ∃ p, (poses (es ++ [.tick tf draws])).getLast? = some p :=
    ⟨_, List.getLast?_eq_some_getLast hne2⟩
  simp only [← List.append_assoc] at hm1 hm2
  refine ⟨m1, m2, p, hm1, hm2, hp, ?_⟩
  have hpose : ∀ b, poses (es ++ asEvents b ++ [.tick tf draws]) = poses (es ++ [.tick tf draws]) := by
    intro b; simp [poses_append, poses_asEvents]
  have hmap : ∀ b, maps (es ++ asEvents b ++ [.tick tf draws]) = maps (es ++ asEvents b) := by
    intro b; simp [maps_append, maps_tick]
  have hodo : lastOdom (es ++ asEvents c.all ++ [.tick tf draws]) = lastOdom (es ++ asEvents c.all) := by
    unfold lastOdom; simp [odoms_append, odoms_tick]
  have hi1 := ((h.inv.during tf draws (c.flag ++ c.plan)).advance.replan hr).more (b := c.check)
  have hi2 := hi1.more (b := c.search)
  have f7 : ((r.deliver c.check).deliver c.search).vb = lastOdom (es ++ asEvents c.all) := by
    rw [← hodo]; exact hi2.vb_eq
  have f2 := hi2.dwa_eq
  have f5 := hi2.grid_eq m2 (by rw [hmap]; exact hm2)
  have f6 := hi2.pose_eq p (by rw [hpose]; exact hp)
  rcases Expl.avoidT_ok ha with ⟨hv, rfl, -⟩ | ⟨b, v, f, i, hv, rfl, -⟩
  · left
    have e1 := hi1.collision_eq
    have e3 := hi1.val_dt_eq
    have e4 := hi1.val_horizon_eq
    have e5 := hi1.grid_eq m1 (by rw [hmap]; exact hm1)
    have e6 := hi1.pose_eq p (by rw [hpose]; exact hp)
    have hu : ((r.deliver c.check).deliver (c.search ++ odomCallbacks msgs)).u = (r.deliver c.check).u := by
      obtain ⟨g, f, v, e⟩ := (r.deliver c.check).deliver_frame (c.search ++ odomCallbacks msgs)
      rw [e]
    rw [hu]
    rw [e1, e3, e4, e5, e6] at hv
    have hn : ∃ n, numSteps val_horizon val_dt = .ok n := by
      simp only [validateControl, Res.bind_eq_ok] at hv
      obtain ⟨n, hn, -⟩ := hv
      exact ⟨n, hn⟩
    obtain ⟨n, hn⟩ := hn
    exact ⟨n, hn, (C20_accepts_iff _ _ _ _ _ _ n hn).mp hv⟩
  · right
    rw [f2, f5, f6, f7] at hv
    have key : (IsSampleT dwa (readLower (lastOdom (es ++ asEvents c.all)) (writesOf msgs) g)
        (readUpper (lastOdom (es ++ asEvents c.all)) (writesOf msgs) g) v ∧
        FreeRollout dwa (mapOf m2) p v) ∨ (b = false ∧ v = V3.zero) := by
      rcases hv with ⟨vref, hv⟩ | ⟨ref, dt_ref, hv⟩
      · exact search_freeT (ref := []) (dt_ref := val_dt) (Or.inl hv)
      · exact search_freeT (vref := V3.zero) (Or.inr hv)
    rcases key with ⟨h1, h2⟩ | ⟨-, hz⟩
    · left
      exact ⟨h2, _, _, (C114_reads _ msgs g).1, (C114_reads _ msgs g).2, h1⟩
    · exact Or.inr hz

/-- `published_in_conc` with torn odometry. -/
theorem published_in_torn [StrictLt F] (P : V3 F → Prop) (hz : P V3.zero)
    (hec : ∀ e e' g x u draws, EcReach ec e → e.control g x draws = .ok (e', u) → P u)
    (hd : ∀ a b, Mixed (V3.zero :: odoms es) a → Mixed (V3.zero :: odoms es) b →
      ∀ u, IsSampleT dwa a b u → P u)
    (h : TornTrace (Expl.start ec collision dwa target frame val_dt val_horizon).1 es os s) :
    P s.u ∧ ∀ u ∈ twists os.flatten, P u := by
  induction h with
  | nil => exact ⟨hz, by simp [twists]⟩
  | @snoc s t es os tf draws c msgs g o ht hs ih =>
    obtain ⟨ih1, ih2⟩ := ih (fun a b ha hb => by
      have hsub : ∀ v ∈ V3.zero :: odoms es, v ∈ V3.zero ::
          odoms (es ++ asEvents (c.all ++ odomCallbacks msgs) ++ [.tick tf draws]) := by
        intro v hv
        rw [odoms_append, odoms_append]
        simp only [List.mem_cons, List.mem_append] at hv ⊢
        tauto
      exact hd a b (ha.mono hsub) (hb.mono hsub))
    have hu : P t.u := by
      obtain ⟨-, -, -, -, -, -, -, -, f9, -, -⟩ := s.localize_frame tf
      have hdu : ∀ (x : Expl F) cs, (x.deliver cs).u = x.u := by
        intro x cs
        obtain ⟨g, f, v, e⟩ := x.deliver_frame cs
        rw [e]
      rcases Expl.iterationT_ok hs with ⟨rfl, -⟩ | ⟨-, r, o1, o2, hr, ha, -⟩
      · rw [hdu, f9]; exact ih1
      · have hi1 := (ht.inv.during tf draws (c.flag ++ c.plan)).advance
        have hi2 := ((hi1.replan hr).more (b := c.check)).more (b := c.search)
        have hru : P r.u := by
          rcases Expl.replan_ok hr with ⟨-, rfl, -⟩ | ⟨-, ec', u, p, hc', -, rfl, -⟩
          · obtain ⟨i, f, e⟩ := ((s.localize tf).deliver (c.flag ++ c.plan)).advanceDwa_frame
            rw [e]; dsimp only; rw [hdu, f9]; exact ih1
          · exact hec _ _ _ _ _ _ hi1.ec_reach hc'
        have hsub : ∀ v ∈ ((r.deliver c.check).deliver c.search).vb :: msgs, v ∈ V3.zero ::
            odoms (es ++ asEvents (c.all ++ odomCallbacks msgs) ++ [.tick tf draws]) := by
          have hm := lastOdom_mem (es ++ asEvents c.all ++ [.tick tf draws])
          rw [show lastOdom (es ++ asEvents c.all ++ [.tick tf draws]) =
            ((r.deliver c.check).deliver c.search).vb from hi2.vb_eq.symm] at hm
          intro v hv
          rw [asEvents_append]
          simp only [odoms_append, odoms_tick, odoms_callbacks, List.mem_cons, List.mem_append] at hm hv ⊢
          rcases hv with rfl | hv <;> tauto
        have hread := C114_reads ((r.deliver c.check).deliver c.search).vb msgs g
        have hsamp := hd _ _ (hread.1.mono hsub) (hread.2.mono hsub)
        rw [← hi2.dwa_eq] at hsamp
        rcases Expl.avoidT_ok ha with ⟨hv, rfl, -⟩ | ⟨b, v, f, i, ⟨vref, hv⟩ | ⟨ref, dt_ref, hv⟩, rfl, -⟩
        · rw [hdu, hdu]; exact hru
        · rcases search_freeT (ref := []) (dt_ref := val_dt) (Or.inl hv) with hf | ⟨-, rfl⟩
          · exact hsamp _ hf.1
          · exact hz
        · rcases search_freeT (vref := V3.zero) (Or.inr hv) with hf | ⟨-, rfl⟩
          · exact hsamp _ hf.1
          · exact hz
    refine ⟨hu, fun v hv => ?_⟩
    rw [List.flatten_append, twists_append, List.mem_append] at hv
    rcases hv with hv | hv
    · exact ih2 v hv
    · simp only [List.flatten_cons, List.flatten_nil, List.append_nil] at hv
      rcases iterationT_twists hs with e | e
      · rw [e, List.mem_singleton] at hv; rw [hv]; exact hu
      · rw [e] at hv; simp at hv

end history
end any

/-! ## The limits -/

/-- one axis of a torn window -/
theorem axis_torn {v1 v2 a lo hi : ℝ} (h1 : Recoverable v1 a lo hi) (h2 : Recoverable v2 a lo hi)
    {n i : Nat} (hi' : i < n) {x : ℝ} (hx : x = max (v1 - a) lo + (min (v2 + a) hi - max (v1 - a) lo) *
      ((i : ℝ) / ((n : ℝ) - 1))) : (lo ≤ x ∧ x ≤ hi) ∧ NearSegment a v1 v2 x := by
  obtain ⟨ha, hlh, p1, p2⟩ := h1
  obtain ⟨-, -, q1, q2⟩ := h2
  have hf : 0 ≤ (i : ℝ) / ((n : ℝ) - 1) ∧ (i : ℝ) / ((n : ℝ) - 1) ≤ 1 := by
    have hin : (i : ℝ) + 1 ≤ n := by exact_mod_cast hi'
    have hi0 : (0 : ℝ) ≤ i := Nat.cast_nonneg i
    exact ⟨div_nonneg hi0 (by linarith), div_le_one_of_le₀ (by linarith) (by linarith)⟩
  generalize (i : ℝ) / ((n : ℝ) - 1) = r at hx hf
  have hconv : ∀ c d : ℝ, c ≤ max (v1 - a) lo → c ≤ min (v2 + a) hi → max (v1 - a) lo ≤ d →
      min (v2 + a) hi ≤ d → c ≤ x ∧ x ≤ d := by
    intro c d e1 e2 e3 e4
    rw [hx]
    generalize max (v1 - a) lo = A at *
    generalize min (v2 + a) hi = B at *
    constructor <;> nlinarith [hf.1, hf.2]
  constructor
  · exact hconv _ _ (le_max_right _ _) (le_min (by linarith) hlh) (max_le (by linarith) hlh)
      (min_le_right _ _)
  · refine hconv _ _ ?_ ?_ ?_ ?_
    · have := min_le_left v1 v2
      exact (by linarith : min v1 v2 - a ≤ v1 - a).trans (le_max_left _ _)
    · have := min_le_right v1 v2
      exact le_min (by linarith) (by linarith)
    · have := le_max_left v1 v2
      exact max_le (by linarith) (by linarith)
    · have := le_max_right v1 v2
      exact (min_le_left _ _).trans (by linarith)

/-- C114 (missing: the acceleration limits with respect to one measured velocity, see
`C114_refuted`): if both readings can be brought back within the velocity limits, every sample of a
torn window is within the velocity limits, and on every axis within the acceleration of the interval
between the two readings. -/
theorem C114_window_partial (d : DynamicWindow ℝ) (a b u : V3 ℝ) (ha : WindowNonempty d a)
    (hb : WindowNonempty d b) (hu : IsSampleT d a b u) :
    WithinLimits d u ∧ NearSegment (d.acc_lim_x * d.acc_dt) a.c0 b.c0 u.c0 ∧
      NearSegment (d.acc_lim_y * d.acc_dt) a.c1 b.c1 u.c1 ∧
      NearSegment (d.acc_lim_th * d.acc_dt) a.c2 b.c2 u.c2 := by
  obtain ⟨i, hi, j, hj, k, hk, rfl⟩ := hu
  obtain ⟨p0, p1, p2⟩ := ha
  obtain ⟨q0, q1, q2⟩ := hb
  simp only [stride_real, DynamicWindow.windowT, delta_real _ _ _ i hi, delta_real _ _ _ j hj,
    delta_real _ _ _ k hk, DynamicWindow.velLower, DynamicWindow.velUpper,
    real_fmax, real_fmin, real_add, real_sub, real_mul]
  have a0 := axis_torn p0 q0 hi rfl
  have a1 := axis_torn p1 q1 hj rfl
  have a2 := axis_torn p2 q2 hk rfl
  exact ⟨⟨a0.1, a1.1, a2.1⟩, a0.2, a1.2, a2.2⟩

theorem mixed_nonempty {d : DynamicWindow ℝ} {l : List (V3 ℝ)} (h : ∀ v ∈ l, WindowNonempty d v)
    {a : V3 ℝ} (ha : Mixed l a) : WindowNonempty d a := by
  obtain ⟨⟨p, hp, e1⟩, ⟨q, hq, e2⟩, r, hr, e3⟩ := ha
  unfold WindowNonempty
  rw [e1, e2, e3]
  exact ⟨(h p hp).1, (h q hq).2.1, (h r hr).2.2⟩

/-- C114: the velocity limits of C70 hold however the odometry is torn. -/
theorem C114_limits (p : Params ℝ) (n : Node ℝ) (o : List (Out ℝ)) (es : List (Event ℝ))
    (os : List (List (Out ℝ))) (t : Expl ℝ) (hl : LimitsOk p) (hz : RecoverableAll p ⟨0, 0, 0⟩)
    (ho : ∀ v ∈ odoms es, RecoverableAll p v) (hn : Node.omni p = .ok (n, o))
    (hr : TornTrace n.expl es os t) : ∀ u ∈ twists os.flatten, WithinParams p u := by
  obtain ⟨w0, w1, w2, target, collision, ec, dwa, hec, hdwa, hs, hup⟩ := omni_ok hn
  rw [show n.expl = _ from congrArg Prod.fst hs] at hr
  have hzero : (V3.zero : V3 ℝ) = ⟨0, 0, 0⟩ := by simp [V3.zero]
  refine (published_in_torn (WithinParams p) ?_ ?_ ?_ hr).2
  · rw [hzero]; exact hl
  · intro e e' g x u draws hre hc
    exact ec_in_box hec hre hc
  · intro a b ha hb u hu
    simp only [DynamicWindow.new, Res.bind_eq_ok, Res.ok.injEq] at hdwa
    obtain ⟨steps, -, rfl⟩ := hdwa
    have hv : ∀ v ∈ V3.zero :: odoms es, RecoverableAll p v := by
      intro v hv
      rcases List.mem_cons.mp hv with rfl | hv
      · rw [hzero]; exact hz
      · exact ho v hv
    exact (C114_window_partial _ a b u
      (mixed_nonempty (fun v h => by obtain ⟨a, b, c⟩ := hv v h; exact ⟨a, b, c⟩) ha)
      (mixed_nonempty (fun v h => by obtain ⟨a, b, c⟩ := hv v h; exact ⟨a, b, c⟩) hb) hu).1

/-! ## The acceleration limits -/

/-- Full statement of C114: a twist found by a search during which odometry arrived respects the
acceleration limits with respect to the velocity stored before or to one of the messages. -/
def C114_statement : Prop :=
  ∀ (d : DynamicWindow ℝ) (m : GridMap ℝ) (x0 vref vb : V3 ℝ) (msgs : List (V3 ℝ)) (g : Gaps) (u : V3 ℝ),
    (∀ v ∈ vb :: msgs, WindowNonempty d v) →
    d.controlTwistT m x0 (readLower vb (writesOf msgs) g) (readUpper vb (writesOf msgs) g) vref =
      .ok (true, u) →
    ∃ v ∈ vb :: msgs, Reachable d v u

/-- a robot that may change its forward velocity by a tenth and nothing else -/
noncomputable def tornRobot : DynamicWindow ℝ :=
  { collision := nearDetector, dt := 0.1, acc_dt := 0.1, horizon := 0.1, acc_lim_x := 1, acc_lim_y := 0,
    acc_lim_th := 0, max_vel_x := 2, min_vel_x := -2, max_vel_y := 2, min_vel_y := -2,
    max_rot_vel := 2, min_rot_vel := -2, vx_samples := 3, vy_samples := 1, vth_samples := 1, steps := 1 }

/-- straight ahead at one half, or slower or faster by six tenths, nothing is hit -/
theorem torn_free (vx : ℝ) (h : |vx| ≤ 2) : FreeRollout tornRobot (mapOf coarseMsg) midPose ⟨vx, 0, 0⟩ := by
  intro k hk
  have hk : k = 0 := by
    have : k < 1 := hk
    omega
  subst hk
  have hp := planar_le (C76_poseAfter ⟨vx, 0, 0⟩ 0.1 (by norm_num) midPose 1)
  have hs : speed (⟨vx, 0, 0⟩ : V3 ℝ) ≤ 2 := by
    unfold speed
    rw [Real.sqrt_le_left (by norm_num)]
    have := sq_abs vx
    nlinarith [abs_nonneg vx]
  have hr : speed (⟨vx, 0, 0⟩ : V3 ℝ) * (((1 : ℕ) : ℝ) * |(0.1:ℝ)|) ≤ 0.2 := by
    rw [abs_of_pos (by norm_num)]
    push_cast
    linarith
  obtain ⟨ha, hb⟩ := hp
  have ha := abs_le.mp (ha.trans hr)
  have hb := abs_le.mp (hb.trans hr)
  rw [show midPose.c0 = (1.5:ℝ) from rfl] at ha
  rw [show midPose.c1 = (1.5:ℝ) from rfl] at hb
  rw [Nat.zero_add, show tornRobot.dt = (0.1:ℝ) from rfl]
  apply coarse_clear
  · linarith [ha.1]
  · linarith [ha.2]
  · linarith [hb.1]
  · linarith [hb.2]

theorem torn_cost (vx : ℝ) (h : |vx| ≤ 2) :
    tornRobot.objectiveTwist (mapOf coarseMsg) midPose ⟨0.5, 0, 0⟩ ⟨vx, 0, 0⟩ = .ok ((0.5 - vx) ^ 2) := by
  rw [objectiveTwist_ok]
  left
  refine ⟨torn_free vx h, ?_⟩
  simp [V3.sub, V3.dot]
  ring

theorem torn_search : tornRobot.controlTwistT (mapOf coarseMsg) midPose ⟨0, 0, 0⟩ ⟨1, 0, 0⟩ ⟨0.5, 0, 0⟩ =
    .ok (true, ⟨0.5, 0, 0⟩) := by
  have hl : sampleList (tornRobot.windowT ⟨0, 0, 0⟩ ⟨1, 0, 0⟩).1 (tornRobot.windowT ⟨0, 0, 0⟩ ⟨1, 0, 0⟩).2
      tornRobot.vx_samples.toNat tornRobot.vy_samples.toNat tornRobot.vth_samples.toNat =
      [⟨-0.1, 0, 0⟩, ⟨0.5, 0, 0⟩, ⟨1.1, 0, 0⟩] := by
    rw [show tornRobot.vx_samples.toNat = 3 from rfl, show tornRobot.vy_samples.toNat = 1 from rfl,
      show tornRobot.vth_samples.toNat = 1 from rfl]
    have d0 := delta_real 3 (-0.1) 1.1 1 (by decide)
    have h1 : DynamicWindow.delta 3 (-0.1 : ℝ) 1.1 = 0.6 := by
      have e : ((3 : UInt32).toNat : ℝ) = 3 := by rw [show (3 : UInt32).toNat = 3 from rfl]; norm_num
      rw [e] at d0
      norm_num at d0 ⊢
      linarith
    have hw : tornRobot.windowT ⟨0, 0, 0⟩ ⟨1, 0, 0⟩ = (⟨-0.1, 0, 0⟩, ⟨0.6, 0, 0⟩) := by
      have a1 : max ((0:ℝ) - 1 * 0.1) (-2) = -0.1 := by norm_num
      have a2 : min ((1:ℝ) + 1 * 0.1) 2 = 1.1 := by norm_num
      have a3 : max ((0:ℝ) - 0 * 0.1) (-2) = 0 := by norm_num
      have a4 : min ((0:ℝ) + 0 * 0.1) 2 = 0 := by norm_num
      simp only [DynamicWindow.windowT, DynamicWindow.velLower, DynamicWindow.velUpper, tornRobot,
        real_fmax, real_fmin, real_add, real_sub, real_mul, a1, a2, a3, a4, h1]
      simp [DynamicWindow.delta]
    rw [hw]
    simp only [sampleList, show List.range 3 = [0, 1, 2] from rfl, show List.range 1 = [0] from rfl,
      List.flatMap_cons, List.flatMap_nil, List.map_cons, List.map_nil, stride_real]
    norm_num
  have c0 := torn_cost (-0.1) (by rw [abs_le]; norm_num)
  have c1 := torn_cost 0.5 (by rw [abs_le]; norm_num)
  have c2 := torn_cost 1.1 (by rw [abs_le]; norm_num)
  have hm : (1 : ℝ) < Flt.maxFin := by
    rw [real_maxFin]
    exact lt_trans (lt_add_of_pos_left _ (by positivity)) maxFin_large
  rw [DynamicWindow.controlTwistT, searchWindowT_eq, hl]
  simp only [List.foldlM_cons, List.foldlM_nil, consider, c0, c1, c2, Res.ok_bind, real_lt, Res.pure_eq]
  have l0 : ((0.5:ℝ) - -0.1) ^ 2 < Flt.maxFin := lt_trans (by norm_num) hm
  have l1 : ((0.5:ℝ) - 0.5) ^ 2 < (0.5 - -0.1) ^ 2 := by norm_num
  have l2 : ¬ ((0.5:ℝ) - 1.1) ^ 2 < (0.5 - 0.5) ^ 2 := by norm_num
  simp only [l0, l1, l2, if_true, if_false]
  refine if_neg (not_close_maxFin ?_)
  exact le_trans (by norm_num : ((0.5:ℝ) - 0.5) ^ 2 ≤ 1) (one_le_pow₀ (by norm_num))

/-- C114 is false: standing still, then moving at one, both measured while the window is computed.
The window reaches from one to the other, and one half is chosen, which no velocity measured could
have become within an acceleration interval. -/
theorem C114_refuted : ¬ C114_statement := by
  intro h
  obtain ⟨v, hv, hr⟩ := h tornRobot (mapOf coarseMsg) midPose ⟨0.5, 0, 0⟩ ⟨0, 0, 0⟩ [⟨1, 0, 0⟩] { x2 := 1 } ⟨0.5, 0, 0⟩
    (by
      intro v hv
      simp only [List.mem_cons, List.not_mem_nil, or_false] at hv
      rcases hv with rfl | rfl <;>
        simp only [WindowNonempty, Recoverable, tornRobot] <;> norm_num)
    torn_search
  simp only [List.mem_cons, List.not_mem_nil, or_false] at hv
  have := hr.1
  rcases hv with rfl | rfl <;> simp only [tornRobot] at this <;> rw [abs_le] at this <;> norm_num at this

/-- the premises of `C114_window_partial` and a twist that respects the limits although the readings
differ -/
example : WindowNonempty tornRobot ⟨0, 0, 0⟩ ∧ WindowNonempty tornRobot ⟨1, 0, 0⟩ := by
  constructor <;> simp only [WindowNonempty, Recoverable, tornRobot] <;> norm_num

/-- the hypotheses of `C114_limits` and `C114_safe` are met, by executions that publish something -/
example : ∃ (p : Params ℝ) (n : Node ℝ) (o : List (Out ℝ)) (es : List (Event ℝ)) (os : List (List (Out ℝ)))
    (t : Expl ℝ), LimitsOk p ∧ RecoverableAll p ⟨0, 0, 0⟩ ∧ (∀ v ∈ odoms es, RecoverableAll p v) ∧
    Node.omni p = .ok (n, o) ∧ TornTrace n.expl es os t ∧ twists os.flatten ≠ [] := by
  obtain ⟨n, o0, es, os, s, t, t', p, q, u, v, hn, -, htr, hod, hconc, -⟩ := conc_run
  refine ⟨_, n, o0, _, _, t, ?_, ?_, ?_, hn, (ConcTrace.snoc htr hconc).torn, ?_⟩
  · simp only [LimitsOk, WithinParams, sideParams]
    norm_num
  · simp only [RecoverableAll, Recoverable, sideParams]
    norm_num
  · intro w hw
    have : odoms (es ++ asEvents ({ check := [.map coarseMsg] } : Slots ℝ).all ++ [.tick (some midTf) []]) =
        odoms es := by
      simp [Slots.all, asEvents, Callback.event, odoms, Event.odom?]
    rw [this, hod, List.mem_singleton] at hw
    subst hw
    simp only [RecoverableAll, Recoverable, sideParams]
    norm_num
  · simp [twists, Out.twist?]

end Ergodic
