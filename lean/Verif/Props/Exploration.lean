import Verif.Lemmas.Exploration

/-!
# Properties C67–C69 and C73: the exploration loop
-/

namespace Ergodic
variable {F : Type} [Flt F]

section history
variable {ec : ErgodicControl F} {collision : Collision F} {dwa : DynamicWindow F}
  {target : Target F} {frame : String} {val_dt val_horizon : F} {es : List (Event F)}
  {os : List (List (Out F))} {s t : Expl F} {e : Event F} {o : List (Out F)}

/-! ## C67 one twist per iteration once map and pose are known -/

omit [Flt F] in
theorem twists_append (a b : List (Out F)) : twists (a ++ b) = twists a ++ twists b := by
  simp [twists]

theorem iteration_twists {tf : Option (TransformMsg F)} {draws : List Nat}
    (h : s.iteration tf draws = .ok (t, o)) :
    twists o = if ((s.localize tf).map_received && (s.localize tf).pose_known) = true then [t.u]
      else [] := by
  rcases Expl.iteration_ok h with ⟨hc, rfl, rfl⟩ | ⟨hc, r, o1, o2, hr, ha, rfl⟩
  · rw [if_neg (by rw [hc]; simp)]; rfl
  · rw [if_pos hc]
    have h1 : twists o1 = [] := by
      rcases Expl.replan_ok hr with ⟨-, -, rfl⟩ | ⟨-, _, _, _, -, -, -, rfl⟩ <;> rfl
    have h2 : twists o2 = [] := by
      rcases Expl.avoid_ok ha with ⟨-, -, rfl⟩ | ⟨-, ⟨-, _, _, -, -, rfl⟩ |
        ⟨-, _, _, _, -, -, ⟨-, -, rfl⟩ | ⟨-, _, -, -, rfl⟩⟩⟩ <;> rfl
    rw [twists_append, twists_append, h1, h2]
    rfl

/-- C67: an event publishes exactly one twist when it is an iteration of the loop, a map has been
received before and a transform lookup has succeeded (in this or an earlier iteration);
otherwise none. -/
theorem C67_one_per_iteration
    (h : Trace (Expl.start ec collision dwa target frame val_dt val_horizon).1 es os s)
    (hs : s.step e = .ok (t, o)) :
    (twists o).length =
      if e.isTick = true ∧ maps es ≠ [] ∧ poses (es ++ [e]) ≠ [] then 1 else 0 := by
  have hi := h.inv
  cases e with
  | map m =>
    simp only [Expl.step, Res.ok.injEq, Prod.mk.injEq] at hs
    rw [← hs.2]; simp [Event.isTick, twists]
  | odom v =>
    simp only [Expl.step, Res.ok.injEq, Prod.mk.injEq] at hs
    rw [← hs.2]; simp [Event.isTick, twists]
  | tick tf draws =>
    rw [iteration_twists hs]
    have hl := hi.localize tf draws
    have hm : maps (es ++ [Event.tick tf draws]) = maps es := by simp [maps, Event.map?]
    rw [hl.map_received_eq, hl.pose_known_eq, hm]
    by_cases h1 : maps es = []
    · simp [h1, Event.isTick]
    · by_cases h2 : poses (es ++ [Event.tick tf draws]) = []
      · simp [h2, Event.isTick]
      · simp [h1, h2, Event.isTick]

/-- C67 over a whole history: as many twists as iterations that come after the first map message
and not before the first successful transform lookup; nothing is commanded at start-up. -/
theorem C67_count
    (h : Trace (Expl.start ec collision dwa target frame val_dt val_horizon).1 es os s) :
    (twists os.flatten).length = activeTicks es ∧
    twists (Expl.start ec collision dwa target frame val_dt val_horizon).2 = [] := by
  refine ⟨?_, rfl⟩
  induction h with
  | nil => rfl
  | @snoc u u' es os e o ht hs ih =>
    rw [List.flatten_append, twists_append, List.length_append, ih]
    have h1 := C67_one_per_iteration ht hs
    have h2 : activeTicks (es ++ [e]) = activeTicks es +
        if e.isTick = true ∧ maps es ≠ [] ∧ poses (es ++ [e]) ≠ [] then 1 else 0 := by
      unfold activeTicks
      dsimp only
      rw [List.length_append, List.length_singleton, List.range_succ, List.filter_append,
        List.length_append]
      congr 1
      · congr 1
        apply List.filter_congr
        intro k hk
        rw [List.mem_range] at hk
        rw [List.getElem?_append_left hk, List.take_append_of_le_length (by omega),
          List.take_append_of_le_length (by omega)]
      · rw [List.filter_singleton]
        have e1 : (es ++ [e])[es.length]? = some e := by simp
        have e2 : (es ++ [e]).take es.length = es := by simp
        have e3 : (es ++ [e]).take (es.length + 1) = es ++ [e] := by
          apply List.take_of_length_le; simp
        rw [e1, e2, e3]
        have q1 : (maps es).isEmpty = true ↔ maps es = [] := List.isEmpty_iff
        have q2 : (poses (es ++ [e])).isEmpty = true ↔ poses (es ++ [e]) = [] := List.isEmpty_iff
        simp only [ne_eq, ← q1, ← q2, Option.map_some, Option.getD_some]
        cases e.isTick <;> cases (maps es).isEmpty <;> cases (poses (es ++ [e])).isEmpty <;> simp
    rw [h2, ← h1]
    simp

/-- C67: before a map and a pose have been received nothing is commanded. -/
theorem C67_silent
    (h : Trace (Expl.start ec collision dwa target frame val_dt val_horizon).1 es os s)
    (hn : maps es = [] ∨ poses es = []) : twists os.flatten = [] := by
  induction h with
  | nil => rfl
  | @snoc u u' es os e o ht hs ih =>
    have h1 : maps es = [] ∨ poses (es ++ [e]) = [] := by
      rcases hn with hn | hn
      · left
        simp only [maps, List.filterMap_append, List.append_eq_nil_iff] at hn
        exact hn.1
      · exact Or.inr hn
    have h2 : maps es = [] ∨ poses es = [] := by
      rcases h1 with h | h
      · exact Or.inl h
      · right
        simp only [poses, List.filterMap_append, List.append_eq_nil_iff] at h
        exact h.1
    have h3 := C67_one_per_iteration ht hs
    rw [if_neg (by tauto), List.length_eq_zero_iff] at h3
    rw [List.flatten_append, twists_append, ih h2]
    simpa using h3

/-! ## C68 published twists are safe -/

/-- C68, in every arithmetic with a strict `<`: when an iteration publishes the twist `u`, and `m`
is the last map message and `p` the last pose, then `u` keeps the robot out of collision over the
validation horizon, or it is a sample of the dynamic window whose rollout over the window's
horizon is collision-free, or it is zero. -/
theorem C68_safe [StrictLt F]
    (h : Trace (Expl.start ec collision dwa target frame val_dt val_horizon).1 es os s)
    (hs : s.step e = .ok (t, o)) (u : V3 F) (hu : u ∈ twists o) (m : OccupancyGrid F) (p : V3 F)
    (hm : (maps es).getLast? = some m) (hp : (poses (es ++ [e])).getLast? = some p) :
    (∃ n, numSteps val_horizon val_dt = .ok n ∧
      ∀ k < n.toNat, collision.collisionCheck (mapOf m) (poseAfter u val_dt p (k + 1)) = .ok false) ∨
    (IsSample dwa (lastOdom es) u ∧ FreeRollout dwa (mapOf m) p u) ∨
    u = ⟨lit 0 0, lit 0 0, lit 0 0⟩ := by
  cases e with
  | map m =>
    simp only [Expl.step, Res.ok.injEq, Prod.mk.injEq] at hs
    rw [← hs.2] at hu; simp [twists] at hu
  | odom v =>
    simp only [Expl.step, Res.ok.injEq, Prod.mk.injEq] at hs
    rw [← hs.2] at hu; simp [twists] at hu
  | tick tf draws =>
    have htw := iteration_twists hs
    have hmaps : maps (es ++ [Event.tick tf draws]) = maps es := by simp [maps, Event.map?]
    have hodo : lastOdom (es ++ [Event.tick tf draws]) = lastOdom es := by
      simp [lastOdom, odoms, Event.odom?]
    rcases Expl.iteration_ok hs with ⟨hc, rfl, rfl⟩ | ⟨hc, r, o1, o2, hr, ha, rfl⟩
    · simp [twists] at hu
    · rw [htw, if_pos hc, List.mem_singleton] at hu
      subst hu
      have hi := ((h.inv.localize tf draws).advance).replan hr
      have e1 := hi.collision_eq
      have e2 := hi.dwa_eq
      have e3 := hi.val_dt_eq
      have e4 := hi.val_horizon_eq
      have e5 := hi.grid_eq m (by rw [hmaps]; exact hm)
      have e6 := hi.pose_eq p hp
      have e7 := hi.vb_eq
      rw [hodo] at e7
      rcases Expl.avoid_ok ha with ⟨hv, rfl, -⟩ | ⟨-, ⟨-, b, v, hv, rfl, -⟩ |
        ⟨-, ref, b, v, -, hv, ⟨-, rfl, -⟩ | ⟨-, q, -, rfl, -⟩⟩⟩
      · left
        rw [e1, e3, e4, e5, e6] at hv
        have hn : ∃ n, numSteps val_horizon val_dt = .ok n := by
          simp only [validateControl, Res.bind_eq_ok] at hv
          obtain ⟨n, hn, -⟩ := hv
          exact ⟨n, hn⟩
        obtain ⟨n, hn⟩ := hn
        exact ⟨n, hn, (C20_accepts_iff _ _ _ _ _ _ n hn).mp hv⟩
      · right
        rw [e2, e5, e6, e7] at hv
        rcases search_free (ref := []) (dt_ref := val_dt) (Or.inl hv) with hf | ⟨-, hz⟩
        · exact Or.inl hf
        · exact Or.inr hz
      all_goals
        right
        rw [e2, e5, e6, e7] at hv
        rcases search_free (vref := V3.zero) (Or.inr hv) with hf | ⟨-, hz⟩
        · exact Or.inl hf
        · exact Or.inr hz

/-! ## C69 how long a dynamic window twist is followed -/

/-- Full statement of C69: between two replans at most `dwa_steps - 1` twists are published (the
iteration that found the twist publishes the first of `dwa_steps`). -/
def C69_statement (F : Type) [Flt F] : Prop :=
  ∀ (ec : ErgodicControl F) (collision : Collision F) (dwa : DynamicWindow F) (target : Target F)
    (frame : String) (val_dt val_horizon : F) (es : List (Event F)) (a b c : List (List (Out F)))
    (s : Expl F),
    Trace (Expl.start ec collision dwa target frame val_dt val_horizon).1 es (a ++ b ++ c) s →
    (∀ o ∈ b, ¬ Replanned o) → (twists b.flatten).length ≤ dwa.steps.toNat - 1

theorem Trace.prefix {s : Expl F} : ∀ {es : List (Event F)} {os : List (List (Out F))} {t : Expl F},
    Trace s es os t → ∀ a b, os = a ++ b → ∃ es' t', Trace s es' a t' := by
  intro es os t h
  induction h with
  | nil =>
    intro a b hab
    have : a = [] := by
      have := congrArg List.length hab
      rw [List.length_append, List.length_nil] at this
      exact List.length_eq_zero_iff.mp (by omega)
    subst this
    exact ⟨[], s, .nil⟩
  | @snoc u u' es os e o ht hs ih =>
    intro a b hab
    rcases List.eq_nil_or_concat b with rfl | ⟨b', x, rfl⟩
    · rw [List.append_nil] at hab
      exact ⟨es ++ [e], u', hab ▸ .snoc ht hs⟩
    · rw [List.concat_eq_append, ← List.append_assoc] at hab
      obtain ⟨h1, -⟩ := List.append_inj' hab rfl
      exact ih a b' h1

/-- What an iteration does to the counter of a followed dynamic window twist. -/
theorem follow_count {tf : Option (TransformMsg F)} {draws : List Nat}
    (hs : s.iteration tf draws = .ok (t, o)) (hn : ¬ Replanned o) :
    (twists o = [] ∧ t.follow_dwa = s.follow_dwa ∧ t.i = s.i) ∨
    ((twists o).length = 1 ∧ s.follow_dwa = true ∧ s.i + 1 ≠ s.dwa.steps ∧
      (t.follow_dwa = true → t.i = s.i + 1)) := by
  have htw := iteration_twists hs
  obtain ⟨-, f2, -, -, -, -, -, -, -, f10, f11⟩ := s.localize_frame tf
  rcases Expl.iteration_ok hs with ⟨hc, rfl, rfl⟩ | ⟨hc, r, o1, o2, hr, ha, rfl⟩
  · exact Or.inl ⟨rfl, f10, f11⟩
  · right
    rw [if_pos hc] at htw
    refine ⟨by rw [htw]; rfl, ?_⟩
    rcases Expl.replan_ok hr with ⟨hf, rfl, rfl⟩ | ⟨-, _, _, p, -, -, -, rfl⟩
    · have hfol : s.follow_dwa = true ∧ s.i + 1 ≠ s.dwa.steps ∧
          ((s.localize tf).advanceDwa).i = s.i + 1 := by
        unfold Expl.advanceDwa at hf ⊢
        cases hsf : s.follow_dwa with
        | false =>
          rw [hsf] at f10
          rw [f10] at hf
          simp [f10] at hf
        | true =>
          rw [hsf] at f10
          rw [if_pos f10] at hf ⊢
          dsimp only at hf ⊢
          rw [f11, f2, decide_eq_true_eq] at hf
          rw [f11]
          exact ⟨rfl, hf, rfl⟩
      refine ⟨hfol.1, hfol.2.1, fun ht => ?_⟩
      rcases Expl.avoid_ok ha with ⟨-, rfl, -⟩ | ⟨-, ⟨-, b, v, -, rfl, -⟩ |
        ⟨hc', _, _, _, -, -, -⟩⟩
      · exact hfol.2.2
      · simp at ht
      · rw [hf] at hc'; simp at hc'
    · exact absurd ⟨p, by simp⟩ hn

/-- C69 when the window's horizon has at least one step.  Missing: `dwa_steps = 0`, see
`C69_zero_steps`. -/
theorem C69_at_most_partial {a b c : List (List (Out F))} (hpos : 0 < dwa.steps.toNat)
    (h : Trace (Expl.start ec collision dwa target frame val_dt val_horizon).1 es (a ++ b ++ c) s)
    (hb : ∀ o ∈ b, ¬ Replanned o) : (twists b.flatten).length ≤ dwa.steps.toNat - 1 := by
  -- trailing segments
  have key : ∀ {es : List (Event F)} {os : List (List (Out F))} {s : Expl F},
      Trace (Expl.start ec collision dwa target frame val_dt val_horizon).1 es os s →
      (s.follow_dwa = true → s.i.toNat < dwa.steps.toNat) ∧
      ∀ b, b <:+ os → (∀ o ∈ b, ¬ Replanned o) →
        (twists b.flatten).length ≤ dwa.steps.toNat - 1 ∧
        (s.follow_dwa = true → (twists b.flatten).length ≤ s.i.toNat) := by
    intro es os s h
    induction h with
    | nil =>
      refine ⟨by simp [Expl.start], fun b hb _ => ?_⟩
      rw [List.suffix_nil] at hb
      subst hb
      simp [twists]
    | @snoc u u' es os e o ht hs ih =>
      obtain ⟨ih1, ih2⟩ := ih
      have hd := ht.inv.dwa_eq
      -- the event keeps the counter in range, and a silent segment stays within it
      have hstep : (u'.follow_dwa = true → u'.i.toNat < dwa.steps.toNat) ∧
          (¬ Replanned o → (twists o = [] ∧ u'.follow_dwa = u.follow_dwa ∧ u'.i = u.i) ∨
            ((twists o).length = 1 ∧ u.follow_dwa = true ∧ u.i.toNat + 1 < dwa.steps.toNat ∧
              (u'.follow_dwa = true → u'.i.toNat = u.i.toNat + 1))) := by
        cases e with
        | map m =>
          simp only [Expl.step, Res.ok.injEq, Prod.mk.injEq] at hs
          obtain ⟨rfl, rfl⟩ := hs
          exact ⟨ih1, fun _ => Or.inl ⟨rfl, rfl, rfl⟩⟩
        | odom v =>
          simp only [Expl.step, Res.ok.injEq, Prod.mk.injEq] at hs
          obtain ⟨rfl, rfl⟩ := hs
          exact ⟨ih1, fun _ => Or.inl ⟨rfl, rfl, rfl⟩⟩
        | tick tf draws =>
          have hsucc : u.follow_dwa = true → u.i + 1 ≠ u.dwa.steps →
              (u.i + 1).toNat = u.i.toNat + 1 ∧ u.i.toNat + 1 < dwa.steps.toNat := by
            intro hf hne
            have hlt := ih1 hf
            have hb := dwa.steps.toNat_lt
            have e1 : (u.i + 1).toNat = u.i.toNat + 1 := by
              rw [UInt32.toNat_add]
              have : UInt32.toNat 1 = 1 := rfl
              omega
            refine ⟨e1, ?_⟩
            rcases Nat.lt_or_ge (u.i.toNat + 1) dwa.steps.toNat with h | h
            · exact h
            · exfalso
              apply hne
              rw [hd]
              apply UInt32.toNat_inj.mp
              omega
          refine ⟨fun hf' => ?_, fun hn => ?_⟩
          · by_cases hn : Replanned o
            · -- after a replan the counter is zero
              rcases Expl.iteration_ok hs with ⟨-, -, rfl⟩ | ⟨-, r, o1, o2, hr, ha, rfl⟩
              · obtain ⟨p, hp⟩ := hn; simp at hp
              · rcases Expl.avoid_ok ha with ⟨-, rfl, rfl⟩ | ⟨-, ⟨-, b, v, -, rfl, -⟩ |
                  ⟨-, _, _, _, -, -, ⟨-, rfl, -⟩ | ⟨-, _, -, rfl, -⟩⟩⟩
                · rcases Expl.replan_ok hr with ⟨-, -, rfl⟩ | ⟨hff, _, _, p, -, -, rfl, -⟩
                  · obtain ⟨p, hp⟩ := hn; simp at hp
                  · exact absurd (hff.symm.trans hf') (by simp)
                · simp at hf'
                · simp at hf'
                · exact hpos
            · rcases follow_count hs hn with ⟨-, e1, e2⟩ | ⟨-, e1, e2, e3⟩
              · rw [e2]; exact ih1 (by rw [← e1]; exact hf')
              · rw [e3 hf', (hsucc e1 e2).1]; exact (hsucc e1 e2).2
          · rcases follow_count hs hn with ⟨e0, e1, e2⟩ | ⟨e0, e1, e2, e3⟩
            · exact Or.inl ⟨e0, e1, e2⟩
            · refine Or.inr ⟨e0, e1, (hsucc e1 e2).2, fun hf => ?_⟩
              rw [e3 hf, (hsucc e1 e2).1]
      refine ⟨hstep.1, fun b hb hno => ?_⟩
      rcases List.eq_nil_or_concat b with rfl | ⟨b', x, rfl⟩
      · simp [twists]
      · rw [List.concat_eq_append] at hb hno ⊢
        obtain ⟨pre, hpre⟩ := hb
        rw [← List.append_assoc] at hpre
        obtain ⟨h1, h2⟩ := List.append_inj' hpre rfl
        simp only [List.cons.injEq, and_true] at h2
        subst h2
        obtain ⟨k1, k2⟩ := ih2 b' ⟨pre, h1⟩ (fun o ho => hno o (by simp [ho]))
        have hlen : (twists (b' ++ [x]).flatten).length =
            (twists b'.flatten).length + (twists x).length := by
          rw [List.flatten_append, twists_append, List.length_append]; simp
        rw [hlen]
        rcases hstep.2 (hno x (by simp)) with ⟨e0, e1, e2⟩ | ⟨e0, e1, e2, e3⟩
        · rw [e0, e1, e2]; exact ⟨k1, k2⟩
        · have := k2 e1
          refine ⟨by omega, fun hf => ?_⟩
          rw [e3 hf]; omega
  obtain ⟨es', t', ht⟩ := h.prefix (a ++ b) c rfl
  exact ((key ht).2 b ⟨a, rfl⟩ hb).1

end history

/-- C69 with `dwa_steps = 0`: the counter does not meet zero again before it wraps, so a robot at
rest with a twist that stays valid publishes it up to `2^32 - 1` times without replanning. -/
theorem C69_zero_steps (s : Expl F) (hz : s.dwa.steps = 0) (hf : s.follow_dwa = true)
    (hm : s.map_received = true) (hp : s.pose_known = true)
    (hv : validateControl s.collision s.grid s.pose s.u s.val_dt s.val_horizon = .ok true)
    (n : Nat) (hn : s.i.toNat + n < 2 ^ 32) :
    ∃ t, Trace s (List.replicate n (.tick none [])) (List.replicate n [.twist s.u]) t ∧
      t = { s with i := UInt32.ofNat (s.i.toNat + n) } := by
  induction n with
  | zero =>
    refine ⟨s, .nil, ?_⟩
    rw [Nat.add_zero, UInt32.ofNat_toNat]
  | succ n ih =>
    obtain ⟨t, ht, rfl⟩ := ih (by omega)
    refine ⟨_, ?_, rfl⟩
    rw [List.replicate_succ', List.replicate_succ']
    refine .snoc ht ?_
    generalize hk : s.i.toNat + n = k at *
    have hkn : s.i.toNat + (n + 1) = k + 1 := by omega
    rw [hkn] at hn ⊢
    have hne : (UInt32.ofNat k + 1 ≠ s.dwa.steps) := by
      rw [hz]
      intro hc
      have := congrArg UInt32.toNat hc
      rw [UInt32.toNat_add, UInt32.toNat_ofNat_of_lt' (by unfold UInt32.size; omega),
        show UInt32.toNat 1 = 1 from rfl, show UInt32.toNat 0 = 0 from rfl] at this
      omega
    have hadv : ({ s with i := UInt32.ofNat k } : Expl F).advanceDwa =
        { s with i := UInt32.ofNat (k + 1) } := by
      unfold Expl.advanceDwa
      rw [if_pos hf]
      dsimp only
      rw [decide_eq_true hne]
      have : UInt32.ofNat k + 1 = UInt32.ofNat (k + 1) := by
        rw [UInt32.ofNat_add]; rfl
      rw [this, ← hf]
    show Expl.iteration _ none [] = _
    unfold Expl.iteration
    rw [show ({ s with i := UInt32.ofNat k } : Expl F).localize none = { s with i := UInt32.ofNat k }
      from rfl, if_pos (by dsimp only; rw [hm, hp]; rfl), hadv]
    unfold Expl.replan
    dsimp only
    rw [if_pos hf]
    simp only [Res.ok_bind]
    unfold Expl.avoid
    simp only [hv, Res.ok_bind, if_true]
    simp

/-! ## C73 every localised pose is remembered -/

/-- C73: whatever the controller did, the memory holds the poses of the successful transform
lookups, oldest first, up to the capacity of the buffer. -/
theorem C73_remembered {model : TwistModel F} {collision : Collision F}
    {dt horizon resolution weight : F} {num_basis buffer_size batch_size : Nat} {Rinv : M3 F}
    {umin umax : V3 F} {ec : ErgodicControl F} {dwa : DynamicWindow F} {target : Target F}
    {frame : String} {val_dt val_horizon : F} {es : List (Event F)} {os : List (List (Out F))}
    {s : Expl F}
    (hec : ErgodicControl.new model collision dt horizon resolution weight num_basis buffer_size
      batch_size Rinv umin umax = .ok ec)
    (h : Trace (Expl.start ec collision dwa target frame val_dt val_horizon).1 es os s) :
    s.ec.buffer.memory.length = min (poses es).length buffer_size ∧
    ∀ k, (hk : k < (poses es).length) → k < buffer_size →
      ReplayBuffer.at' s.ec.buffer.memory k = .ok (poses es)[k] := by
  have hb : ec.buffer = { buffer_size, batch_size } := by
    simp only [ErgodicControl.new, Res.bind_eq_ok] at hec
    obtain ⟨steps, -, hec⟩ := hec
    split at hec
    · simp at hec
    · simp only [Res.ok.injEq] at hec
      rw [← hec]
  have hbuf : s.ec.buffer = bufferAfter buffer_size batch_size (poses es) := by
    rw [h.inv.buffer_eq, hb]; rfl
  obtain ⟨h1, h2, -⟩ := C22_first_states_kept buffer_size batch_size (poses es)
  rw [hbuf]
  exact ⟨h1, h2⟩

end Ergodic
