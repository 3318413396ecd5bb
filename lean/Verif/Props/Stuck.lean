import Verif.Spec.Stuck
import Verif.Props.NotFinite
import Verif.Props.ShippedLoop

/-!
# Property C119: a robot that is too close to an obstacle can drive away from it
-/

namespace Ergodic
variable {F : Type} [Flt F] {M : Machine}

/-! ## one iteration -/

theorem validate_first {c : Collision F} {g : GridMap F} {x u : V3 F} {dt horizon : F} {n : UInt32}
    (hn : numSteps horizon dt = .ok n) (h0 : 0 < n.toNat)
    (h : validateControl c g x u dt horizon = .ok true) :
    c.collisionCheck g (poseAfter u dt x 1) = .ok false := by
  unfold validateControl at h
  rw [hn, Res.ok_bind, validateLoop_true] at h
  exact h 0 h0

/-- When the planned twist and every sampled twist collide in their first step, and no recovery is under
way, the iteration publishes the zero twist and no recovery is under way afterwards. -/
theorem stuck_iteration [StrictLt F] {s t : Expl F} {tf : Option (TransformMsg F)} {draws : List Nat}
    {o : List (Out F)} (h : s.iteration tf draws = .ok (t, o)) (hf : s.follow_dwa = false) {n : UInt32}
    (hn : numSteps s.val_horizon s.val_dt = .ok n) (h0 : 0 < n.toNat) (hd : 0 < s.dwa.steps.toNat)
    (P : V3 F → Prop)
    (hu : ∀ ec u b, (s.localize tf).ec.control s.grid (s.localize tf).pose draws = .ok (ec, u) →
      validateControl s.collision s.grid (s.localize tf).pose u s.val_dt s.val_horizon = .ok b → P u)
    (hs : ∀ u, IsSample s.dwa s.vb u → P u)
    (hit : s.map_received = true → (s.localize tf).pose_known = true → ∀ u, P u →
      s.collision.collisionCheck s.grid (poseAfter u s.val_dt (s.localize tf).pose 1) = .ok true ∧
      s.dwa.collision.collisionCheck s.grid (poseAfter u s.dwa.dt (s.localize tf).pose 1) = .ok true) :
    t.follow_dwa = false ∧ ∀ u ∈ twists o, u = V3.zero := by
  obtain ⟨f1, f2, f3, f4, f5, f6, f7, f8, f9, f10, f11⟩ := s.localize_frame tf
  rcases Expl.iteration_ok h with ⟨-, rfl, rfl⟩ | ⟨hc, r, o1, o2, hr, ha, rfl⟩
  · exact ⟨f10.trans hf, by simp [twists]⟩
  · rw [Bool.and_eq_true, f3] at hc
    have hit := hit hc.1 hc.2
    have hadv : (s.localize tf).advanceDwa = s.localize tf := by
      unfold Expl.advanceDwa
      rw [if_neg (by rw [f10, hf]; simp)]
    rw [hadv] at hr
    rcases Expl.replan_ok hr with ⟨h1, -⟩ | ⟨-, ec, u, p, hec, -, rfl, rfl⟩
    · rw [f10, hf] at h1; cases h1
    · have hval : ∀ b, validateControl s.collision s.grid (s.localize tf).pose u s.val_dt s.val_horizon = .ok b →
          P u := fun b hb => hu ec u b (by rw [← f5]; exact hec) hb
      rcases Expl.avoid_ok ha with ⟨hv, -, -⟩ | ⟨hv, h2⟩
      · exfalso
        dsimp only at hv
        rw [f1, f5, f7, f8] at hv
        have := validate_first hn h0 hv
        rw [(hit u (hval _ hv)).1] at this
        simp at this
      · rcases h2 with ⟨h2, -⟩ | ⟨-, ref, b, u', -, hc', h3⟩
        · dsimp only at h2; rw [f10, hf] at h2; cases h2
        · dsimp only at hc'
          rw [f2, f4, f5] at hc'
          have hz : b = false ∧ u' = V3.zero := by
            rcases search_free (vref := u) (.inr hc') with ⟨hsm, hfree⟩ | hz
            · exfalso
              have := hfree 0 hd
              rw [(hit u' (hs u' hsm)).2] at this
              simp at this
            · exact hz
          obtain ⟨rfl, rfl⟩ := hz
          rcases h3 with ⟨-, rfl, rfl⟩ | ⟨hb, -⟩
          · refine ⟨rfl, ?_⟩
            intro v hv
            have hv : V3.zero = v := by simpa [twists, Out.twist?] using hv
            exact hv.symm
          · cases hb

/-! ## a history -/

/-- C119 (for every arithmetic with a strict `<`): as long as the twist the controller plans and every
twist the window samples collide in their first step, the node publishes zero twists only; it never
gets away, however long it tries. -/
theorem C119_stuck [StrictLt F] {model : TwistModel F} {c : Collision F} {dt horizon resolution weight : F}
    {num_basis buffer_size batch_size : Nat} {Rinv : M3 F} {umin umax : V3 F} {ec : ErgodicControl F}
    (hec : ErgodicControl.new model c dt horizon resolution weight num_basis buffer_size batch_size Rinv
      umin umax = .ok ec)
    (dwa : DynamicWindow F) (target : Target F) (frame : String) {vdt vhor : F} {n : UInt32}
    (hn : numSteps vhor vdt = .ok n) (h0 : 0 < n.toNat) (hd : 0 < dwa.steps.toNat) (P : V3 F → Prop)
    (hu : ∀ g x u b, validateControl c g x u vdt vhor = .ok b → NotOutside umin u umax → P u)
    {es : List (Event F)} {os : List (List (Out F))} {s : Expl F}
    (hs : ∀ vb, vb = V3.zero ∨ vb ∈ odoms es → ∀ u, IsSample dwa vb u → P u)
    (hclose : AlwaysTooClose c dwa.collision vdt dwa.dt P es)
    (h : Trace (Expl.start ec c dwa target frame vdt vhor).1 es os s) :
    s.follow_dwa = false ∧ ∀ u ∈ twists os.flatten, u = V3.zero := by
  induction h with
  | nil => exact ⟨rfl, by simp [twists]⟩
  | @snoc s t es os e o htr hst ih =>
    obtain ⟨hf, hz⟩ := ih (fun vb hvb => hs vb (by
        rcases hvb with h | h
        · exact .inl h
        · right
          simp only [odoms, List.filterMap_append, List.mem_append] at h ⊢
          exact .inl h))
      (fun pre tf draws post he => hclose pre tf draws (post ++ [e]) (by rw [he]; simp))
    have hinv := htr.inv
    suffices t.follow_dwa = false ∧ ∀ u ∈ twists o, u = V3.zero by
      refine ⟨this.1, ?_⟩
      intro u hu
      rw [List.flatten_append, twists_append, List.mem_append] at hu
      rcases hu with hu | hu
      · exact hz u hu
      · exact this.2 u (by simpa using hu)
    cases e with
    | map m =>
      simp only [Expl.step, Res.ok.injEq, Prod.mk.injEq] at hst
      obtain ⟨rfl, rfl⟩ := hst
      exact ⟨hf, by simp [twists]⟩
    | odom v =>
      simp only [Expl.step, Res.ok.injEq, Prod.mk.injEq] at hst
      obtain ⟨rfl, rfl⟩ := hst
      exact ⟨hf, by simp [twists]⟩
    | tick tf draws =>
      have hloc := hinv.localize tf draws
      refine stuck_iteration hst hf (n := n) (by rw [hinv.val_dt_eq, hinv.val_horizon_eq]; exact hn) h0
        (by rw [hinv.dwa_eq]; exact hd) P ?_ ?_ ?_
      · intro ec' u b hc hv
        rw [hinv.collision_eq, hinv.val_dt_eq, hinv.val_horizon_eq] at hv
        exact hu _ _ _ _ hv (C59_not_outside ⟨ec, hec, hloc.ec_reach⟩ hc).1
      · intro u hsm
        rw [hinv.dwa_eq, hinv.vb_eq] at hsm
        refine hs (lastOdom es) ?_ u hsm
        unfold lastOdom
        cases hl : (odoms es).getLast? with
        | none => exact .inl rfl
        | some v =>
          right
          have := List.mem_of_getLast? hl
          simp only [odoms, List.filterMap_append, List.mem_append]
          exact .inl this
      · intro hm hp u hP
        obtain ⟨m, hm⟩ : ∃ m, (maps es).getLast? = some m := by
          rw [hinv.map_received_eq] at hm
          cases hl : (maps es).getLast? with
          | none => rw [List.getLast?_eq_none_iff] at hl; rw [hl] at hm; simp at hm
          | some m => exact ⟨m, rfl⟩
        obtain ⟨x, hx⟩ : ∃ x, (poses (es ++ [.tick tf draws])).getLast? = some x := by
          rw [hloc.pose_known_eq] at hp
          cases hl : (poses (es ++ [.tick tf draws])).getLast? with
          | none => rw [List.getLast?_eq_none_iff] at hl; rw [hl] at hp; simp at hp
          | some x => exact ⟨x, rfl⟩
        rw [hinv.grid_eq m hm, hloc.pose_eq x hx, hinv.collision_eq, hinv.dwa_eq, hinv.val_dt_eq]
        exact hclose es tf draws [] (by simp) m x hm hx u hP

/-! ## the shipped configurations -/

/-- One step of a tenth of a second. -/
theorem shipped_step {v w ρ : ℝ} (hv0 : 1 ≤ v) (hv1 : v ≤ 2) (hw : w ≤ 3) (hρ : v / 10 + 1 / 10 ^ 5 ≤ ρ) :
    Lookahead (M.rnd (1 / 10)) v w (10 ^ 6) ρ 1 := by
  have ⟨t0, t1⟩ := tenth_at (M := M)
  norm_num at t0 t1
  refine ⟨by norm_num; linarith, by norm_num; linarith, by norm_num; nlinarith, by norm_num; nlinarith, ?_⟩
  have h1 : v * M.rnd (1 / 10) ≤ v / 10 + 1 / 10 ^ 9 := by norm_num; nlinarith
  norm_num at h1 hρ ⊢
  linarith

/-- A twist within the limits that the validation could simulate. -/
theorem validated_within {c : Collision (RDbl M)} {g : GridMap (RDbl M)} {x u : V3 (RDbl M)} {dt horizon : RDbl M}
    {n : UInt32} (hn : numSteps horizon dt = .ok n) (h0 : 0 < n.toNat) {b : Bool}
    (h : validateControl c g x u dt horizon = .ok b) {l0 l1 l2 k0 k1 k2 : ℝ}
    (hu : NotOutside ⟨.fin l0, .fin l1, .fin l2⟩ u ⟨.fin k0, .fin k1, .fin k2⟩) :
    ∃ a0 a1 a2 : ℝ, u = ⟨.fin a0, .fin a1, .fin a2⟩ ∧ (l0 ≤ a0 ∧ a0 ≤ k0) ∧ (l1 ≤ a1 ∧ a1 ≤ k1) ∧
      (l2 ≤ a2 ∧ a2 ≤ k2) := by
  have hnum : V3Num x ∧ V3Num u := by
    by_contra hc
    rw [C97_validate c g x u hc hn h0] at h
    cases h
  obtain ⟨u0, u1, u2⟩ := u
  obtain ⟨-, ⟨a0, e0⟩, ⟨a1, e1⟩, a2, e2⟩ := hnum
  dsimp only at e0 e1 e2
  subst e0 e1 e2
  refine ⟨a0, a1, a2, rfl, ?_⟩
  simpa only [NotOutside, RDbl.lt_fin_false] using hu

/-- Being too close all around is being too close one step of a slow twist away. -/
theorem close_step (hM : AccurateTrig M) {c : Collision (RDbl M)} {v w ρ D : ℝ} (hv0 : 1 ≤ v) (hv1 : v ≤ 2)
    (hw : w ≤ 3) (hρ : v / 10 + 1 / 10 ^ 5 ≤ ρ) {es : List (Event (RDbl M))} (hf : Fed D es)
    (h : CloseAround c ρ es) :
    AlwaysTooClose c c (.fin (M.rnd (1 / 10))) (.fin (M.rnd (1 / 10))) (Slow v w) es := by
  intro pre tf draws post he m x hm hx u hu
  obtain ⟨-, -, -, hr⟩ := hf pre tf draws post he
  obtain ⟨px, py, θ, ax, ay, r, rfl, -, hθ, hpx, hpy, -⟩ := hr m x hm hx
  obtain ⟨x', y', θ', e, hx', hy'⟩ := lookahead_reach hM (shipped_step hv0 hv1 hw hρ) (by norm_num) hu hθ hpx hpy 1
    le_rfl
  rw [e]
  have := h pre tf draws post he m px py _ hm hx x' y' (.fin θ') hx' hy'
  exact ⟨this, this⟩

theorem two_steps : ∃ n : UInt32, numSteps (.fin 2 : RDbl M) (.fin (M.rnd (1 / 10))) = .ok n ∧ 0 < n.toNat := by
  have ht := abs_le.mp (tenth_close (M := M))
  norm_num at ht
  have tp : 0 < M.rnd (1 / 10) := by norm_num; linarith
  obtain ⟨k, h3, h5, -⟩ := numSteps_fin (M := M) (h := 2) (d := M.rnd (1 / 10)) (by norm_num) tp
    (by norm_num; linarith)
  refine ⟨k, h3, ?_⟩
  rw [h5]
  refine Nat.floor_pos.mpr ?_
  have hq : (1 : ℝ) ≤ 2 / M.rnd (1 / 10) := by
    rw [le_div_iff₀ tp]
    norm_num; linarith
  have := M.int_le_rnd (n := 1) (by norm_num) (x := 2 / M.rnd (1 / 10)) (by exact_mod_cast hq)
  exact_mod_cast this

theorem omni_slow {a b r : ℝ} (ha : -1 ≤ a) (ha' : a ≤ 1 + 1 / 10 ^ 6) (hb : -1 ≤ b) (hb' : b ≤ 1 + 1 / 10 ^ 6)
    (hr : -2 ≤ r) (hr' : r ≤ 2 + 1 / 10 ^ 6) : Slow 1.4143 2.001 (⟨.fin a, .fin b, .fin r⟩ : V3 (RDbl M)) := by
  norm_num at ha' hb' hr'
  refine ⟨a, b, r, rfl, ?_, abs_le.mpr ⟨by norm_num; linarith, by norm_num; linarith⟩⟩
  unfold speed
  rw [Real.sqrt_le_left (by norm_num)]
  have ha : a ^ 2 ≤ 1.0001 := by norm_num; nlinarith
  have hb : b ^ 2 ≤ 1.0001 := by norm_num; nlinarith
  norm_num at ha hb ⊢
  linarith

theorem cart_slow {a b r : ℝ} (ha : -1 ≤ a) (ha' : a ≤ 1 + 1 / 10 ^ 6) (hb : 0 ≤ b) (hb' : b ≤ 11 / 1000)
    (hr : -2 ≤ r) (hr' : r ≤ 2 + 1 / 10 ^ 6) : Slow 1.0001 2.001 (⟨.fin a, .fin b, .fin r⟩ : V3 (RDbl M)) := by
  norm_num at ha' hb' hr'
  refine ⟨a, b, r, rfl, ?_, abs_le.mpr ⟨by norm_num; linarith, by norm_num; linarith⟩⟩
  unfold speed
  rw [Real.sqrt_le_left (by norm_num)]
  have ha : a ^ 2 ≤ 1.00001 := by norm_num; nlinarith
  have hb : b ^ 2 ≤ 0.00013 := by norm_num; nlinarith
  norm_num at ha hb ⊢
  linarith

/-- C119 for the shipped configuration of the omnidirectional robot: whatever happens, if at every
iteration the detector reports a collision everywhere within 14.15 cm of the robot, every iteration
succeeds and publishes the zero twist.  The odometry may be any that `C105_omni` admits. -/
theorem C119_omni (hM : AccurateTrig M) (hpow : PowPositive M) (hE : Accurate M) {n : Node (RDbl M)}
    {o : List (Out (RDbl M))} (hn : omniYaml.omni = .ok (n, o)) {es : List (Event (RDbl M))}
    (ho : ∀ u ∈ odoms es, MeasuredTwist (7 / 5) (7 / 5) (21 / 10) u) (hx : ∀ x ∈ poses es, V3Num x)
    (hf : Fed 2.83 es) (hc : CloseAround (shippedDetector M) 0.1415 es) :
    ∃ n' out, n.run es = .ok (n', out) ∧ ∀ u ∈ twists out, u = V3.zero := by
  obtain ⟨n0, o0, hn0, hup, hrun⟩ := C105_omni hM hpow hE
  rw [hn, Res.ok.injEq, Prod.mk.injEq] at hn0
  obtain ⟨rfl, rfl⟩ := hn0
  obtain ⟨n', out, hr, -⟩ := hrun es ho hx hf
  refine ⟨n', out, hr, ?_⟩
  obtain ⟨-, p, hp, h⟩ := ((C88_launch _ _).2).mp hn
  rw [omniYaml_params, Res.ok.injEq] at hp
  subst hp
  obtain ⟨w0, w1, w2, gs, collision, ec, dwa, ⟨-, -, -, -, hcol⟩, hec, hdwa, hst, -⟩ := omni_parts h
  obtain rfl : collision = shippedDetector M := (Res.ok.inj (shipped_collision.symm.trans hcol)).symm
  obtain ⟨os, htr, rfl⟩ := (run_iff_trace _ _ _ _).mp (node_run_up n n' hup es out hr).1
  have hst : n.expl = _ := congrArg Prod.fst hst
  rw [hst] at htr
  simp only [DynamicWindow.new, Res.bind_eq_ok, Res.ok.injEq] at hdwa
  obtain ⟨steps, hsteps, hd⟩ := hdwa
  obtain ⟨nv, hnv, hnv0⟩ := val_steps (M := M)
  obtain ⟨nd, hnd, hnd0⟩ := two_steps (M := M)
  obtain rfl : nd = steps := Res.ok.inj (hnd.symm.trans hsteps)
  refine (C119_stuck hec dwa ⟨gs⟩ "map" (n := nv) hnv hnv0 (by rw [← hd]; exact hnd0) (Slow 1.4143 2.001) ?_ ?_
    ?_ htr).2
  · intro g x u b hval hu
    obtain ⟨a, b, r, rfl, ⟨a0, a1⟩, ⟨b0, b1⟩, r0, r1⟩ := validated_within hnv hnv0 hval hu
    exact omni_slow a0 (by linarith) b0 (by linarith) r0 (by linarith)
  · intro vb hvb u hu
    obtain ⟨a, b, r, rfl, ha, hb, hr⟩ : MeasuredTwist (7 / 5) (7 / 5) (21 / 10) vb := by
      rcases hvb with rfl | hvb
      · exact ⟨0, 0, 0, by simp [V3.zero], by norm_num, by norm_num, by norm_num⟩
      · exact ho vb hvb
    have hwn : WindowNumbers dwa (⟨.fin a, .fin b, .fin r⟩ : V3 (RDbl M))
        ⟨a, M.rnd (5 / 2), M.rnd (1 / 5), -1, 1⟩ ⟨b, M.rnd (5 / 2), M.rnd (1 / 5), -1, 1⟩
        ⟨r, 1, M.rnd (1 / 5), -2, 2⟩ := by
      subst hd
      exact ⟨rfl, rfl, rfl, rfl, rfl, rfl, rfl, rfl, rfl, rfl, rfl, rfl, rfl, rfl, rfl⟩
    obtain ⟨⟨s0, e0, a0, a1, -⟩, ⟨s1, e1, b0, b1, -⟩, s2, e2, r0, r1, -⟩ :=
      C85_within_partial dwa _ u _ _ _ 4 hwn (shipped_axes ha hr).1 (shipped_axes hb hr).1 (shipped_axes ha hr).2 hu
    obtain ⟨u0, u1, u2⟩ := u
    dsimp only at e0 e1 e2 a0 a1 b0 b1 r0 r1
    subst e0 e1 e2 hd
    have k3 : ((DynamicWindow.atLeastOne 3).toNat : ℝ) = 3 := by
      rw [show (DynamicWindow.atLeastOne 3).toNat = 3 from rfl]; norm_num
    have k8 : ((DynamicWindow.atLeastOne 8).toNat : ℝ) = 8 := by
      rw [show (DynamicWindow.atLeastOne 8).toNat = 8 from rfl]; norm_num
    have k5 : ((DynamicWindow.atLeastOne 5).toNat : ℝ) = 5 := by
      rw [show (DynamicWindow.atLeastOne 5).toNat = 5 from rfl]; norm_num
    have a1 : s0 ≤ 1 + ((DynamicWindow.atLeastOne 3).toNat : ℝ) * 4 / 2 ^ 46 := a1
    have b1 : s1 ≤ 1 + ((DynamicWindow.atLeastOne 8).toNat : ℝ) * 4 / 2 ^ 46 := b1
    have r1 : s2 ≤ 2 + ((DynamicWindow.atLeastOne 5).toNat : ℝ) * 4 / 2 ^ 46 := r1
    rw [k3] at a1
    rw [k8] at b1
    rw [k5] at r1
    refine omni_slow a0 ?_ b0 ?_ r0 ?_
    · norm_num at a1 ⊢; linarith
    · norm_num at b1 ⊢; linarith
    · norm_num at r1 ⊢; linarith
  · subst hd
    exact close_step hM (by norm_num) (by norm_num) (by norm_num) (by norm_num) hf hc

/-- C119 for the shipped configuration of the cart: 10.01 cm. -/
theorem C119_cart (hM : AccurateTrig M) (hpow : PowPositive M) (hE : Accurate M) {n : Node (RDbl M)}
    {o : List (Out (RDbl M))} (hn : cartYaml.cart = .ok (n, o)) {es : List (Event (RDbl M))}
    (ho : ∀ u ∈ odoms es, MeasuredTwist (7 / 5) (1 / 100) (21 / 10) u) (hx : ∀ x ∈ poses es, V3Num x)
    (hf : Fed 2.01 es) (hc : CloseAround (shippedDetector M) 0.1001 es) :
    ∃ n' out, n.run es = .ok (n', out) ∧ ∀ u ∈ twists out, u = V3.zero := by
  obtain ⟨n0, o0, hn0, hup, hrun⟩ := C105_cart hM hpow hE
  rw [hn, Res.ok.injEq, Prod.mk.injEq] at hn0
  obtain ⟨rfl, rfl⟩ := hn0
  obtain ⟨n', out, hr, -⟩ := hrun es ho hx hf
  refine ⟨n', out, hr, ?_⟩
  obtain ⟨-, p, hp, h⟩ := ((C88_launch _ _).1).mp hn
  rw [cartYaml_params, Res.ok.injEq] at hp
  subst hp
  obtain ⟨w0, w1, gs, collision, ec, dwa, ⟨-, -, -, hcol⟩, hec, hdwa, hst, -⟩ := cart_parts h
  obtain rfl : collision = shippedDetector M := (Res.ok.inj (shipped_collision.symm.trans hcol)).symm
  obtain ⟨os, htr, rfl⟩ := (run_iff_trace _ _ _ _).mp (node_run_up n n' hup es out hr).1
  have hst : n.expl = _ := congrArg Prod.fst hst
  rw [hst] at htr
  simp only [DynamicWindow.new, Res.bind_eq_ok, Res.ok.injEq] at hdwa
  obtain ⟨steps, hsteps, hd⟩ := hdwa
  obtain ⟨nv, hnv, hnv0⟩ := val_steps (M := M)
  obtain ⟨nd, hnd, hnd0⟩ := two_steps (M := M)
  obtain rfl : nd = steps := Res.ok.inj (hnd.symm.trans hsteps)
  have hl0 : (lit 0 0 : RDbl M) = .fin 0 := by simp
  refine (C119_stuck hec dwa ⟨gs⟩ "map" (n := nv) hnv hnv0 (by rw [← hd]; exact hnd0) (Slow 1.0001 2.001) ?_ ?_
    ?_ htr).2
  · intro g x u b hval hu
    rw [hl0] at hu
    obtain ⟨a, b, r, rfl, ⟨a0, a1⟩, ⟨b0, b1⟩, r0, r1⟩ := validated_within hnv hnv0 hval hu
    exact cart_slow a0 (by linarith) b0 (by linarith) r0 (by linarith)
  · intro vb hvb u hu
    obtain ⟨a, b, r, rfl, ha, hb, hr⟩ : MeasuredTwist (7 / 5) (1 / 100) (21 / 10) vb := by
      rcases hvb with rfl | hvb
      · exact ⟨0, 0, 0, by simp [V3.zero], by norm_num, by norm_num, by norm_num⟩
      · exact ho vb hvb
    subst hd
    obtain ⟨i, hi, j, hj, k, hk, rfl⟩ := hu
    have hj0 : j = 0 := by
      have : (DynamicWindow.atLeastOne 0).toNat = 1 := by decide
      simp only [this] at hj; omega
    subst hj0
    obtain ⟨s0, e0, a0, a1, -⟩ := axis_admits (shipped_axes (M := M) ha hr).1 hi
    obtain ⟨s2, e2, r0, r1, -⟩ := axis_admits (shipped_axes (M := M) ha hr).2 hk
    have e1 : fmax ((.fin b : RDbl M) -. lit 0 0 *. .fin (M.rnd (1 / 5))) (lit 0 0) = .fin (max (M.rnd b) 0) := by
      rw [hl0, RDbl.mul_fin, zero_mul, M.rnd_zero, RDbl.sub_fin, sub_zero, fmax_rd]
    have k3 : ((DynamicWindow.atLeastOne 3).toNat : ℝ) = 3 := by
      rw [show (DynamicWindow.atLeastOne 3).toNat = 3 from rfl]; norm_num
    have k5 : ((DynamicWindow.atLeastOne 5).toNat : ℝ) = 5 := by
      rw [show (DynamicWindow.atLeastOne 5).toNat = 5 from rfl]; norm_num
    have a1 : s0 ≤ 1 + ((DynamicWindow.atLeastOne 3).toNat : ℝ) * 4 / 2 ^ 46 := a1
    have r1 : s2 ≤ 2 + ((DynamicWindow.atLeastOne 5).toNat : ℝ) * 4 / 2 ^ 46 := r1
    rw [k3] at a1
    rw [k5] at r1
    have ⟨_, q1⟩ := rnd_at (M := M) (x := b) le_rfl (by linarith)
    have ⟨_, hb1⟩ := abs_le.mp hb
    have := cart_slow (M := M) (b := max (M.rnd b) 0) a0 (by norm_num at a1 ⊢; linarith) (le_max_right _ _)
      (max_le (by norm_num at q1 ⊢; linarith) (by norm_num)) r0 (by norm_num at r1 ⊢; linarith)
    refine Eq.mpr (congrArg _ ?_) this
    rw [V3.mk.injEq]
    exact ⟨e0, e1, e2⟩
  · subst hd
    exact close_step hM (by norm_num) (by norm_num) (by norm_num) (by norm_num) hf hc

/-! ## the wall -/

/-- Rows of 64 cells, the last 24 of each occupied. -/
def wallData (n : Nat) : List Int8 := (List.range n).map fun k => if k % 64 < 40 then 0 else 100

theorem wallData_length (n : Nat) : (wallData n).length = n := by
  rw [wallData, List.length_map, List.length_range]

theorem wallData_at {n a b : Nat} (h : a * 64 + b < n) (hb : b < 64) :
    (wallData n)[a * 64 + b]? = some (if b < 40 then 0 else 100) := by
  rw [wallData, List.getElem?_map, List.getElem?_range h, Option.map_some,
    show (a * 64 + b) % 64 = b by omega]

attribute [irreducible] wallData

/-- A map of 64 × 64 cells of an eighth of a metre; the columns from 40 on, at x = 5 m, are a wall. -/
noncomputable def wallMsg : OccupancyGrid (RDbl ieee) :=
  { width := 64, height := 64, resolution := .fin (1 / 8), originX := .fin 0, originY := .fin 0
    data := wallData 4096 }

/-- the map and `k` iterations with the robot at `(x, y)` -/
noncomputable def waits (m : OccupancyGrid (RDbl ieee)) (x y : ℝ) (k : Nat) : List (Event (RDbl ieee)) :=
  .map m :: List.replicate k (.tick (some (placeTf x y)) (List.replicate 100 0))

theorem wall_occupied (i j : Int) : Occupied (shippedDetector ieee).occupied_threshold (mapOf wallMsg) i j ↔
    (0 ≤ i ∧ i < 64) ∧ 40 ≤ j ∧ j < 64 := by
  have q := rnd_at (M := ieee) (x := 4 / 5) le_rfl (by norm_num [abs_of_pos])
  norm_num at q
  have h100 : (lit 100 0 : RDbl ieee) = .fin 100 := by rw [lit_int 100 (by norm_num) (by norm_num)]; norm_num
  have h0 : (Flt.ofInt (0 : Int8).toInt : RDbl ieee) = .fin 0 := by
    show (.fin (ieee.rnd ((0 : Int) : ℝ)) : RDbl ieee) = _
    rw [Int.cast_zero, ieee.rnd_zero]
  have h1 : (Flt.ofInt (100 : Int8).toInt : RDbl ieee) = .fin 100 := by
    show (.fin (ieee.rnd ((100 : Int) : ℝ)) : RDbl ieee) = _
    rw [ieee.int 100 (by norm_num)]; norm_num
  have look : ∀ a b : Nat, a < 64 → b < 64 → cellAt (mapOf wallMsg) a b = some (if b < 40 then 0 else 100) := by
    intro a b ha hb
    exact wallData_at (n := 4096) (by omega) hb
  constructor
  · rintro ⟨i0, i1, j0, j1, v, hv, hl⟩
    have i1 : i < 64 := i1
    have j1 : j < 64 := j1
    rw [look i.toNat j.toNat (by omega) (by omega), Option.some.injEq] at hv
    refine ⟨⟨i0, i1⟩, ?_, j1⟩
    by_contra hj
    rw [if_pos (by omega)] at hv
    subst hv
    rw [h100, h0, RDbl.div_fin _ (by norm_num : (100 : ℝ) ≠ 0), zero_div, ieee.rnd_zero] at hl
    have hl : Flt.lt (.fin 0 : RDbl ieee) (.fin (ieee.rnd (4 / 5))) = false := hl
    rw [RDbl.lt_fin_false] at hl
    norm_num at hl
    linarith
  · rintro ⟨⟨i0, i1⟩, j0, j1⟩
    refine ⟨i0, i1, by omega, j1, 100, ?_, ?_⟩
    · rw [look i.toNat j.toNat (by omega) (by omega), if_neg (by omega)]
    · rw [h100, h1, RDbl.div_fin _ (by norm_num : (100 : ℝ) ≠ 0), div_self (by norm_num), ieee.rnd_one]
      show Flt.lt (.fin 1 : RDbl ieee) (.fin (ieee.rnd (4 / 5))) = false
      rw [RDbl.lt_fin_false]
      norm_num
      linarith

theorem wall_sized : MapSized wallMsg 0 0 (1 / 8) := by
  have h64 : ((64 : UInt32).toNat : ℝ) = 64 := by rw [show (64 : UInt32).toNat = 64 from rfl]; norm_num
  refine ⟨rfl, rfl, rfl, by norm_num, by decide, by decide, ?_, ?_, by norm_num, by norm_num, ?_⟩
  · show ((64 : UInt32).toNat : ℝ) * (1 / 8) ≤ 1000
    rw [h64]; norm_num
  · show ((64 : UInt32).toNat : ℝ) * (1 / 8) ≤ 1000
    rw [h64]; norm_num
  · exact (wallData_length 4096).trans (by decide)

theorem wall_near : MapNearTarget wallMsg := by
  have h64 : ((64 : UInt32).toNat : ℝ) = 64 := by rw [show (64 : UInt32).toNat = 64 from rfl]; norm_num
  refine ⟨0, 0, 1 / 8, 5 / 2, wall_sized, .inl rfl, by norm_num, ?_, by norm_num, ?_⟩
  · show (5 / 2 : ℝ) ≤ 0 + ((64 : UInt32).toNat : ℝ) * (1 / 8) + 25
    rw [h64]; norm_num
  · show (5 / 2 : ℝ) ≤ 0 + ((64 : UInt32).toNat : ℝ) * (1 / 8) + 25
    rw [h64]; norm_num

theorem wall_radii : 88 / 100 ≤ ieee.rnd (ieee.rnd (7 / 10) + ieee.rnd (1 / 5)) ∧
    ieee.rnd (ieee.rnd (7 / 10) + ieee.rnd (1 / 5)) ≤ 1 ∧ 0 ≤ ieee.rnd (7 / 10) ∧ ieee.rnd (7 / 10) ≤ 3 / 4 ∧
    0 ≤ ieee.rnd (1 / 5) ∧ ieee.rnd (1 / 5) ≤ 1 / 4 := by
  have ⟨p0, p1⟩ := rnd_at (M := ieee) (x := 7 / 10) le_rfl (by norm_num [abs_of_pos])
  have ⟨q0, q1⟩ := rnd_at (M := ieee) (x := 1 / 5) le_rfl (by norm_num [abs_of_pos])
  norm_num at p0 p1 q0 q1
  have ⟨r0, r1⟩ := rnd_at (M := ieee) (x := ieee.rnd (7 / 10) + ieee.rnd (1 / 5)) (B := 1) le_rfl
    (abs_le.mpr ⟨by norm_num; linarith, by norm_num; linarith⟩)
  norm_num at r0 r1 ⊢
  refine ⟨?_, ?_, ?_, ?_, ?_, ?_⟩ <;> linarith

theorem wall_sensible : SensibleRd (shippedDetector ieee) (mapOf wallMsg) 0 0 (1 / 8) (ieee.rnd (7 / 10)) 1
    (ieee.rnd (1 / 5)) := by
  obtain ⟨-, -, h1, h2, h3, h4⟩ := wall_radii
  refine ⟨⟨by decide, ?_⟩, ⟨rfl, rfl, rfl, by norm_num⟩, minNormal_le_small.trans (by norm_num), by decide,
    by decide, by decide, by decide, rfl, rfl, rfl, h1, h3, by linarith, by norm_num, by norm_num at h2 h4 ⊢; linarith⟩
  exact (wallData_length 4096).trans (by decide)

theorem wall_in {x y : ℝ} (h : 0 ≤ x ∧ x ≤ 8 ∧ 0 ≤ y ∧ y ≤ 8) : InMap (mapOf wallMsg) 0 0 (1 / 8) x y := by
  have h64 : ((64 : UInt32).toNat : ℝ) = 64 := by rw [show (64 : UInt32).toNat = 64 from rfl]; norm_num
  refine ⟨h.1, ?_, h.2.2.1, ?_⟩
  · show x ≤ 0 + ((64 : UInt32).toNat : ℝ) * (1 / 8)
    rw [h64]; linarith [h.2.1]
  · show y ≤ 0 + ((64 : UInt32).toNat : ℝ) * (1 / 8)
    rw [h64]; linarith [h.2.2.2]

/-- In front of the wall there is a collision. -/
theorem wall_hit {x y : ℝ} (hx0 : 4.13 ≤ x) (hx1 : x ≤ 4.45) (hy0 : 1 ≤ y) (hy1 : y ≤ 7) (th : RDbl ieee) :
    (shippedDetector ieee).collisionCheck (mapOf wallMsg) ⟨.fin x, .fin y, th⟩ = .ok true := by
  norm_num at hx0 hx1
  obtain ⟨i, j, hcell, ⟨a1, a2, a3, a4⟩, cfg, hcfg, hr, ex, ey, eb, ec, em⟩ := config_rd wall_sensible
    (wall_in (x := x) (y := y) ⟨by linarith, by linarith, by linarith, by linarith⟩) th
  obtain ⟨w0, w1, w2, w3, -, -⟩ := wall_radii
  norm_num at a1 a2 a3 a4
  have j0 : 33 ≤ j.toNat := by
    have : (32 : ℝ) < j.toNat := by linarith
    exact_mod_cast this
  have j1 : j.toNat ≤ 35 := by
    have : (j.toNat : ℝ) < 36 := by linarith
    have : j.toNat < 36 := by exact_mod_cast this
    omega
  have i1 : i.toNat < 64 := hcell.1
  refine C26_axis_partial _ _ wall_sensible.wf _ cfg hcfg hr 7 (by norm_num) ?_ ?_ ?_ (.inl ?_)
  · rw [eb]
    exact cells_le_rd (by norm_num) (by norm_num) (by norm_num at w3 ⊢; linarith)
  · rw [em]
    exact le_cells_rd (by norm_num) (by norm_num) (by norm_num)
  · rw [ec]
    refine le_cells_rd (by norm_num) (by norm_num) ?_
    norm_num at w0 ⊢
    linarith
  · rw [wall_occupied, ex, ey]
    omega

/-- Further back there is none. -/
theorem wall_free {x y : ℝ} (hx0 : 1 ≤ x) (hx1 : x ≤ 3.5) (hy0 : 1 ≤ y) (hy1 : y ≤ 7) (th : RDbl ieee) :
    (shippedDetector ieee).collisionCheck (mapOf wallMsg) ⟨.fin x, .fin y, th⟩ = .ok false := by
  norm_num at hx0 hx1
  have hin := wall_in (x := x) (y := y) ⟨by linarith, by linarith, by linarith, by linarith⟩
  obtain ⟨i, j, hcell, ⟨a1, a2, a3, a4⟩, cfg, hcfg, hr, ex, ey, eb, ec, em⟩ := config_rd wall_sensible hin th
  obtain ⟨w0, w1, w2, w3, -, -⟩ := wall_radii
  obtain ⟨v, hv⟩ := (C87_no_failure wall_sensible hin th).1
  cases v with
  | false => exact hv
  | true =>
    exfalso
    obtain ⟨k, l, ho, hd⟩ := C25_sound _ _ wall_sensible.wf _ cfg hcfg hr hv
    rw [wall_occupied] at ho
    norm_num at a1 a2
    have j1 : j.toNat ≤ 28 := by
      have : (j.toNat : ℝ) < 29 := by linarith
      have : j.toNat < 29 := by exact_mod_cast this
      omega
    have hc : cfg.r_col ≤ 8 := by
      rw [ec]
      exact cells_le_rd (by norm_num) (by norm_num) (by norm_num at w1 ⊢; linarith)
    have hc0 : 0 ≤ cfg.r_col := by
      rw [ec]
      exact le_cells_rd (by norm_num) (by norm_num) (by norm_num at w0 ⊢; linarith)
    have h1 : 12 ≤ l - cfg.cx := by rw [ex]; omega
    nlinarith [mul_self_nonneg (k - cfg.cy)]

theorem wall_clear : ClearOf (shippedDetector ieee) (mapOf wallMsg) 0 0 (1 / 8) (137 / 32) 4 (71 / 100) := by
  intro i j ho px py h1 h2 h3 h4
  rw [wall_occupied] at ho
  have hj : (40 : ℝ) ≤ j := by exact_mod_cast ho.2.1
  have : 5 ≤ px := by linarith
  nlinarith [sq_nonneg (py - 4)]

theorem wall_back : WayBack (shippedDetector ieee) (mapOf wallMsg) 0 0 (1 / 8) (137 / 32) 4 := by
  refine ⟨1, one_pos, wall_free (by norm_num) (by norm_num) (by norm_num) (by norm_num) _, ?_⟩
  intro i j ho s t hs hst ht
  rw [wall_occupied] at ho
  have hj : (40 : ℝ) ≤ j := by exact_mod_cast ho.2.1
  nlinarith

theorem waits_split {m : OccupancyGrid (RDbl ieee)} {x y : ℝ} {k : Nat} {pre post : List (Event (RDbl ieee))}
    {tf : Option (TransformMsg (RDbl ieee))} {draws : List Nat} (he : waits m x y k = pre ++ .tick tf draws :: post) :
    ∃ l, pre = waits m x y l ∧ tf = some (placeTf x y) ∧ draws = List.replicate 100 0 := by
  rcases pre with _ | ⟨e, pre⟩
  · simp [waits] at he
  · simp only [waits, List.cons_append, List.cons.injEq] at he
    obtain ⟨rfl, he⟩ := he
    have hm : ∀ e ∈ pre ++ Event.tick tf draws :: post, e = .tick (some (placeTf x y)) (List.replicate 100 0) := by
      rw [← he]; intro e h; exact List.eq_of_mem_replicate h
    have h1 := hm (.tick tf draws) (by simp)
    simp only [Event.tick.injEq] at h1
    refine ⟨pre.length, ?_, h1.1, h1.2⟩
    show _ = Event.map m :: _
    rw [← List.eq_replicate_of_mem fun e h => hm e (by simp [h])]

theorem waits_maps (m : OccupancyGrid (RDbl ieee)) (x y : ℝ) (k : Nat) : maps (waits m x y k) = [m] := by
  have : maps (List.replicate k (Event.tick (some (placeTf x y)) (List.replicate 100 0))) = [] := by
    induction k with
    | zero => rfl
    | succ k ih => exact ih
  show m :: maps _ = _
  rw [this]

theorem waits_odoms (m : OccupancyGrid (RDbl ieee)) (x y : ℝ) (k : Nat) : odoms (waits m x y k) = [] := by
  have : odoms (List.replicate k (Event.tick (some (placeTf x y)) (List.replicate 100 0))) = [] := by
    induction k with
    | zero => rfl
    | succ k ih => exact ih
  exact this

theorem waits_poses (m : OccupancyGrid (RDbl ieee)) (x y : ℝ) (k : Nat) :
    poses (waits m x y k) = List.replicate k ⟨.fin x, .fin y, .fin 0⟩ := by
  have : poses (List.replicate k (Event.tick (some (placeTf x y)) (List.replicate 100 0))) =
      List.replicate k ⟨.fin x, .fin y, .fin 0⟩ := by
    induction k with
    | zero => rfl
    | succ k ih =>
      rw [List.replicate_succ (n := k), List.replicate_succ (n := k), ← ih]
      simp only [poses, List.filterMap_cons, place_pose]
  exact this

theorem waits_last (m : OccupancyGrid (RDbl ieee)) (x y : ℝ) (k : Nat) :
    poses (waits m x y k ++ [.tick (some (placeTf x y)) (List.replicate 100 0)]) =
      List.replicate k ⟨.fin x, .fin y, .fin 0⟩ ++ [⟨.fin x, .fin y, .fin 0⟩] := by
  rw [poses_append, waits_poses]
  congr 1
  simp only [poses, List.filterMap_cons, place_pose, List.filterMap_nil]

theorem waits_fed {m : OccupancyGrid (RDbl ieee)} {x y D : ℝ} (hm : MapNearTarget m)
    (hr : RoomRd (mapOf m) ⟨.fin x, .fin y, .fin 0⟩ (10 ^ 6) D) (k : Nat) : Fed D (waits m x y k) := by
  intro pre tf draws post he
  obtain ⟨l, rfl, rfl, rfl⟩ := waits_split he
  rw [waits_maps, waits_last]
  refine ⟨List.length_replicate, ?_, ?_, ?_⟩
  · intro r h
    rw [List.eq_of_mem_replicate h]
    simp
  · intro m' h
    rw [← Option.some.inj h]; exact hm
  · intro m' p h hp
    rw [← Option.some.inj h]
    simp only [List.getLast?_concat, Option.some.injEq] at hp
    rw [← hp]; exact hr

theorem wall_room {D : ℝ} (h1 : D ≤ 3) :
    RoomRd (mapOf wallMsg) ⟨.fin (137 / 32), .fin 4, .fin 0⟩ (10 ^ 6) D := by
  refine ⟨137 / 32, 4, 0, 0, 0, 1 / 8, rfl, ⟨rfl, rfl, rfl, by norm_num⟩, by norm_num, ?_, ?_, ?_⟩
  · norm_num [abs_of_pos]
  · norm_num [abs_of_pos]
  · norm_num
    refine ⟨?_, ?_, ?_, ?_⟩ <;> linarith

theorem wall_close {ρ : ℝ} (h1 : ρ ≤ 0.15) (k : Nat) :
    CloseAround (shippedDetector ieee) ρ (waits wallMsg (137 / 32) 4 k) := by
  intro pre tf draws post he m x y th hm hx x' y' th' hx' hy'
  obtain ⟨l, rfl, rfl, rfl⟩ := waits_split he
  rw [waits_maps] at hm
  rw [waits_last] at hx
  rw [← Option.some.inj hm]
  simp only [List.getLast?_concat, Option.some.injEq, V3.mk.injEq, RDbl.fin_inj] at hx
  obtain ⟨rfl, rfl, -⟩ := hx
  norm_num at h1
  have a := abs_le.mp hx'
  have b := abs_le.mp hy'
  refine wall_hit ?_ ?_ ?_ ?_ th'
  · norm_num; linarith
  · norm_num; linarith
  · linarith
  · linarith

/-! ## The property is false -/

/-- C119, the full property, for the shipped configurations on binary64 numbers: a robot that is at rest,
localised, on a map near the targets, with room behind it, not touching an obstacle (its radius is 70 cm)
and with a way straight back on which it comes closer to no obstacle, is told to move after some number
of iterations. -/
def C119_statement : Prop :=
  ∀ (n : Node (RDbl ieee)) (o : List (Out (RDbl ieee))), cartYaml.cart = .ok (n, o) ∨ omniYaml.omni = .ok (n, o) →
    ∀ (m : OccupancyGrid (RDbl ieee)) (ax ay r x y : ℝ), MapNearTarget m → Placed (mapOf m) ax ay r →
      RoomRd (mapOf m) ⟨.fin x, .fin y, .fin 0⟩ (10 ^ 6) 2.83 →
      ClearOf (shippedDetector ieee) (mapOf m) ax ay r x y (71 / 100) →
      WayBack (shippedDetector ieee) (mapOf m) ax ay r x y →
      ∃ k n' out, n.run (waits m x y k) = .ok (n', out) ∧ ∃ u ∈ twists out, u ≠ V3.zero

/-- C119 fails for both nodes: 72 cm from a wall both publish the zero twist for ever, with a free place a
metre behind them. -/
theorem C119_refuted_wall (n : Node (RDbl ieee)) (o : List (Out (RDbl ieee)))
    (hn : cartYaml.cart = .ok (n, o) ∨ omniYaml.omni = .ok (n, o)) (k : Nat) :
    ∃ n' out, n.run (waits wallMsg (137 / 32) 4 k) = .ok (n', out) ∧ ∀ u ∈ twists out, u = V3.zero := by
  have hx : ∀ x ∈ poses (waits wallMsg (137 / 32) 4 k), V3Num x := by
    rw [waits_poses]
    intro x hx
    rw [List.eq_of_mem_replicate hx]
    exact ⟨⟨_, rfl⟩, ⟨_, rfl⟩, _, rfl⟩
  rcases hn with hn | hn
  · exact C119_cart ieee_trig ieee_pow ieee_accurate hn (by rw [waits_odoms]; simp) hx
      (waits_fed wall_near (wall_room (by norm_num)) k) (wall_close (by norm_num) k)
  · exact C119_omni ieee_trig ieee_pow ieee_accurate hn (by rw [waits_odoms]; simp) hx
      (waits_fed wall_near (wall_room (by norm_num)) k) (wall_close (by norm_num) k)

theorem C119_refuted : ¬ C119_statement := by
  intro h
  obtain ⟨n, o, hn, -⟩ := C105_omni ieee_trig ieee_pow ieee_accurate
  obtain ⟨k, n', out, hr, u, hu, hne⟩ := h n o (.inr hn) wallMsg 0 0 (1 / 8) (137 / 32) 4 wall_near
    ⟨rfl, rfl, rfl, by norm_num⟩ (wall_room (by norm_num)) wall_clear wall_back
  obtain ⟨n1, out1, hr1, hz⟩ := C119_refuted_wall n o (.inr hn) k
  rw [hr1, Res.ok.injEq, Prod.mk.injEq] at hr
  obtain ⟨rfl, rfl⟩ := hr
  exact hne (hz u hu)

/-- and it does publish: after the first iteration there is such a twist -/
example (n : Node (RDbl ieee)) (o : List (Out (RDbl ieee))) (hn : omniYaml.omni = .ok (n, o)) :
    ∃ n' out, n.run (waits wallMsg (137 / 32) 4 1) = .ok (n', out) ∧ twists out = [V3.zero] := by
  obtain ⟨n', out, hr, hz⟩ := C119_refuted_wall n o (.inr hn) 1
  refine ⟨n', out, hr, ?_⟩
  obtain ⟨n0, o0, hn0, hup, -⟩ := C105_omni ieee_trig ieee_pow ieee_accurate
  rw [hn, Res.ok.injEq, Prod.mk.injEq] at hn0
  obtain ⟨rfl, rfl⟩ := hn0
  obtain ⟨x0, oa, out, hm, hr1, rfl⟩ := run_cons hup hr
  obtain ⟨t1, o1, out, ht1, hr2, rfl⟩ := run_cons (n := { n with expl := x0 }) hup hr1
  have hx0 : n.expl.mapCallback wallMsg = x0 ∧ [] = oa := by
    have : (Res.ok (n.expl.mapCallback wallMsg, []) : Res (Expl (RDbl ieee) × List (Out (RDbl ieee)))) =
      .ok (x0, oa) := hm
    simpa only [Res.ok.injEq, Prod.mk.injEq] using this
  have htw : twists o1 = [t1.u] := by
    have := iteration_twists ht1
    rw [if_pos] at this
    · exact this
    · rw [← hx0.1]; rfl
  have ho : out = [] := by
    simp only [List.replicate, Node.run, Res.ok.injEq, Prod.mk.injEq] at hr2
    exact hr2.2.symm
  have h1 := hz t1.u (by simp [twists_append, htw])
  rw [← hx0.2, ho, List.nil_append, List.append_nil, htw, h1]

/-! ## What holds -/

/-- a cost is small if the poses compared are within `B` of each other -/
theorem trackCost_bound {n : Nat} {dt tf B : ℝ} {ref : List (V3 ℝ)} {x0 u : V3 ℝ}
    (h : ∀ k < n, planar (ref.getD (refIndex ref.length (k * dt) tf) V3.zero) (poseAfter u dt x0 (k + 1)) ≤ B) :
    trackCost n dt tf ref x0 u ≤ n * (B + 4) := by
  unfold trackCost
  have hs := Finset.sum_le_sum (s := Finset.range n) (g := fun _ => B + 4) (f := fun k : ℕ =>
    poseGap (ref.getD (refIndex ref.length (k * dt) tf) V3.zero) (poseAfter u dt x0 (k + 1))) (by
      intro k hk
      have h1 := h k (Finset.mem_range.mp hk)
      have h2 := Real.Angle.abs_toReal_le_pi (((ref.getD (refIndex ref.length (k * dt) tf) V3.zero).c2 -
        (poseAfter u dt x0 (k + 1)).c2 : ℝ) : Real.Angle)
      have h3 := Real.pi_le_four
      unfold planar at h1
      unfold poseGap
      linarith)
  rw [Finset.sum_const, Finset.card_range, nsmul_eq_mul] at hs
  exact hs

/-- C119 (missing: a robot already so close that the first step of every rollout collides, see
`C119_refuted`): in exact arithmetic, if some sampled twist has a rollout without collision, the iteration
publishes the planned twist, after validation, or a sampled twist whose rollout is free and which is then
followed; it does not give up.  No step may be longer than `2^900` metres. -/
theorem C119_way_out_partial {model : TwistModel ℝ} (hm : model = omniModel ∨ model = cartModel)
    {collision : Collision ℝ} {dt horizon resolution weight : ℝ} {num_basis buffer_size batch_size : Nat}
    {Rinv : M3 ℝ} {umin umax : V3 ℝ} {s t : Expl ℝ} {tf : Option (TransformMsg ℝ)} {draws : List Nat}
    {o : List (Out ℝ)} {vmax : ℝ}
    (hb : EcBuilt model collision dt horizon resolution weight num_basis buffer_size batch_size Rinv umin umax s.ec)
    (hdt : 0 < dt) (hsteps : s.ec.steps ≠ 0)
    (hlim : ∀ v : V3 ℝ, umin.c0 ≤ v.c0 → v.c0 ≤ umax.c0 → umin.c1 ≤ v.c1 → v.c1 ≤ umax.c1 → speed v ≤ vmax)
    (hlong : vmax * dt ≤ 2 ^ 900)
    (h : s.iteration tf draws = .ok (t, o)) (hf : s.follow_dwa = false) (hddt : 0 < s.dwa.dt)
    (hact : s.map_received = true ∧ (s.localize tf).pose_known = true)
    (hfree : ∃ v, IsSample s.dwa s.vb v ∧ FreeRollout s.dwa s.grid (s.localize tf).pose v ∧
      speed v * s.dwa.dt ≤ 2 ^ 900) :
    twists o = [t.u] ∧
    ((t.follow_dwa = false ∧
        validateControl s.collision s.grid (s.localize tf).pose t.u s.val_dt s.val_horizon = .ok true) ∨
      (t.follow_dwa = true ∧ IsSample s.dwa s.vb t.u ∧ FreeRollout s.dwa s.grid (s.localize tf).pose t.u)) := by
  obtain ⟨f1, f2, f3, f4, f5, f6, f7, f8, f9, f10, f11⟩ := s.localize_frame tf
  have hb1 : EcBuilt model collision dt horizon resolution weight num_basis buffer_size batch_size Rinv umin umax
      (s.localize tf).ec := by
    cases tf with
    | none => exact hb
    | some m => obtain ⟨e0, a, b⟩ := hb; exact ⟨e0, a, .addStateMemory _ b⟩
  refine ⟨?_, ?_⟩
  · have := iteration_twists h
    rwa [if_pos (by rw [f3, hact.1, hact.2]; rfl)] at this
  rcases Expl.iteration_ok h with ⟨hc, -, -⟩ | ⟨-, r, o1, o2, hr, ha, rfl⟩
  · rw [f3, hact.1, hact.2] at hc; cases hc
  · have hadv : (s.localize tf).advanceDwa = s.localize tf := by
      unfold Expl.advanceDwa
      rw [if_neg (by rw [f10, hf]; simp)]
    rw [hadv] at hr
    rcases Expl.replan_ok hr with ⟨h1, -⟩ | ⟨-, ec, u, p, hec, -, rfl, rfl⟩
    · rw [f10, hf] at h1; cases h1
    · rw [f5] at hec
      rcases Expl.avoid_ok ha with ⟨hv, rfl, -⟩ | ⟨-, h2⟩
      · dsimp only at hv ⊢
        rw [f1, f5, f7, f8] at hv
        exact .inl ⟨f10.trans hf, hv⟩
      · rcases h2 with ⟨h2, -⟩ | ⟨-, ref, b, u', hot, hc', h3⟩
        · dsimp only at h2; rw [f10, hf] at h2; cases h2
        · dsimp only at hc' hot
          rw [f2, f4, f5] at hc'
          have hb : b = true := by
            have hi := (hb1.control hec).inv
            have hst : ec.steps = s.ec.steps := by
              have h1 := hi.steps_eq
              have h2 := hb.inv.steps_eq
              rw [h1, Res.ok.injEq] at h2
              exact h2
            have hlen : ref.length = ec.steps.toNat := by
              have := (C60_replay hb1 hec).1 ref hot
              rw [← hi.ut_length]
              exact this.length
            have hne : 1 ≤ ref.length := by
              rw [hlen, hst]
              have : s.ec.steps.toNat ≠ 0 := fun hz => hsteps (UInt32.toNat_inj.mp (by rw [hz]; rfl))
              omega
            have hN : ref.length ≤ 2 ^ 32 := by rw [hlen]; exact ec.steps.toNat_lt.le
            have htf : (0:ℝ) < Flt.ofInt ref.length *. ec.timeStep := by
              rw [show ec.timeStep = dt from hi.dt_eq, real_mul, real_ofInt]
              have : (0:ℝ) < ((ref.length : ℤ) : ℝ) := by exact_mod_cast hne
              positivity
            obtain ⟨v, hv, hvf, hvl⟩ := hfree
            obtain ⟨m, hm1, hm2, -⟩ := searchWindow_spec _ _ _ _ _ hc'
            obtain ⟨c, hcv, hcm⟩ := hm1 v hv
            rw [real_lt_false] at hcm
            have hcb : c ≤ 2 ^ 1000 := by
              rcases (objectiveTraj_ok _ hddt.le _ _ _ _ hne hN htf c).mp hcv with ⟨-, hidx, rfl⟩ | ⟨-, k, hk, hit, -⟩
              · have hn32 : ((s.dwa.steps.toNat : ℕ) : ℝ) ≤ 2 ^ 32 := by exact_mod_cast s.dwa.steps.toNat_lt.le
                refine (trackCost_bound (B := 2 ^ 932 + 2 ^ 932) ?_).trans ?_
                · intro k hk
                  have hr := hidx k hk
                  generalize refIndex ref.length (↑k * s.dwa.dt) (Flt.ofInt ref.length *. ec.timeStep) = j at hr ⊢
                  have hj : ref[j]? = some (ref.getD j V3.zero) := by
                    rw [List.getD_eq_getElem?_getD, List.getElem?_eq_getElem hr]; rfl
                  have p1 := C76_plan hm hb1 hec hlim ref hot j _ hj
                  have p2 := C76_poseAfter v s.dwa.dt hddt.ne' (s.localize tf).pose (k + 1)
                  rw [abs_of_pos hdt] at p1
                  rw [abs_of_pos hddt] at p2
                  have q1 : vmax * (((j:ℝ) + 1) * dt) ≤ 2 ^ 932 := by
                    have hj' : (j:ℝ) + 1 ≤ 2 ^ 32 := by exact_mod_cast (by omega : j + 1 ≤ 2 ^ 32)
                    calc vmax * (((j:ℝ) + 1) * dt) = ((j:ℝ) + 1) * (vmax * dt) := by ring
                      _ ≤ ((j:ℝ) + 1) * 2 ^ 900 := mul_le_mul_of_nonneg_left hlong (by positivity)
                      _ ≤ 2 ^ 32 * 2 ^ 900 := mul_le_mul_of_nonneg_right hj' (by positivity)
                      _ = 2 ^ 932 := by rw [← pow_add]
                  have q2 : speed v * (((k + 1 : ℕ) : ℝ) * s.dwa.dt) ≤ 2 ^ 932 := by
                    have hk' : ((k + 1 : ℕ) : ℝ) ≤ 2 ^ 32 := by
                      exact_mod_cast (by have := s.dwa.steps.toNat_lt; omega : k + 1 ≤ 2 ^ 32)
                    calc speed v * (((k + 1 : ℕ) : ℝ) * s.dwa.dt) = ((k + 1 : ℕ) : ℝ) * (speed v * s.dwa.dt) := by ring
                      _ ≤ ((k + 1 : ℕ) : ℝ) * 2 ^ 900 := mul_le_mul_of_nonneg_left hvl (by positivity)
                      _ ≤ 2 ^ 32 * 2 ^ 900 := mul_le_mul_of_nonneg_right hk' (by positivity)
                      _ = 2 ^ 932 := by rw [← pow_add]
                  have p3 := planar_triangle (ref.getD j V3.zero) (s.localize tf).pose
                    (poseAfter v s.dwa.dt (s.localize tf).pose (k + 1))
                  rw [show planar (s.localize tf).pose (poseAfter v s.dwa.dt (s.localize tf).pose (k + 1)) =
                    planar (poseAfter v s.dwa.dt (s.localize tf).pose (k + 1)) (s.localize tf).pose by
                      unfold planar; congr 1; ring] at p3
                  exact p3.trans (add_le_add (p1.trans q1) (p2.trans q2))
                · have e1 : (2:ℝ) ^ 932 = 2 ^ 132 * 2 ^ 800 := by rw [← pow_add]
                  have e2 : (2:ℝ) ^ 1000 = 2 ^ 200 * 2 ^ 800 := by rw [← pow_add]
                  have e3 : (1:ℝ) ≤ 2 ^ 800 := one_le_pow₀ (by norm_num)
                  rw [e1, e2]
                  generalize (2:ℝ) ^ 800 = y at e3 ⊢
                  calc (s.dwa.steps.toNat : ℝ) * (2 ^ 132 * y + 2 ^ 132 * y + 4)
                      ≤ 2 ^ 32 * (2 ^ 132 * y + 2 ^ 132 * y + 4) := mul_le_mul_of_nonneg_right hn32 (by positivity)
                    _ ≤ 2 ^ 200 * y := by nlinarith
              · rw [hvf k hk] at hit; cases hit
            by_contra hbf
            have := hm2.mp (by simpa using hbf)
            have hl := maxFin_large
            rw [almostEqual, real_lt, real_fabs, real_sub, real_lit] at this
            have := (abs_lt.mp this).1
            rw [← real_maxFin] at hl
            have e : ((1:ℤ):ℝ) / 10 ^ 12 ≤ 1 := by norm_num
            generalize (2:ℝ) ^ 1000 = y at hl hcb
            linarith
          subst hb
          rcases search_free (vref := u) (.inr hc') with hsm | ⟨hb, -⟩
          · rcases h3 with ⟨hb, -⟩ | ⟨-, p', -, rfl, -⟩
            · cases hb
            · exact .inr ⟨rfl, hsm⟩
          · cases hb

/-- Non-vacuity: in the middle of the three by three map of `side_run` the planned twist is refused and the
only sample is free; all hypotheses hold, and the second of the two outcomes is the one that happens. -/
example : ∃ (t : Expl ℝ) (o : List (Out ℝ)) (s : Expl ℝ),
    EcBuilt omniModel nearDetector 1 2 1 1 2 10 0 (diag3 1 1 1) ⟨-1, -1, -1⟩ ⟨1, 1, 1⟩ s.ec ∧ s.ec.steps ≠ 0 ∧
    s.iteration (some midTf) [] = .ok (t, o) ∧ s.follow_dwa = false ∧ s.map_received = true ∧
    (∃ v, IsSample s.dwa s.vb v ∧ FreeRollout s.dwa s.grid (s.localize (some midTf)).pose v ∧
      speed v * s.dwa.dt ≤ 2 ^ 900) ∧ t.follow_dwa = true ∧ twists o = [⟨0, 1, 0⟩] := by
  obtain ⟨ec, hec⟩ := side_control omniModel (diag3 1 1 1) (-1) 1
  let s : Expl ℝ := ((Expl.start ec nearDetector
    (sideDwa 1 (UInt32.ofNat 1) 1 (-1) 1) ⟨[]⟩ "map" 0.1 0.1).1.mapCallback sideMsg).odomCallback ⟨1, 1 + 1, 1⟩
  have hb : EcBuilt omniModel nearDetector 1 2 1 1 2 10 0 (diag3 1 1 1) ⟨-1, -1, -1⟩ ⟨1, 1, 1⟩ s.ec :=
    ⟨ec, hec, .setTarget _ .start⟩
  obtain ⟨ec', o, ht, ho, -⟩ := side_tick s 1 1 1 (-1) 1 (by norm_num) le_rfl le_rfl (by norm_num) le_rfl
    (.inl rfl) hb rfl rfl rfl rfl rfl rfl rfl rfl
  have hst : s.ec.steps = 2 := by
    have := hb.inv.steps_eq; rw [demo_steps, Res.ok.injEq] at this; exact this.symm
  have hpose : (s.localize (some midTf)).pose = midPose := by
    simp only [Expl.localize, midTf, midTf_yaw, midPose]
  refine ⟨_, o, s, hb, by rw [hst]; decide, ht, rfl, rfl, ⟨⟨0, 1, 0⟩, ?_, ?_, ?_⟩, rfl, ho⟩
  · rw [← mem_visited]
    show _ ∈ visited (sideDwa 1 (UInt32.ofNat 1) 1 (-1) 1) ⟨1, 1 + 1, 1⟩
    rw [side_visited _ _ _ _ _ (by norm_num)]
    simp
  · rw [hpose]
    exact side_free 1 (UInt32.ofNat 1) (by decide) 1 (-1) 1
  · show speed ⟨0, 1, 0⟩ * (1:ℝ) ≤ _
    have : speed ⟨0, 1, 0⟩ = 1 := by unfold speed; norm_num
    rw [this, one_mul]
    exact one_le_pow₀ (by norm_num)

end Ergodic
