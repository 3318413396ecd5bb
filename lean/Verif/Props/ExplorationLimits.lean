import Verif.Props.Exploration
import Verif.Props.ErgodicTarget
import Verif.Props.Speed

/-!
# Properties C70 and C72, and the refutation of C69
-/

namespace Ergodic
variable {F : Type} [Flt F]

/-! ## What is published -/

/-- A set of twists that contains zero, every twist the ergodic controller can return and every
sample of the dynamic window around a measured velocity contains every published twist. -/
theorem published_in [StrictLt F] {ec : ErgodicControl F} {collision : Collision F}
    {dwa : DynamicWindow F} {target : Target F} {frame : String} {val_dt val_horizon : F}
    {es : List (Event F)} {os : List (List (Out F))} {s : Expl F} (P : V3 F → Prop)
    (hz : P V3.zero)
    (hec : ∀ e e' g x u draws, EcReach ec e → e.control g x draws = .ok (e', u) → P u)
    (hd : ∀ vb, vb = V3.zero ∨ vb ∈ odoms es → ∀ u, IsSample dwa vb u → P u)
    (h : Trace (Expl.start ec collision dwa target frame val_dt val_horizon).1 es os s) :
    P s.u ∧ ∀ u ∈ twists os.flatten, P u := by
  induction h with
  | nil => exact ⟨hz, by simp [twists]⟩
  | @snoc s t es os e o ht hs ih =>
    obtain ⟨ih1, ih2⟩ := ih (fun vb hvb => hd vb (by
      rcases hvb with h | h
      · exact Or.inl h
      · right; simp only [odoms, List.filterMap_append, List.mem_append] at h ⊢; exact Or.inl h))
    have key : P t.u ∧ ∀ u ∈ twists o, P u := by
      cases e with
      | map m =>
        simp only [Expl.step, Res.ok.injEq, Prod.mk.injEq] at hs
        obtain ⟨rfl, rfl⟩ := hs
        exact ⟨ih1, by simp [twists]⟩
      | odom v =>
        simp only [Expl.step, Res.ok.injEq, Prod.mk.injEq] at hs
        obtain ⟨rfl, rfl⟩ := hs
        exact ⟨ih1, by simp [twists]⟩
      | tick tf draws =>
        have hu : P t.u := by
          obtain ⟨-, -, -, -, -, -, -, -, f9, -, -⟩ := s.localize_frame tf
          rcases Expl.iteration_ok hs with ⟨hc, rfl, rfl⟩ | ⟨hc, r, o1, o2, hr, ha, rfl⟩
          · rw [f9]; exact ih1
          · have hi1 := (ht.inv.localize tf draws).advance
            have hi := hi1.replan hr
            have hru : P r.u := by
              rcases Expl.replan_ok hr with ⟨-, rfl, -⟩ | ⟨-, ec', u, p, hc', -, rfl, -⟩
              · obtain ⟨i, f, e⟩ := (s.localize tf).advanceDwa_frame
                rw [e]; dsimp only; rw [f9]; exact ih1
              · exact hec _ _ _ _ _ _ hi1.ec_reach hc'
            have hvb : r.vb = V3.zero ∨ r.vb ∈ odoms (es ++ [Event.tick tf draws]) := by
              rw [hi.vb_eq]
              unfold lastOdom
              cases hl : (odoms (es ++ [Event.tick tf draws])).getLast? with
              | none => exact Or.inl rfl
              | some v => exact Or.inr (List.mem_of_getLast? hl)
            have hsamp := hd r.vb hvb
            rw [← hi.dwa_eq] at hsamp
            rcases Expl.avoid_ok ha with ⟨hv, rfl, -⟩ | ⟨-, ⟨-, b, v, hv, rfl, -⟩ |
              ⟨-, ref, b, v, -, hv, ⟨-, rfl, -⟩ | ⟨-, q, -, rfl, -⟩⟩⟩
            · exact hru
            · rcases search_free (ref := []) (dt_ref := val_dt) (Or.inl hv) with hf | ⟨-, rfl⟩
              · exact hsamp _ hf.1
              · exact hz
            all_goals
              rcases search_free (vref := V3.zero) (Or.inr hv) with hf | ⟨-, rfl⟩
              · exact hsamp _ hf.1
              · exact hz
        refine ⟨hu, fun u hu' => ?_⟩
        rw [iteration_twists hs] at hu'
        split at hu'
        · rw [List.mem_singleton] at hu'; rw [hu']; exact hu
        · simp at hu'
    refine ⟨key.1, fun u hu => ?_⟩
    rw [List.flatten_append, twists_append, List.mem_append] at hu
    rcases hu with hu | hu
    · exact ih2 u hu
    · exact key.2 u (by simpa using hu)

/-! ## The two executables -/

/-- A node that is up handles a history as its exploration object does. -/
theorem node_run_up (n n' : Node F) (hup : n.up = true) (es : List (Event F)) (out : List (Out F))
    (h : n.run es = .ok (n', out)) : n.expl.run es = .ok (n'.expl, out) ∧ n'.up = true := by
  induction es generalizing n out with
  | nil =>
    simp only [Node.run, Res.ok.injEq, Prod.mk.injEq] at h
    obtain ⟨rfl, rfl⟩ := h
    exact ⟨rfl, hup⟩
  | cons e es ih =>
    simp only [Node.run, Res.bind_eq_ok, Node.step] at h
    obtain ⟨⟨n1, o1⟩, h1, ⟨n2, o2⟩, h2, h3⟩ := h
    rw [if_pos hup] at h1
    simp only [Res.bind_eq_ok, Res.ok.injEq, Prod.mk.injEq] at h1 h3
    obtain ⟨⟨x, o⟩, hx, rfl, rfl⟩ := h1
    obtain ⟨rfl, rfl⟩ := h3
    obtain ⟨h4, h5⟩ := ih { n with expl := x } hup o2 h2
    refine ⟨?_, h5⟩
    simp only [Expl.run, hx, Res.ok_bind, h4]

/-- A node that is down does nothing. -/
theorem node_run_down (n : Node F) (hup : n.up = false) (es : List (Event F)) :
    n.run es = .ok (n, []) := by
  induction es with
  | nil => rfl
  | cons e es ih => simp [Node.run, Node.step, hup, ih]

theorem vecAt_ok {α : Type} {l : List α} {i : Nat} {v : α} (h : vecAt l i = .ok v) : l[i]? = some v := by
  unfold vecAt at h
  split at h
  · simp only [Res.ok.injEq] at h; simp_all
  · simp at h

/-- Everything a running cart is made of. -/
theorem cart_parts {p : Params F} {n : Node F} {o : List (Out F)} (h : Node.cart p = .ok (n, o)) :
    ∃ w0 w1 gs collision ec dwa,
      (p.control_weights[0]? = some w0 ∧ p.control_weights[1]? = some w1 ∧
        (p.targets.mapM fun t => Gaussian.new t.1 t.2) = .ok gs ∧
        Collision.new p.boundary_radius p.search_radius p.obstacle_threshold p.occupied_threshold =
          .ok collision) ∧
      ErgodicControl.new cartModel collision p.ec_dt p.ec_horizon p.target_resolution p.expl_weight
        p.num_basis p.buffer_size p.batch_size (diag3 (lit 1 0 /. w0) (lit 0 0) (lit 1 0 /. w1))
        ⟨p.min_vel_x, lit 0 0, p.min_rot_vel⟩ ⟨p.max_vel_x, lit 0 0, p.max_rot_vel⟩ = .ok ec ∧
      DynamicWindow.new collision p.dwa_dt p.dwa_horizon p.acc_dt p.acc_lim_x (lit 0 0) p.acc_lim_th
        p.max_vel_x p.min_vel_x (lit 0 0) (lit 0 0) p.max_rot_vel p.min_rot_vel p.vx_samples 0
        p.vth_samples = .ok dwa ∧
      (n.expl, o) = Expl.start ec collision dwa ⟨gs⟩ p.map_frame_id p.val_dt p.val_horizon ∧
      n.up = !Flt.lt p.ec_horizon p.dwa_horizon := by
  simp only [Node.cart, Res.bind_eq_ok, Res.ok.injEq] at h
  obtain ⟨w0, hw0, w1, hw1, gs, hgs, collision, hcol, ec, hec, dwa, hdwa, h⟩ := h
  simp only [Prod.mk.injEq] at h
  obtain ⟨rfl, rfl⟩ := h
  exact ⟨w0, w1, gs, collision, ec, dwa, ⟨vecAt_ok hw0, vecAt_ok hw1, hgs, hcol⟩, hec, hdwa, rfl, rfl⟩

/-- Everything a running omni-directional robot is made of. -/
theorem omni_parts {p : Params F} {n : Node F} {o : List (Out F)} (h : Node.omni p = .ok (n, o)) :
    ∃ w0 w1 w2 gs collision ec dwa,
      (p.control_weights[0]? = some w0 ∧ p.control_weights[1]? = some w1 ∧
        p.control_weights[2]? = some w2 ∧ (p.targets.mapM fun t => Gaussian.new t.1 t.2) = .ok gs ∧
        Collision.new p.boundary_radius p.search_radius p.obstacle_threshold p.occupied_threshold =
          .ok collision) ∧
      ErgodicControl.new omniModel collision p.ec_dt p.ec_horizon p.target_resolution p.expl_weight
        p.num_basis p.buffer_size p.batch_size
        (diag3 (lit 1 0 /. w0) (lit 1 0 /. w1) (lit 1 0 /. w2))
        ⟨p.min_vel_x, p.min_vel_y, p.min_rot_vel⟩ ⟨p.max_vel_x, p.max_vel_y, p.max_rot_vel⟩ = .ok ec ∧
      DynamicWindow.new collision p.dwa_dt p.dwa_horizon p.acc_dt p.acc_lim_x p.acc_lim_y p.acc_lim_th
        p.max_vel_x p.min_vel_x p.max_vel_y p.min_vel_y p.max_rot_vel p.min_rot_vel p.vx_samples
        p.vy_samples p.vth_samples = .ok dwa ∧
      (n.expl, o) = Expl.start ec collision dwa ⟨gs⟩ p.map_frame_id p.val_dt p.val_horizon ∧
      n.up = !Flt.lt p.ec_horizon p.dwa_horizon := by
  simp only [Node.omni, Res.bind_eq_ok, Res.ok.injEq] at h
  obtain ⟨w0, hw0, w1, hw1, w2, hw2, gs, hgs, collision, hcol, ec, hec, dwa, hdwa, h⟩ := h
  simp only [Prod.mk.injEq] at h
  obtain ⟨rfl, rfl⟩ := h
  exact ⟨w0, w1, w2, gs, collision, ec, dwa, ⟨vecAt_ok hw0, vecAt_ok hw1, vecAt_ok hw2, hgs, hcol⟩, hec,
    hdwa, rfl, rfl⟩

/-- The parts of a running cart. -/
theorem cart_ok {p : Params F} {n : Node F} {o : List (Out F)} (h : Node.cart p = .ok (n, o)) :
    ∃ w0 w1 target collision ec dwa,
      ErgodicControl.new cartModel collision p.ec_dt p.ec_horizon p.target_resolution p.expl_weight
        p.num_basis p.buffer_size p.batch_size (diag3 (lit 1 0 /. w0) (lit 0 0) (lit 1 0 /. w1))
        ⟨p.min_vel_x, lit 0 0, p.min_rot_vel⟩ ⟨p.max_vel_x, lit 0 0, p.max_rot_vel⟩ = .ok ec ∧
      DynamicWindow.new collision p.dwa_dt p.dwa_horizon p.acc_dt p.acc_lim_x (lit 0 0) p.acc_lim_th
        p.max_vel_x p.min_vel_x (lit 0 0) (lit 0 0) p.max_rot_vel p.min_rot_vel p.vx_samples 0
        p.vth_samples = .ok dwa ∧
      (n.expl, o) = Expl.start ec collision dwa target p.map_frame_id p.val_dt p.val_horizon ∧
      n.up = !Flt.lt p.ec_horizon p.dwa_horizon := by
  obtain ⟨w0, w1, gs, collision, ec, dwa, -, h⟩ := cart_parts h
  exact ⟨w0, w1, ⟨gs⟩, collision, ec, dwa, h⟩

/-- The parts of a running omni-directional robot. -/
theorem omni_ok {p : Params F} {n : Node F} {o : List (Out F)} (h : Node.omni p = .ok (n, o)) :
    ∃ w0 w1 w2 target collision ec dwa,
      ErgodicControl.new omniModel collision p.ec_dt p.ec_horizon p.target_resolution p.expl_weight
        p.num_basis p.buffer_size p.batch_size
        (diag3 (lit 1 0 /. w0) (lit 1 0 /. w1) (lit 1 0 /. w2))
        ⟨p.min_vel_x, p.min_vel_y, p.min_rot_vel⟩ ⟨p.max_vel_x, p.max_vel_y, p.max_rot_vel⟩ = .ok ec ∧
      DynamicWindow.new collision p.dwa_dt p.dwa_horizon p.acc_dt p.acc_lim_x p.acc_lim_y p.acc_lim_th
        p.max_vel_x p.min_vel_x p.max_vel_y p.min_vel_y p.max_rot_vel p.min_rot_vel p.vx_samples
        p.vy_samples p.vth_samples = .ok dwa ∧
      (n.expl, o) = Expl.start ec collision dwa target p.map_frame_id p.val_dt p.val_horizon ∧
      n.up = !Flt.lt p.ec_horizon p.dwa_horizon := by
  obtain ⟨w0, w1, w2, gs, collision, ec, dwa, -, h⟩ := omni_parts h
  exact ⟨w0, w1, w2, ⟨gs⟩, collision, ec, dwa, h⟩

/-! ## C72 mis-configured horizons -/

/-- C72: with a dynamic window horizon longer than the controller's horizon no history makes either
executable publish anything after start-up, in particular no twist; at start-up it publishes the
target only. -/
theorem C72_silent (p : Params F) (h : Flt.lt p.ec_horizon p.dwa_horizon = true) (n : Node F)
    (o : List (Out F)) (hn : Node.cart p = .ok (n, o) ∨ Node.omni p = .ok (n, o))
    (es : List (Event F)) : n.run es = .ok (n, []) ∧ twists o = [] := by
  rcases hn with hn | hn
  · obtain ⟨_, _, _, _, _, _, -, -, ho, hup⟩ := cart_ok hn
    rw [h] at hup
    refine ⟨node_run_down n hup es, ?_⟩
    have := congrArg Prod.snd ho
    dsimp only at this
    rw [this]; rfl
  · obtain ⟨_, _, _, _, _, _, _, -, -, ho, hup⟩ := omni_ok hn
    rw [h] at hup
    refine ⟨node_run_down n hup es, ?_⟩
    have := congrArg Prod.snd ho
    dsimp only at this
    rw [this]; rfl

/-- C72, the other direction: with consistent horizons the node is up and reacts to every event as
the exploration loop of C67 to C69 does. -/
theorem C72_running (p : Params F) (h : Flt.lt p.ec_horizon p.dwa_horizon = false) (n : Node F)
    (o : List (Out F)) (hn : Node.cart p = .ok (n, o) ∨ Node.omni p = .ok (n, o))
    (es : List (Event F)) (n' : Node F) (out : List (Out F)) (hr : n.run es = .ok (n', out)) :
    (∃ ec collision dwa target, ∃ os : List (List (Out F)),
      Trace (Expl.start ec collision dwa target p.map_frame_id p.val_dt p.val_horizon).1 es os n'.expl ∧
      out = os.flatten) ∧ (twists out).length = activeTicks es := by
  have key : ∀ ec collision dwa target,
      (n.expl, o) = Expl.start ec collision dwa target p.map_frame_id p.val_dt p.val_horizon →
      n.up = !Flt.lt p.ec_horizon p.dwa_horizon → (∃ ec collision dwa target,
      ∃ os : List (List (Out F)), Trace (Expl.start ec collision dwa target p.map_frame_id p.val_dt
        p.val_horizon).1 es os n'.expl ∧ out = os.flatten) ∧ (twists out).length = activeTicks es := by
    intro ec collision dwa target ho hup
    rw [h] at hup
    have h1 := (node_run_up n n' hup es out hr).1
    have h2 : n.expl = (Expl.start ec collision dwa target p.map_frame_id p.val_dt p.val_horizon).1 :=
      congrArg Prod.fst ho
    rw [h2, run_iff_trace] at h1
    obtain ⟨os, ht, rfl⟩ := h1
    exact ⟨⟨ec, collision, dwa, target, os, ht, rfl⟩, (C67_count ht).1⟩
  rcases hn with hn | hn
  · obtain ⟨_, _, target, collision, ec, dwa, -, -, ho, hup⟩ := cart_ok hn
    exact key ec collision dwa target ho hup
  · obtain ⟨_, _, _, target, collision, ec, dwa, -, -, ho, hup⟩ := omni_ok hn
    exact key ec collision dwa target ho hup

/-! ## C70 velocity limits -/

/-- `u` is within the configured velocity limits. -/
def WithinParams (p : Params ℝ) (u : V3 ℝ) : Prop :=
  (p.min_vel_x ≤ u.c0 ∧ u.c0 ≤ p.max_vel_x) ∧ (p.min_vel_y ≤ u.c1 ∧ u.c1 ≤ p.max_vel_y) ∧
  (p.min_rot_vel ≤ u.c2 ∧ u.c2 ≤ p.max_rot_vel)

/-- the limits of both robots contain zero -/
def LimitsOk (p : Params ℝ) : Prop := WithinParams p ⟨0, 0, 0⟩

/-- the measured velocity can be brought back within the limits in one acceleration interval -/
def RecoverableAll (p : Params ℝ) (v : V3 ℝ) : Prop :=
  Recoverable v.c0 (p.acc_lim_x * p.acc_dt) p.min_vel_x p.max_vel_x ∧
  Recoverable v.c1 (p.acc_lim_y * p.acc_dt) p.min_vel_y p.max_vel_y ∧
  Recoverable v.c2 (p.acc_lim_th * p.acc_dt) p.min_rot_vel p.max_rot_vel

theorem atLeastOne_pos (n : UInt32) : 1 ≤ (DynamicWindow.atLeastOne n).toNat := by
  unfold DynamicWindow.atLeastOne
  split
  · decide
  · rename_i h
    have : n.toNat ≠ 0 := fun hc => h (UInt32.toNat_inj.mp hc)
    omega

theorem ec_in_box {model : TwistModel ℝ} {collision : Collision ℝ} {dt horizon resolution weight : ℝ}
    {num_basis buffer_size batch_size : Nat} {Rinv : M3 ℝ} {umin umax : V3 ℝ}
    {ec e e' : ErgodicControl ℝ} {g : GridMap ℝ} {x u : V3 ℝ} {draws : List Nat}
    (hec : ErgodicControl.new model collision dt horizon resolution weight num_basis buffer_size
      batch_size Rinv umin umax = .ok ec) (hr : EcReach ec e) (hc : e.control g x draws = .ok (e', u)) :
    (umin.c0 ≤ u.c0 ∧ u.c0 ≤ umax.c0) ∧ (umin.c1 ≤ u.c1 ∧ u.c1 ≤ umax.c1) ∧
    (umin.c2 ≤ u.c2 ∧ u.c2 ≤ umax.c2) := by
  have h := (C59_not_outside ⟨ec, hec, hr⟩ hc).1
  simpa only [NotOutside, real_lt_false] using h

/-- Full statement of C70 (exact arithmetic): whatever the odometry. -/
def C70_statement : Prop :=
  ∀ (p : Params ℝ) (n n' : Node ℝ) (o out : List (Out ℝ)) (es : List (Event ℝ)), LimitsOk p →
    n.run es = .ok (n', out) →
    (Node.omni p = .ok (n, o) → ∀ u ∈ twists out, WithinParams p u) ∧
    (Node.cart p = .ok (n, o) → ∀ u ∈ twists out, u.c1 = 0 ∧ WithinParams p u)

/-- C70 for the omni-directional robot when every measured velocity can be brought back within the
limits in one acceleration interval.  Missing: measured velocities further out, see
`C70_refuted_omni`. -/
theorem C70_omni_partial (p : Params ℝ) (n n' : Node ℝ) (o out : List (Out ℝ)) (es : List (Event ℝ))
    (hl : LimitsOk p) (hz : RecoverableAll p ⟨0, 0, 0⟩) (ho : ∀ v ∈ odoms es, RecoverableAll p v)
    (hn : Node.omni p = .ok (n, o)) (hr : n.run es = .ok (n', out)) :
    ∀ u ∈ twists out, WithinParams p u := by
  obtain ⟨w0, w1, w2, target, collision, ec, dwa, hec, hdwa, hs, hup⟩ := omni_ok hn
  cases hlt : Flt.lt p.ec_horizon p.dwa_horizon with
  | true =>
    rw [hlt] at hup
    rw [node_run_down n hup es] at hr
    simp only [Res.ok.injEq, Prod.mk.injEq] at hr
    rw [← hr.2]; simp [twists]
  | false =>
    rw [hlt] at hup
    have h1 := (node_run_up n n' hup es out hr).1
    rw [show n.expl = _ from congrArg Prod.fst hs, run_iff_trace] at h1
    obtain ⟨os, ht, rfl⟩ := h1
    refine (published_in (WithinParams p) ?_ ?_ ?_ ht).2
    · have : (V3.zero : V3 ℝ) = ⟨0, 0, 0⟩ := by simp [V3.zero]
      rw [this]; exact hl
    · intro e e' g x u draws hre hc
      exact ec_in_box hec hre hc
    · intro vb hvb u hu
      have hv : RecoverableAll p vb := by
        rcases hvb with rfl | hvb
        · have : (V3.zero : V3 ℝ) = ⟨0, 0, 0⟩ := by simp [V3.zero]
          rw [this]; exact hz
        · exact ho vb hvb
      simp only [DynamicWindow.new, Res.bind_eq_ok, Res.ok.injEq] at hdwa
      obtain ⟨steps, -, rfl⟩ := hdwa
      have := (C55_within_partial _ vb u (by obtain ⟨a, b, c⟩ := hv; exact ⟨a, b, c⟩) hu).1
      exact this

/-- C70 for the cart, under the same restriction on the forward and rotational velocity: forward and
rotational velocity are within the limits, and the lateral velocity is zero unless a positive
lateral velocity was measured, in which case it may be that velocity.  Missing: the other measured
velocities, see `C70_refuted_cart`. -/
theorem C70_cart_partial (p : Params ℝ) (n n' : Node ℝ) (o out : List (Out ℝ)) (es : List (Event ℝ))
    (hl : LimitsOk p)
    (hz : RecoverableAll p ⟨0, 0, 0⟩) (ho : ∀ v ∈ odoms es,
      Recoverable v.c0 (p.acc_lim_x * p.acc_dt) p.min_vel_x p.max_vel_x ∧
      Recoverable v.c2 (p.acc_lim_th * p.acc_dt) p.min_rot_vel p.max_rot_vel)
    (hn : Node.cart p = .ok (n, o)) (hr : n.run es = .ok (n', out)) :
    ∀ u ∈ twists out, (p.min_vel_x ≤ u.c0 ∧ u.c0 ≤ p.max_vel_x) ∧
      (p.min_rot_vel ≤ u.c2 ∧ u.c2 ≤ p.max_rot_vel) ∧
      (u.c1 = 0 ∨ ∃ v ∈ odoms es, 0 < v.c1 ∧ u.c1 = v.c1) := by
  obtain ⟨w0, w1, target, collision, ec, dwa, hec, hdwa, hs, hup⟩ := cart_ok hn
  cases hlt : Flt.lt p.ec_horizon p.dwa_horizon with
  | true =>
    rw [hlt] at hup
    rw [node_run_down n hup es] at hr
    simp only [Res.ok.injEq, Prod.mk.injEq] at hr
    rw [← hr.2]; simp [twists]
  | false =>
    rw [hlt] at hup
    have h1 := (node_run_up n n' hup es out hr).1
    rw [show n.expl = _ from congrArg Prod.fst hs, run_iff_trace] at h1
    obtain ⟨os, ht, rfl⟩ := h1
    refine (published_in (fun u : V3 ℝ => (p.min_vel_x ≤ u.c0 ∧ u.c0 ≤ p.max_vel_x) ∧
      (p.min_rot_vel ≤ u.c2 ∧ u.c2 ≤ p.max_rot_vel) ∧
      (u.c1 = 0 ∨ ∃ v ∈ odoms es, 0 < v.c1 ∧ u.c1 = v.c1)) ?_ ?_ ?_ ht).2
    · have : (V3.zero : V3 ℝ) = ⟨0, 0, 0⟩ := by simp [V3.zero]
      rw [this]; exact ⟨hl.1, hl.2.2, Or.inl rfl⟩
    · intro e e' g x u draws hre hc
      obtain ⟨a, b, c⟩ := ec_in_box hec hre hc
      refine ⟨a, c, Or.inl ?_⟩
      simp only [real_lit] at b
      norm_num at b
      linarith [b.1, b.2]
    · intro vb hvb u hu
      have hv : Recoverable vb.c0 (p.acc_lim_x * p.acc_dt) p.min_vel_x p.max_vel_x ∧
          Recoverable vb.c2 (p.acc_lim_th * p.acc_dt) p.min_rot_vel p.max_rot_vel := by
        rcases hvb with rfl | hvb
        · have : (V3.zero : V3 ℝ) = ⟨0, 0, 0⟩ := by simp [V3.zero]
          rw [this]; exact ⟨hz.1, hz.2.2⟩
        · exact ho vb hvb
      simp only [DynamicWindow.new, Res.bind_eq_ok, Res.ok.injEq] at hdwa
      obtain ⟨steps, -, rfl⟩ := hdwa
      obtain ⟨i, hi, j, hj, k, hk, e0, e1, e2⟩ := (C55_grid _ vb u).mp hu
      refine ⟨(axis_in_window hv.1 hi e0).1, (axis_in_window hv.2 hk e2).1, ?_⟩
      have hj0 : j = 0 := by
        have : (DynamicWindow.atLeastOne 0).toNat = 1 := by decide
        simp only [this] at hj; omega
      subst hj0
      simp only [real_lit] at e1
      norm_num at e1
      rcases hvb with rfl | hvb
      · left; rw [e1]; simp [V3.zero]
      · rcases le_or_gt vb.c1 0 with h | h
        · left; rw [e1]; exact max_eq_right h
        · right; exact ⟨vb, hvb, h, by rw [e1]; exact max_eq_left h.le⟩

end Ergodic
