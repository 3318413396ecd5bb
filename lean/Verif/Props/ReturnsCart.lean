import Verif.Props.Returns
import Verif.Lemmas.Overflow

/-!
# Property C129, continued: when an iteration of the cart returns, in every arithmetic

The cart's model throws on a lateral velocity.  The lateral limits of its controller are zero, so in doubles the only
lateral component that is not accepted is NaN.
-/

namespace Ergodic
variable {F : Type} [Flt F]

theorem takesPlan_cart (hz : almostEqual (lit 0 0 : F) (lit 0 0) = true) {e : ErgodicControl F}
    (h : ∀ v ∈ e.ut, almostEqual v.c1 (lit 0 0) = true) : TakesPlan cartModel e := by
  intro y v hv
  refine ⟨⟨v.c0 *. Flt.cos y.c2, v.c0 *. Flt.sin y.c2, v.c2⟩, ?_⟩
  show SimpleCart.f y v = _
  unfold SimpleCart.f
  rw [if_neg]
  rw [not_not]
  rcases List.mem_cons.mp hv with rfl | hv
  · exact hz
  · exact h v hv

/-- C129, in every arithmetic: an iteration of the cart that is served and plans no lateral velocity returns. -/
theorem C129_cart_iteration {s : Expl F} (hs : Settled s) {lo hi : V3 F} (hb : Built cartModel lo hi s)
    (hz : almostEqual (lit 0 0 : F) (lit 0 0) = true) (h0 : ∀ v ∈ s.ec.ut, almostEqual v.c1 (lit 0 0) = true)
    {tf : Option (TransformMsg F)} {draws : List Nat} (h : Served s tf draws) (hp : StraightPlan s tf draws) :
    ∃ t o, s.iteration tf draws = .ok (t, o) ∧ ∀ v ∈ t.ec.ut, almostEqual v.c1 (lit 0 0) = true := by
  obtain ⟨t, o, ht, -⟩ := iteration_served hs hb (takesPlan_cart hz h0)
    (fun hm hk hf e u he => takesPlan_cart hz (hp hm hk hf e u he)) h
  refine ⟨t, o, ht, ?_⟩
  have hl : (s.localize tf).ec.ut = s.ec.ut := by cases tf <;> rfl
  have ha : (s.localize tf).advanceDwa.ec = (s.localize tf).ec := by
    obtain ⟨i, f, e⟩ := (s.localize tf).advanceDwa_frame
    rw [e]
  rcases Expl.iteration_ok ht with ⟨-, rfl, -⟩ | ⟨hc, r, o1, o2, hr, ha', -⟩
  · rw [hl]; exact h0
  · have hc' : ((s.localize tf).advanceDwa).map_received = true ∧ ((s.localize tf).advanceDwa).pose_known = true := by
      obtain ⟨i, f, e⟩ := (s.localize tf).advanceDwa_frame
      rw [e]
      simpa using hc
    have hr' : ∀ v ∈ r.ec.ut, almostEqual v.c1 (lit 0 0) = true := by
      rcases Expl.replan_ok hr with ⟨-, rfl, -⟩ | ⟨hf, ec', u, p, hec, -, rfl, -⟩
      · rw [ha, hl]; exact h0
      · exact hp hc'.1 hc'.2 hf ec' u hec
    have het : t.ec = r.ec := by
      rcases Expl.avoid_ok ha' with ⟨-, rfl, -⟩ | ⟨-, ⟨-, b, u, -, rfl, -⟩ |
        ⟨-, ref, b, u, -, -, ⟨-, rfl, -⟩ | ⟨-, p, -, rfl, -⟩⟩⟩
      all_goals rfl
    rw [het]; exact hr'

theorem run_cart_returns {s : Expl F} (hs : Settled s) {lo hi : V3 F} (hb : Built cartModel lo hi s)
    (hz : almostEqual (lit 0 0 : F) (lit 0 0) = true) (h0 : ∀ v ∈ s.ec.ut, almostEqual v.c1 (lit 0 0) = true)
    (es : List (Event F)) :
    (∃ t o, s.run es = .ok (t, o)) ∨
    ∃ pre tf draws post t o, es = pre ++ .tick tf draws :: post ∧ s.run pre = .ok (t, o) ∧
      Built cartModel lo hi t ∧ ¬ (Served t tf draws ∧ StraightPlan t tf draws) := by
  induction es generalizing s with
  | nil => exact .inl ⟨_, _, rfl⟩
  | cons e es ih =>
    have hstep : (∃ t o, s.step e = .ok (t, o) ∧ ∀ v ∈ t.ec.ut, almostEqual v.c1 (lit 0 0) = true) ∨
        ∃ tf draws, e = .tick tf draws ∧ ¬ (Served s tf draws ∧ StraightPlan s tf draws) := by
      cases e with
      | map m => exact .inl ⟨_, _, rfl, h0⟩
      | odom v => exact .inl ⟨_, _, rfl, h0⟩
      | tick tf d =>
        by_cases h : Served s tf d ∧ StraightPlan s tf d
        · exact .inl (C129_cart_iteration hs hb hz h0 h.1 h.2)
        · exact .inr ⟨tf, d, rfl, h⟩
    rcases hstep with ⟨t, o, h, h1⟩ | ⟨tf, d, rfl, h⟩
    · rcases ih (hs.step h) (hb.step h) h1 with ⟨t', o', h'⟩ | ⟨pre, tf, d, post, t', o', rfl, hp, hbt, hn⟩
      · exact .inl ⟨_, _, by rw [Expl.run, h, Res.ok_bind]; dsimp only; rw [h', Res.ok_bind]⟩
      · refine .inr ⟨e :: pre, tf, d, post, t', o ++ o', rfl, ?_, hbt, hn⟩
        rw [Expl.run, h, Res.ok_bind]
        dsimp only
        rw [hp, Res.ok_bind]
    · exact .inr ⟨[], tf, d, es, s, [], rfl, rfl, hb, h⟩

theorem cart_built {p : Params F} {n : Node F} {o : List (Out F)} (h : Node.cart p = .ok (n, o))
    (hn : ∃ m, Flt.trunc? (fabs (p.ec_horizon /. p.ec_dt)) = some m ∧ 2 ≤ m) :
    Built cartModel ⟨p.min_vel_x, lit 0 0, p.min_rot_vel⟩ ⟨p.max_vel_x, lit 0 0, p.max_rot_vel⟩ n.expl ∧ ∀ v ∈ n.expl.ec.ut, v = V3.zero := by
  obtain ⟨w0, w1, gs, collision, ec, dwa, -, hec, hdwa, hs, -⟩ := cart_parts h
  have hs : n.expl = _ := congrArg Prod.fst hs
  rw [hs]
  have hec0 := hec
  obtain ⟨m, hm, h⟩ := Res.bind_eq_ok.mp hec
  obtain ⟨k, hk, h2⟩ := hn
  have hst : ec.steps = m ∧ ec.ut = List.replicate m.toNat V3.zero := by
    split at h
    · simp at h
    · rw [Res.ok.injEq] at h
      rw [← h]
      exact ⟨rfl, rfl⟩
  refine ⟨⟨?_, _, _, _, _, _, _, _, _, _, ec, hec0, .setTarget _ .start⟩, ?_⟩
  · show 2 ≤ ec.steps.toNat
    obtain ⟨m', hm', ht⟩ := InRange32.u32 (InRange32.of_u32 hm)
    have hm : castU32 (fabs (p.ec_horizon /. p.ec_dt)) = .ok m := hm
    rw [hm, Res.ok.injEq] at hm'
    rw [hk, Option.some.injEq] at ht
    rw [hst.1, hm']
    omega
  · intro v hv
    have hv : v ∈ ec.ut := hv
    rw [hst.2] at hv
    exact List.eq_of_mem_replicate hv

theorem cart_returns [StrictLt F] {p : Params F} {n : Node F} {o : List (Out F)} (h : Node.cart p = .ok (n, o))
    (hv : CountFits p.val_horizon p.val_dt) (h0 : Flt.lt p.max_vel_x p.min_vel_x = false)
    (h2 : Flt.lt p.max_rot_vel p.min_rot_vel = false) (hz : almostEqual (lit 0 0 : F) (lit 0 0) = true)
    (hn : ∃ m, Flt.trunc? (fabs (p.ec_horizon /. p.ec_dt)) = some m ∧ 2 ≤ m) (es : List (Event F)) :
    (∃ n' out, n.run es = .ok (n', out)) ∨
    ∃ pre tf draws post m out, es = pre ++ .tick tf draws :: post ∧ n.run pre = .ok (m, out) ∧
      Built cartModel ⟨p.min_vel_x, lit 0 0, p.min_rot_vel⟩ ⟨p.max_vel_x, lit 0 0, p.max_rot_vel⟩ m.expl ∧
      ¬ (Served m.expl tf draws ∧ StraightPlan m.expl tf draws) := by
  have hs := cart_settled h hv h0 h2
  obtain ⟨hb, hu⟩ := cart_built h hn
  cases hup : n.up with
  | false => exact .inl ⟨_, _, node_run_down n hup es⟩
  | true =>
    rcases run_cart_returns hs hb hz (fun v hv => by rw [hu v hv]; exact hz) es with
      ⟨t, o, h⟩ | ⟨pre, tf, d, post, t, o, rfl, h, hb⟩
    · exact .inl ⟨_, _, node_run_of_expl n hup es t o h⟩
    · exact .inr ⟨pre, tf, d, post, _, o, rfl, node_run_of_expl n hup pre t o h, hb⟩

/-- C129 for a whole run of the cart, in every arithmetic and whatever the messages: the run returns, or some iteration,
reached without a failure, was not served or planned a lateral velocity. -/
theorem C129_cart_returns [StrictLt F] {p : Params F} {n : Node F} {o : List (Out F)} (h : Node.cart p = .ok (n, o))
    (hv : CountFits p.val_horizon p.val_dt) (h0 : Flt.lt p.max_vel_x p.min_vel_x = false)
    (h2 : Flt.lt p.max_rot_vel p.min_rot_vel = false) (hz : almostEqual (lit 0 0 : F) (lit 0 0) = true)
    (hn : ∃ m, Flt.trunc? (fabs (p.ec_horizon /. p.ec_dt)) = some m ∧ 2 ≤ m) (es : List (Event F)) :
    (∃ n' out, n.run es = .ok (n', out)) ∨
    ∃ pre tf draws post m out, es = pre ++ .tick tf draws :: post ∧ n.run pre = .ok (m, out) ∧
      ¬ (Served m.expl tf draws ∧ StraightPlan m.expl tf draws) := by
  rcases cart_returns h hv h0 h2 hz hn es with h | ⟨pre, tf, d, post, m, out, e, hr, -, hb⟩
  · exact .inl h
  · exact .inr ⟨pre, tf, d, post, m, out, e, hr, hb⟩

theorem Built.planned {lo hi : V3 F} {s : Expl F} (hb : Built cartModel lo hi s) {tf : Option (TransformMsg F)}
    {draws : List Nat} {e : ErgodicControl F} {u : V3 F}
    (hc : (s.localize tf).advanceDwa.ec.control (s.localize tf).advanceDwa.grid (s.localize tf).advanceDwa.pose draws =
      .ok (e, u)) : ∃ collision dt horizon resolution weight num_basis buffer_size batch_size Rinv,
    EcBuilt cartModel collision dt horizon resolution weight num_basis buffer_size batch_size Rinv lo hi e :=
  (((hb.localize tf).advance).control hc).2

/-- C129 for the cart in exact arithmetic: a run returns, or some iteration, reached without a failure, was not served. -/
theorem C129_cart_exact {p : Params ℝ} {n : Node ℝ} {o : List (Out ℝ)} (h : Node.cart p = .ok (n, o))
    (hv : CountFits p.val_horizon p.val_dt) (h0 : p.min_vel_x ≤ p.max_vel_x) (h2 : p.min_rot_vel ≤ p.max_rot_vel)
    (hn : ∃ m, Flt.trunc? (fabs (p.ec_horizon /. p.ec_dt)) = some m ∧ 2 ≤ m) (es : List (Event ℝ)) :
    (∃ n' out, n.run es = .ok (n', out)) ∨
    ∃ pre tf draws post m out, es = pre ++ .tick tf draws :: post ∧ n.run pre = .ok (m, out) ∧
      ¬ Served m.expl tf draws := by
  have hz : almostEqual (lit 0 0 : ℝ) (lit 0 0) = true := by norm_num [almostEqual, real_fabs]
  rcases cart_returns h hv ((real_lt_false _ _).mpr h0) ((real_lt_false _ _).mpr h2) hz hn es with
    h | ⟨pre, tf, d, post, m, out, e, hr, hb, hns⟩
  · exact .inl h
  · refine .inr ⟨pre, tf, d, post, m, out, e, hr, fun hsv => hns ⟨hsv, ?_⟩⟩
    intro _ _ _ e' u hc v hv
    obtain ⟨c, dt, h, r, w, k, nb, b, R, hb'⟩ := hb.planned hc
    have : v.c1 = 0 := by
      rcases columns_always hb' v hv with rfl | hv
      · simp [V3.zero]
      · simp only [NotOutside, real_lt_false] at hv
        have := hv.2.1
        norm_num at this
        exact le_antisymm this.2 this.1
    rw [this]
    norm_num [almostEqual, real_fabs]

/-! ## Doubles -/

theorem zero_close_ord {M : Machine} : almostEqual (lit 0 0 : ODbl M) (lit 0 0) = true := by
  unfold almostEqual
  have e1 : (lit 0 0 : ODbl M) -. lit 0 0 = .fin 0 := by
    rw [lit_zero_ord]
    show ODbl.rd M (.fin ((0 : ℝ) + -0)) = _
    rw [add_neg_cancel, ODbl.rd_small (by rw [M.rnd_zero, abs_zero]; exact huge_pos), M.rnd_zero]
    rfl
  have e2 : fabs (.fin 0 : ODbl M) = .fin 0 := by
    unfold fabs
    rw [lit_zero_ord, if_neg (by rw [ODbl.lt_fin]; exact lt_irrefl _)]
  rw [e1, e2, lit_ord (by norm_num [abs_of_pos]), ODbl.lt_fin]
  have e := (M.err' minNormal_le_one (x := ((1 : ℤ) : ℝ) / 10 ^ 12) (by norm_num [abs_of_pos])).1
  norm_num at e ⊢
  linarith

/-- C129: in doubles, with overflow, the lateral component of a column that a controller with zero lateral limits has
stored is accepted by the cart, unless it is NaN. -/
theorem C129_lateral {M : Machine} {model : TwistModel (ODbl M)} {collision : Collision (ODbl M)}
    {dt horizon resolution weight : ODbl M} {num_basis buffer_size batch_size : Nat} {Rinv : M3 (ODbl M)}
    {umin umax : V3 (ODbl M)} {e : ErgodicControl (ODbl M)}
    (hb : EcBuilt model collision dt horizon resolution weight num_basis buffer_size batch_size Rinv umin umax e)
    (h0 : umin.c1 = lit 0 0) (h1 : umax.c1 = lit 0 0) (v : V3 (ODbl M)) (hv : v ∈ e.ut) :
    v.c1 = .nan ∨ almostEqual v.c1 (lit 0 0) = true := by
  rcases columns_always hb v hv with rfl | h
  · exact .inr zero_close_ord
  · obtain ⟨a, b⟩ := h.2.1
    rw [h0, lit_zero_ord] at a
    rw [h1, lit_zero_ord] at b
    cases hx : v.c1 with
    | nan => exact .inl rfl
    | inf s =>
      rw [hx] at a b
      cases s
      · exact absurd b (show ¬ (true = false) by decide)
      · exact absurd a (show ¬ (true = false) by decide)
    | fin x =>
      rw [hx] at a b
      have a := (ODbl.lt_fin_false (M := M) x 0).mp a
      have b := (ODbl.lt_fin_false (M := M) 0 x).mp b
      right
      have : x = 0 := le_antisymm b a
      rw [this]
      have hz := zero_close_ord (M := M)
      have e : (lit 0 0 : ODbl M) = .fin 0 := lit_zero_ord
      rw [e] at hz ⊢
      exact hz

/-- C129 for the cart in doubles with overflow: a run returns, or some iteration, reached without a failure, was not served
or planned a lateral velocity that is NaN. -/
theorem C129_cart_nan {M : Machine} {p : Params (ODbl M)} {n : Node (ODbl M)} {o : List (Out (ODbl M))}
    (h : Node.cart p = .ok (n, o)) (hv : CountFits p.val_horizon p.val_dt)
    (h0 : Flt.lt p.max_vel_x p.min_vel_x = false) (h2 : Flt.lt p.max_rot_vel p.min_rot_vel = false)
    (hn : ∃ m, Flt.trunc? (fabs (p.ec_horizon /. p.ec_dt)) = some m ∧ 2 ≤ m) (es : List (Event (ODbl M))) :
    (∃ n' out, n.run es = .ok (n', out)) ∨
    ∃ pre tf draws post m out, es = pre ++ .tick tf draws :: post ∧ n.run pre = .ok (m, out) ∧
      (¬ Served m.expl tf draws ∨ ∃ e u, (m.expl.localize tf).advanceDwa.ec.control
        (m.expl.localize tf).advanceDwa.grid (m.expl.localize tf).advanceDwa.pose draws = .ok (e, u) ∧
        ∃ v ∈ e.ut, v.c1 = .nan) := by
  rcases cart_returns h hv h0 h2 zero_close_ord hn es with h | ⟨pre, tf, d, post, m, out, e, hr, hb, hns⟩
  · exact .inl h
  · refine .inr ⟨pre, tf, d, post, m, out, e, hr, ?_⟩
    by_contra hcon
    push Not at hcon
    refine hns ⟨hcon.1, ?_⟩
    intro _ _ _ e' u hc v hv
    obtain ⟨c, dt, h, r, w, k, nb, b, R, hb'⟩ := hb.planned hc
    exact (C129_lateral hb' rfl rfl v hv).resolve_left (hcon.2 e' u hc v hv)

/-! ## A cart that is served -/

/-- A running cart that meets the hypotheses of `C129_cart_exact`, and, once it has a map, an iteration with a pose that is
served: it replans, checks the twist and publishes. -/
example : ∃ (p : Params ℝ) (n : Node ℝ) (o : List (Out ℝ)), Node.cart p = .ok (n, o) ∧
    CountFits p.val_horizon p.val_dt ∧ p.min_vel_x ≤ p.max_vel_x ∧
    p.min_rot_vel ≤ p.max_rot_vel ∧
    (∃ m, Flt.trunc? (fabs (p.ec_horizon /. p.ec_dt)) = some m ∧ 2 ≤ m) ∧ n.up = true ∧
    Served (n.expl.mapCallback sideMsg) (some (lowTf 2 2)) [] ∧
    (((n.expl.mapCallback sideMsg).localize (some (lowTf 2 2))).map_received &&
      ((n.expl.mapCallback sideMsg).localize (some (lowTf 2 2))).pose_known) = true := by
  obtain ⟨target, ec, Rinv, o, hec, hn⟩ := side_cart 1 1 (by norm_num) (by norm_num) 1
  refine ⟨_, _, _, hn, ?_, ?_, ?_, ?_, lt_two_one, ?_, rfl⟩
  · exact real_inRange (n := 1) (by norm_num [sideParams, real_fabs, abs_of_pos])
      (by norm_num [sideParams, real_fabs, abs_of_pos]) (by norm_num)
  · simp only [sideParams]; norm_num
  · simp only [sideParams]; norm_num
  · refine ⟨2, ?_, le_rfl⟩
    have : (fabs ((sideParams 1 1 0 0).ec_horizon /. (sideParams 1 1 0 0).ec_dt) : ℝ) = ((2 : Int) : ℝ) := by
      norm_num [sideParams, real_fabs]
    rw [this, real_trunc, realTrunc_intCast]
  · have hloc : ∀ s : Expl ℝ, s.localize (some (lowTf 2 2)) = { s with
        pose := ⟨2, 2, 0⟩, ec := s.ec.addStateMemory ⟨2, 2, 0⟩, pose_known := true } := by
      intro s
      simp only [Expl.localize, lowTf, midTf_yaw]
    have hadv : ∀ s : Expl ℝ, s.follow_dwa = false → s.advanceDwa = s := by
      intro s hs
      unfold Expl.advanceDwa
      rw [if_neg (by rw [hs]; simp)]
    have hspeed : ∀ u : V3 ℝ, (-1 ≤ u.c0 ∧ u.c0 ≤ 1) → (-1 ≤ u.c1 ∧ u.c1 ≤ 1) → speed u ≤ 2 := by
      rintro u ⟨a, b⟩ ⟨c, d⟩
      unfold speed
      rw [Real.sqrt_le_left (by norm_num)]
      nlinarith
    have hroom : Room (mapOf sideMsg) ⟨2, 2, 0⟩ 2 := by
      simp only [Room, mapOf, sideMsg]
      norm_num
    have hb : EcBuilt cartModel nearDetector 1 2 1 1 2 10 0 Rinv ⟨-1, 0, -1⟩ ⟨1, 0, 1⟩
        ((ec.setTarget target).addStateMemory ⟨2, 2, 0⟩) :=
      ⟨ec, hec, .addStateMemory _ (.setTarget _ .start)⟩
    have inv := hb.inv
    unfold Served
    rw [hloc, hadv _ rfl]
    intro _ _ _
    refine ⟨fun _ => ⟨C129_exact_target ?_ ?_ ?_ ?_, ?_, by simp⟩, fun r o hr => ?_⟩
    · show 0 < ((ec.setTarget target).addStateMemory ⟨2, 2, 0⟩).resolution
      rw [inv.resolution_eq]; norm_num
    · show (mapOf sideMsg).xmin ≤ (mapOf sideMsg).xmax
      norm_num [mapOf, sideMsg]
    · show (mapOf sideMsg).ymin ≤ (mapOf sideMsg).ymax
      norm_num [mapOf, sideMsg]
    · show TargetGridFits (mapOf sideMsg) ((ec.setTarget target).addStateMemory ⟨2, 2, 0⟩).resolution
      rw [inv.resolution_eq]; exact side_fits
    · show 0 = ((ec.setTarget target).addStateMemory ⟨2, 2, 0⟩).buffer.batch_size
      obtain ⟨hist, hh⟩ := inv.buffer_eq
      rw [hh, bufferAfter_batch]
    · rcases Expl.replan_ok hr with ⟨h, -⟩ | ⟨-, ec', u, p, hctl, -, rfl, -⟩
      · exact absurd h (show ¬ (false = true) by decide)
      · have hctl : ((ec.setTarget target).addStateMemory ⟨2, 2, 0⟩).control (mapOf sideMsg) ⟨2, 2, 0⟩ [] =
          .ok (ec', u) := hctl
        have hlim := (C59_not_outside hb hctl).1
        simp only [NotOutside, real_lt_false] at hlim
        have inv' := (hb.control hctl).inv
        have e1 : ec'.dt = 1 := inv'.dt_eq
        have e2 : ec'.horizon = 2 := inv'.horizon_eq
        refine C129_exact_avoid (D := 2) side_sensible side_sensible (steps_side 1 1 (by norm_num) (by norm_num)) ?_ ?_ ?_ ?_
          ?_ ?_ ?_ ?_ ?_ ?_ hroom
        · exact one_pos
        · exact zero_le_one
        · show (0:ℝ) < 0.1
          norm_num
        · show (0:ℝ) ≤ 0.1
          norm_num
        · show (0.1:ℝ) < 2 ^ 32 * 0.1
          norm_num
        · show 0 < ec'.dt
          rw [e1]; norm_num
        · show ec'.dt ≤ ec'.horizon
          rw [e1, e2]; norm_num
        · show (1:ℝ) ≤ (⌊ec'.horizon / ec'.dt⌋₊ + 1 / 2) * ec'.dt
          rw [e1, e2, show ⌊(2:ℝ) / 1⌋₊ = 2 by rw [Nat.floor_eq_iff (by norm_num)]; norm_num]
          norm_num
        · show speed u * 0.1 ≤ 2
          have := hspeed u ⟨hlim.1.1, hlim.1.2⟩ ⟨by linarith [hlim.2.1.1], by linarith [hlim.2.1.2]⟩
          linarith
        · intro v hv
          show speed v * 1 ≤ 2
          have hz : (V3.zero : V3 ℝ) = ⟨0, 0, 0⟩ := by simp [V3.zero]
          have hv : IsSample (sideDwa 1 (UInt32.ofNat 1) 0 0 0) ⟨0, 0, 0⟩ v := by
            rw [← hz]; exact hv
          have hrec : RecoverableAll (sideParams 1 0 0 0) ⟨0, 0, 0⟩ := by
            simp only [RecoverableAll, Recoverable, sideParams]
            refine ⟨?_, ?_, ?_⟩ <;> norm_num
          obtain ⟨a, b, c⟩ := hrec
          have := (C55_within_partial (sideDwa 1 (UInt32.ofNat 1) 0 0 0) ⟨0, 0, 0⟩ v ⟨a, b, c⟩ hv).1
          have := hspeed v this.1 ⟨by linarith [this.2.1.1, show (0:ℝ) ≤ v.c1 from this.2.1.1],
            by linarith [show v.c1 ≤ (0:ℝ) from this.2.1.2]⟩
          linarith

end Ergodic
