import Verif.Spec.ClosedLoop
import Verif.Props.Exploration
import Verif.Props.ExplorationLimits
import Verif.Props.Validate
import Verif.Props.Speed
import Verif.Props.Startup

/-!
# Property C89: a robot that does what it is told does not run into obstacles

Exact arithmetic.
-/

namespace Ergodic

/-- The collision check looks at the position only. -/
theorem collisionCheck_position (c : Collision ℝ) (g : GridMap ℝ) {p q : V3 ℝ} (h0 : p.c0 = q.c0)
    (h1 : p.c1 = q.c1) : c.collisionCheck g p = c.collisionCheck g q := by
  unfold Collision.collisionCheck Collision.config
  rw [h0, h1]

theorem Trace.last {F : Type} [Flt F] {s : Expl F} {es : List (Event F)} {os : List (List (Out F))}
    {e : Event F} {o : List (Out F)} {t : Expl F} (h : Trace s (es ++ [e]) (os ++ [o]) t) :
    ∃ t', Trace s es os t' ∧ t'.step e = .ok (t, o) := by
  generalize hE : es ++ [e] = E at h
  generalize hO : os ++ [o] = O at h
  cases h with
  | nil => simp at hE
  | @snoc u u' es' os' e' o' ht hs =>
    obtain ⟨rfl, h2⟩ := List.append_inj' hE rfl
    obtain ⟨rfl, h3⟩ := List.append_inj' hO rfl
    cases h2
    cases h3
    exact ⟨u, ht, hs⟩

theorem flow_rest (p : V3 ℝ) (T : ℝ) : (flow p ⟨0, 0, 0⟩ T).c0 = p.c0 ∧ (flow p ⟨0, 0, 0⟩ T).c1 = p.c1 := by
  simp [flow]

/-- An instant of a horizon is one of the simulated poses. -/
theorem instant_index {T dt horizon : ℝ} (hdt : 0 < dt) (h : Instant T dt horizon) {n : UInt32}
    (hn : numSteps horizon dt = .ok n) : ∃ k < n.toNat, T = (k + 1) * dt := by
  obtain ⟨k, hk, hT⟩ := h
  refine ⟨k, ?_, hk⟩
  have hh : (k + 1 : ℝ) ≤ horizon / dt := by
    rw [le_div_iff₀ hdt]
    linarith
  rw [numSteps, real_div, real_fabs] at hn
  have h1 := castU32_real_eq_ok hn
  have hpos : (0:ℝ) ≤ horizon / dt := le_trans (by positivity) hh
  rw [realTrunc_of_nonneg (abs_nonneg _), abs_of_nonneg hpos] at h1
  have h2 : ((k + 1 : ℕ) : ℤ) ≤ ⌊horizon / dt⌋ := by
    rw [Int.le_floor]
    push_cast
    exact hh
  rw [h1] at h2
  omega

variable {ec : ErgodicControl ℝ} {collision : Collision ℝ} {dwa : DynamicWindow ℝ} {target : Target ℝ}
  {frame : String} {val_dt val_horizon : ℝ} {es : List (Event ℝ)} {os : List (List (Out ℝ))} {s t : Expl ℝ}
  {e : Event ℝ} {o : List (Out ℝ)}

/-- C89 for one period: where a published twist takes the robot by the next iteration is free in the
map known when it was published, unless the twist is zero. -/
theorem C89_period
    (h : Trace (Expl.start ec collision dwa target frame val_dt val_horizon).1 es os s)
    (hs : s.step e = .ok (t, o)) (hcol : dwa.collision = collision)
    (hsteps : numSteps dwa.horizon dwa.dt = .ok dwa.steps) (hv : 0 < val_dt) (hd : 0 < dwa.dt) {T : ℝ}
    (hTv : Instant T val_dt val_horizon) (hTd : Instant T dwa.dt dwa.horizon) (u : V3 ℝ) (hu : u ∈ twists o)
    (hw : Measurable u) (m : OccupancyGrid ℝ) (p : V3 ℝ) (hm : (maps es).getLast? = some m)
    (hp : (poses (es ++ [e])).getLast? = some p) (q : V3 ℝ) (hq : Moved T p [u] q) :
    collision.collisionCheck (mapOf m) q = .ok false ∨ q.c0 = p.c0 ∧ q.c1 = p.c1 := by
  obtain ⟨q0, q1, -⟩ := hq.2 u (by simp)
  have reg : ∀ dt, 0 < dt → RegularTwist u dt := fun dt hdt => by
    rcases hw with hw | hw
    · exact .inl hw
    · exact .inr ⟨hw, hdt.ne'⟩
  rcases C68_safe h hs u hu m p hm hp with ⟨n, hn, hk⟩ | ⟨-, hf⟩ | rfl
  · left
    obtain ⟨k, hkn, rfl⟩ := instant_index hv hTv hn
    obtain ⟨a0, a1, -⟩ := C20_poses_are_exact u val_dt (reg _ hv) p k
    rw [collisionCheck_position collision (mapOf m) (q0.trans a0.symm) (q1.trans a1.symm)]
    exact hk k hkn
  · left
    obtain ⟨k, hkn, rfl⟩ := instant_index hd hTd hsteps
    obtain ⟨a0, a1, -⟩ := C20_poses_are_exact u dwa.dt (reg _ hd) p k
    rw [collisionCheck_position collision (mapOf m) (q0.trans a0.symm) (q1.trans a1.symm), ← hcol]
    exact hf k hkn
  · right
    have h0 : (lit 0 0 : ℝ) = 0 := by simp
    rw [h0] at q0 q1
    rw [q0, q1]
    exact flow_rest p T

theorem poses_snoc (es : List (Event ℝ)) (e : Event ℝ) : poses (es ++ [e]) = poses es ++ e.pose?.toList := by
  simp only [poses, List.filterMap_append]
  cases h : e.pose? <;> simp [h]

theorem maps_snoc (es : List (Event ℝ)) (e : Event ℝ) : maps (es ++ [e]) = maps es ++ e.map?.toList := by
  simp only [maps, List.filterMap_append]
  cases h : e.map? <;> simp [h]

theorem pose_none_of_not_tick {e : Event ℝ} (h : e.isTick = false) : e.pose? = none := by
  cases e <;> simp_all [Event.isTick, Event.pose?]

theorem next_free
    (h : Trace (Expl.start ec collision dwa target frame val_dt val_horizon).1 es os s)
    (hs : s.step e = .ok (t, o)) (hcol : dwa.collision = collision)
    (hsteps : numSteps dwa.horizon dwa.dt = .ok dwa.steps) (hv : 0 < val_dt) (hd : 0 < dwa.dt) {T : ℝ}
    (hTv : Instant T val_dt val_horizon) (hTd : Instant T dwa.dt dwa.horizon) (m : OccupancyGrid ℝ)
    (hmaps : ∀ m' ∈ maps es, m' = m) (hw : ∀ u ∈ twists o, Measurable u) {p : V3 ℝ}
    (hp : (poses (es ++ [e])).getLast? = some p) (hfree : collision.collisionCheck (mapOf m) p = .ok false)
    (q : V3 ℝ) (hq : Moved T p (twists o) q) : collision.collisionCheck (mapOf m) q = .ok false := by
  have h1 := C67_one_per_iteration h hs
  split at h1
  · rename_i hc
    obtain ⟨u, hu⟩ := List.length_eq_one_iff.mp h1
    obtain ⟨m', hm'⟩ : ∃ m', (maps es).getLast? = some m' := by
      cases hl : (maps es).getLast? with
      | none => exact absurd (List.getLast?_eq_none_iff.mp hl) hc.2.1
      | some m' => exact ⟨m', rfl⟩
    have := hmaps m' (List.mem_of_getLast? hm')
    subst this
    rw [hu] at hq
    rcases C89_period h hs hcol hsteps hv hd hTv hTd u (by rw [hu]; simp) (hw u (by rw [hu]; simp)) m' p hm'
      hp q hq with hf | ⟨h0, h1⟩
    · exact hf
    · rw [collisionCheck_position collision _ h0 h1]
      exact hfree
  · obtain ⟨h0, h1, -⟩ := hq.1 (List.length_eq_zero_iff.mp h1)
    rw [collisionCheck_position collision _ h0 h1]
    exact hfree

theorem driven_safe (hcol : dwa.collision = collision)
    (hsteps : numSteps dwa.horizon dwa.dt = .ok dwa.steps) (hv : 0 < val_dt) (hd : 0 < dwa.dt) {T : ℝ}
    (hTv : Instant T val_dt val_horizon) (hTd : Instant T dwa.dt dwa.horizon) (m : OccupancyGrid ℝ)
    {l : Option (V3 ℝ × List (V3 ℝ))} (hdr : Driven T es os l) :
    ∀ t, Trace (Expl.start ec collision dwa target frame val_dt val_horizon).1 es os t →
    (∀ m' ∈ maps es, m' = m) → (∀ o ∈ os, ∀ u ∈ twists o, Measurable u) →
    (∀ p, (poses es).head? = some p → collision.collisionCheck (mapOf m) p = .ok false) →
    (∀ p ∈ poses es, collision.collisionCheck (mapOf m) p = .ok false) ∧
    (l = none → poses es = []) ∧
    ∀ p us, l = some (p, us) → (poses es).getLast? = some p ∧
      ∀ q, Moved T p us q → collision.collisionCheck (mapOf m) q = .ok false := by
  induction hdr with
  | nil => intro t ht _ _ _; exact ⟨by simp [poses], fun _ => rfl, by simp⟩
  | @callback es os l e o hd' he ih =>
    intro t ht hmaps hw hfirst
    obtain ⟨t', ht', hs⟩ := ht.last
    have hp : poses (es ++ [e]) = poses es := by rw [poses_snoc, pose_none_of_not_tick he]; simp
    rw [hp] at hfirst ⊢
    exact ih t' ht' (fun m' hm' => hmaps m' (by rw [maps_snoc]; simp [hm']))
      (fun o ho => hw o (by simp [ho])) hfirst
  | @first es os p e o hd' he ih =>
    intro t ht hmaps hw hfirst
    obtain ⟨t', ht', hs⟩ := ht.last
    have hp0 : poses es = [] := (ih t' ht' (fun m' hm' => hmaps m' (by rw [maps_snoc]; simp [hm']))
      (fun o ho => hw o (by simp [ho])) (by
        intro p' hp'
        apply hfirst
        rw [poses_snoc, List.head?_append, hp']
        rfl)).2.1 rfl
    have hp : poses (es ++ [e]) = [p] := by rw [poses_snoc, hp0, he]; rfl
    have hfree : collision.collisionCheck (mapOf m) p = .ok false := hfirst p (by rw [hp]; rfl)
    refine ⟨by rw [hp]; simpa using hfree, by simp, ?_⟩
    rintro p' us hl
    cases hl
    exact ⟨by rw [hp]; rfl, next_free ht' hs hcol hsteps hv hd hTv hTd m
      (fun m' hm' => hmaps m' (by rw [maps_snoc]; simp [hm'])) (hw o (by simp)) (by rw [hp]; rfl) hfree⟩
  | @next es os p us q e o hd' he hmv ih =>
    intro t ht hmaps hw hfirst
    obtain ⟨t', ht', hs⟩ := ht.last
    obtain ⟨h1, -, h3⟩ := ih t' ht' (fun m' hm' => hmaps m' (by rw [maps_snoc]; simp [hm']))
      (fun o ho => hw o (by simp [ho])) (by
        intro p' hp'
        apply hfirst
        rw [poses_snoc, List.head?_append, hp']
        rfl)
    have hp : poses (es ++ [e]) = poses es ++ [q] := by rw [poses_snoc, he]; rfl
    have hfree : collision.collisionCheck (mapOf m) q = .ok false := (h3 p us rfl).2 q hmv
    refine ⟨?_, by simp, ?_⟩
    · intro x hx
      rw [hp, List.mem_append, List.mem_singleton] at hx
      rcases hx with hx | rfl
      · exact h1 x hx
      · exact hfree
    · rintro p' us' hl
      cases hl
      exact ⟨by rw [hp]; simp, next_free ht' hs hcol hsteps hv hd hTv hTd m
        (fun m' hm' => hmaps m' (by rw [maps_snoc]; simp [hm'])) (hw o (by simp)) (by rw [hp]; simp) hfree⟩

/-- C89 for the nodes: on a map that does not change, a robot that starts free and carries out every
published twist exactly for one loop period is free at every iteration, provided the period is one of
the instants checked by the validation and by the dynamic window. -/
theorem C89_closed_loop_partial {p : Params ℝ} {n : Node ℝ} {o0 : List (Out ℝ)}
    (hn : Node.cart p = .ok (n, o0) ∨ Node.omni p = .ok (n, o0)) (hv : 0 < p.val_dt) (hd : 0 < p.dwa_dt)
    {T : ℝ} (hTv : Instant T p.val_dt p.val_horizon) (hTd : Instant T p.dwa_dt p.dwa_horizon)
    (ht : Trace n.expl es os t) {l : Option (V3 ℝ × List (V3 ℝ))} (hdr : Driven T es os l)
    (m : OccupancyGrid ℝ) (hmaps : ∀ m' ∈ maps es, m' = m)
    (hw : ∀ o ∈ os, ∀ u ∈ twists o, Measurable u)
    (hfirst : ∀ x, (poses es).head? = some x → n.expl.collision.collisionCheck (mapOf m) x = .ok false) :
    ∀ x ∈ poses es, n.expl.collision.collisionCheck (mapOf m) x = .ok false := by
  have main : ∀ (ec : ErgodicControl ℝ) (collision : Collision ℝ) (dwa : DynamicWindow ℝ) (target : Target ℝ),
      (n.expl, o0) = Expl.start ec collision dwa target p.map_frame_id p.val_dt p.val_horizon →
      dwa.collision = collision → numSteps dwa.horizon dwa.dt = .ok dwa.steps → dwa.dt = p.dwa_dt →
      dwa.horizon = p.dwa_horizon →
      ∀ x ∈ poses es, n.expl.collision.collisionCheck (mapOf m) x = .ok false := by
    intro ec collision dwa target he hc hst e1 e2
    have h1 : n.expl = (Expl.start ec collision dwa target p.map_frame_id p.val_dt p.val_horizon).1 := by
      rw [← he]
    have h2 : n.expl.collision = collision := by rw [h1]; rfl
    rw [h2] at hfirst ⊢
    rw [h1] at ht
    rw [← e1] at hd hTd
    rw [← e2] at hTd
    exact (driven_safe hc hst hv hd hTv hTd m hdr t ht hmaps hw hfirst).1
  have win : ∀ {c : Collision ℝ} {ay ylo yhi : ℝ} {ny : UInt32} {dwa : DynamicWindow ℝ},
      DynamicWindow.new c p.dwa_dt p.dwa_horizon p.acc_dt p.acc_lim_x ay p.acc_lim_th
        p.max_vel_x p.min_vel_x yhi ylo p.max_rot_vel p.min_rot_vel p.vx_samples ny p.vth_samples = .ok dwa →
      dwa.collision = c ∧ numSteps dwa.horizon dwa.dt = .ok dwa.steps ∧ dwa.dt = p.dwa_dt ∧
      dwa.horizon = p.dwa_horizon := by
    intro c ay ylo yhi ny dwa h
    simp only [DynamicWindow.new, Res.bind_eq_ok, Res.ok.injEq] at h
    obtain ⟨k, hk, rfl⟩ := h
    exact ⟨rfl, hk, rfl, rfl⟩
  rcases hn with hn | hn
  · obtain ⟨_, _, target, collision, ec, dwa, -, hdw, he, -⟩ := cart_ok hn
    obtain ⟨a, b, c, d⟩ := win hdw
    exact main ec collision dwa target he a b c d
  · obtain ⟨_, _, _, target, collision, ec, dwa, -, hdw, he, -⟩ := omni_ok hn
    obtain ⟨a, b, c, d⟩ := win hdw
    exact main ec collision dwa target he a b c d

/-- C89 between the instants: whenever a motion was checked every `dt` up to `n dt`, the robot is at
all times up to then within half a step at its linear speed of the start or of a checked pose. -/
theorem C89_between (c : Collision ℝ) (g : GridMap ℝ) (p u : V3 ℝ) {dt : ℝ} (hdt : 0 < dt)
    (hw : Measurable u) (n : ℕ)
    (hfree : ∀ k < n, c.collisionCheck g (poseAfter u dt p (k + 1)) = .ok false) {τ : ℝ} (h0 : 0 ≤ τ)
    (h1 : τ ≤ n * dt) :
    ∃ q : V3 ℝ, (q = p ∨ c.collisionCheck g q = .ok false) ∧ planar (flow p u τ) q ≤ speed u * (dt / 2) := by
  have reg : RegularTwist u dt := by
    rcases hw with hw | hw
    · exact .inl hw
    · exact .inr ⟨hw, hdt.ne'⟩
  obtain ⟨k, hk, hd⟩ : ∃ k : ℕ, k ≤ n ∧ |τ - k * dt| ≤ dt / 2 := by
    refine ⟨⌊τ / dt + 1 / 2⌋₊, ?_, ?_⟩
    · rw [← Nat.lt_succ_iff, Nat.floor_lt (by positivity)]
      have : τ / dt ≤ n := by rwa [div_le_iff₀ hdt]
      push_cast
      linarith
    · have e : τ = τ / dt * dt := by field_simp
      have a := Nat.floor_le (show 0 ≤ τ / dt + 1 / 2 by positivity)
      have b := Nat.lt_floor_add_one (τ / dt + 1 / 2)
      generalize (⌊τ / dt + 1 / 2⌋₊ : ℝ) = f at a b ⊢
      rw [abs_le]
      constructor <;> nlinarith
  have hflow : ∀ q : V3 ℝ, q.c0 = (flow p u (k * dt)).c0 → q.c1 = (flow p u (k * dt)).c1 →
      planar (flow p u τ) q ≤ speed u * (dt / 2) := by
    intro q q0 q1
    have h2 := C76_flow (flow p u (k * dt)) u (τ - k * dt)
    rw [← flow_add, add_sub_cancel] at h2
    have h3 : planar (flow p u τ) q = planar (flow p u τ) (flow p u (k * dt)) := by
      unfold planar
      rw [q0, q1]
    rw [h3]
    exact h2.trans (mul_le_mul_of_nonneg_left hd (speed_nonneg u))
  cases k with
  | zero => exact ⟨p, .inl rfl, hflow p (by simp [flow_zero]) (by simp [flow_zero])⟩
  | succ k =>
    obtain ⟨a0, a1, -⟩ := C20_poses_are_exact u dt reg p k
    exact ⟨_, .inr (hfree k (by omega)), hflow _ (by push_cast; exact a0) (by push_cast; exact a1)⟩

/-! ## A history that meets the hypotheses -/

theorem Trace.det {F : Type} [Flt F] {s : Expl F} {es : List (Event F)} {os os' : List (List (Out F))}
    {t t' : Expl F} (h : Trace s es os t) (h' : Trace s es os' t') : os = os' ∧ t = t' := by
  induction h generalizing os' t' with
  | nil =>
    generalize hE : ([] : List (Event F)) = E at h'
    cases h' with
    | nil => exact ⟨rfl, rfl⟩
    | snoc _ _ => simp at hE
  | @snoc u u' es os e o ht hs ih =>
    generalize hE : es ++ [e] = E at h'
    cases h' with
    | nil => simp at hE
    | @snoc w w' es' os' e' o' ht' hs' =>
      obtain ⟨rfl, h2⟩ := List.append_inj' hE rfl
      cases h2
      obtain ⟨rfl, rfl⟩ := ih ht'
      rw [hs, Res.ok.injEq, Prod.mk.injEq] at hs'
      obtain ⟨rfl, rfl⟩ := hs'
      exact ⟨rfl, rfl⟩

theorem Trace.unsnoc {F : Type} [Flt F] {s : Expl F} {es : List (Event F)} {os : List (List (Out F))}
    {e : Event F} {t : Expl F} (h : Trace s (es ++ [e]) os t) :
    ∃ os' o t', os = os' ++ [o] ∧ Trace s es os' t' ∧ t'.step e = .ok (t, o) := by
  generalize hE : es ++ [e] = E at h
  cases h with
  | nil => simp at hE
  | @snoc u u' es' os' e' o' ht hs =>
    obtain ⟨rfl, h2⟩ := List.append_inj' hE rfl
    cases h2
    exact ⟨os', o', u, rfl, ht, hs⟩

/-- Both look-aheads are one step of a tenth of a second; the robot only drives straight. -/
noncomputable def driveParams : Params ℝ :=
  { sideParams 0.1 0 0 0 with dwa_dt := 0.1, min_rot_vel := 0, max_rot_vel := 0 }

theorem drive_sane : Sane driveParams := by
  constructor <;> simp only [driveParams, sideParams] <;> norm_num

theorem drive_collision : Collision.new driveParams.boundary_radius driveParams.search_radius
    driveParams.obstacle_threshold driveParams.occupied_threshold = .ok nearDetector := side_collision

theorem drive_starts : ∃ n o, Node.omni driveParams = .ok (n, o) := by
  refine (C78_starts_omni _ drive_sane).mpr ⟨by simp [driveParams, sideParams], ?_, ?_, ?_, ?_⟩
  · intro t ht
    simp only [driveParams, sideParams, List.mem_singleton] at ht
    subst ht
    norm_num
  all_goals simp only [driveParams, sideParams]; norm_num

theorem drive_within {u : V3 ℝ} (h : WithinParams driveParams u) : |u.c0| ≤ 1 ∧ u.c1 = 0 ∧ u.c2 = 0 := by
  obtain ⟨⟨a, b⟩, ⟨c, d⟩, e, f⟩ := h
  simp only [driveParams, sideParams] at a b c d e f
  exact ⟨abs_le.mpr ⟨a, b⟩, le_antisymm d c, le_antisymm f e⟩

/-- a robot heading along the x axis -/
noncomputable def alongTf (x : ℝ) : TransformMsg ℝ := ⟨x, 2.5, 0, 0, 0, 1⟩

theorem along_pose (x : ℝ) (draws : List Nat) :
    (Event.tick (some (alongTf x)) draws).pose? = some ⟨x, 2.5, 0⟩ := by
  show some (⟨x, 2.5, getYaw (0:ℝ) 0 0 1⟩ : V3 ℝ) = _
  rw [midTf_yaw]

theorem drive_run {n : Node ℝ} {o : List (Out ℝ)} (hn : Node.omni driveParams = .ok (n, o)) (xs : List ℝ)
    (hxs : ∀ x ∈ xs, 1 ≤ x ∧ x ≤ 2) :
    ∃ os t, Trace n.expl (.map sideMsg :: xs.map fun x => .tick (some (alongTf x)) []) os t ∧
      ∀ o ∈ os, ∀ u ∈ twists o, WithinParams driveParams u := by
  have split : ∀ (pre post : List (Event ℝ)) (tf : Option (TransformMsg ℝ)) (draws : List Nat),
      (.map sideMsg :: xs.map fun x => Event.tick (some (alongTf x)) []) = pre ++ .tick tf draws :: post →
      draws = [] ∧ maps pre = [sideMsg] ∧ ∃ x ∈ xs, tf = some (alongTf x) := by
    intro pre post tf draws h
    cases pre with
    | nil => simp at h
    | cons a pre =>
      simp only [List.cons_append, List.cons.injEq] at h
      obtain ⟨rfl, h⟩ := h
      have hm : Event.tick tf draws ∈ xs.map fun x => Event.tick (some (alongTf x)) [] := by rw [h]; simp
      have hpre : ∀ e ∈ pre, e ∈ xs.map fun x => Event.tick (some (alongTf x)) [] := by
        intro e he; rw [h]; simp [he]
      obtain ⟨x, hx, hxe⟩ := List.mem_map.mp hm
      simp only [Event.tick.injEq] at hxe
      refine ⟨hxe.2.symm, ?_, x, hx, hxe.1.symm⟩
      have : maps pre = [] := by
        unfold maps
        rw [List.filterMap_eq_nil_iff]
        intro e he
        obtain ⟨y, -, rfl⟩ := List.mem_map.mp (hpre e he)
        rfl
      simp only [maps, List.filterMap_cons, Event.map?] at this ⊢
      rw [this]
  have hrec : RecoverableAll driveParams ⟨0, 0, 0⟩ := by
    simp only [RecoverableAll, Recoverable, driveParams, sideParams]
    norm_num
  have hodo : ∀ v ∈ odoms (.map sideMsg :: xs.map fun x => Event.tick (some (alongTf x)) []),
      RecoverableAll driveParams v := by
    intro v hv
    simp only [odoms, List.mem_filterMap, List.mem_cons, List.mem_map] at hv
    obtain ⟨e, rfl | ⟨x, -, rfl⟩, he⟩ := hv <;> simp [Event.odom?] at he
  have hrun := C77_omni_partial driveParams n o nearDetector
    (.map sideMsg :: xs.map fun x => .tick (some (alongTf x)) []) drive_sane drive_collision hrec hodo hn 1
    (fun u hu => by
      obtain ⟨a, b, -⟩ := drive_within hu
      unfold speed
      rw [b]
      simpa [Real.sqrt_sq_eq_abs] using a)
    (by
      intro pre tf draws post h
      obtain ⟨rfl, hm, -⟩ := split _ _ _ _ h
      refine ⟨rfl, by simp, fun m hm' => ?_⟩
      rw [hm, List.getLast?_singleton, Option.some.injEq] at hm'
      subst hm'
      exact ⟨side_sensible, side_fits⟩)
    (by
      intro pre tf draws post m x h hm' hx
      obtain ⟨rfl, hm, y, hy, rfl⟩ := split _ _ _ _ h
      rw [hm, List.getLast?_singleton, Option.some.injEq] at hm'
      subst hm'
      rw [poses_snoc, along_pose] at hx
      simp only [Option.toList_some, List.getLast?_append, List.getLast?_singleton, Option.some_or,
        Option.some.injEq] at hx
      subst hx
      obtain ⟨h1, h2⟩ := hxs y hy
      simp only [Room, mapOf, sideMsg, driveParams, sideParams]
      norm_num
      constructor <;> linarith)
  obtain ⟨n', out, hrun⟩ := hrun
  have hlim : LimitsOk driveParams := by
    simp [LimitsOk, WithinParams, driveParams, sideParams]
  have hin := C70_omni_partial driveParams n n' o out _ hlim hrec hodo hn hrun
  obtain ⟨_, _, _, _, _, _, _, -, -, -, hup⟩ := omni_ok hn
  have hup' : n.up = true := by
    rw [hup]
    have : Flt.lt driveParams.ec_horizon driveParams.dwa_horizon = false := by
      rw [real_lt_false]
      simp only [driveParams, sideParams]
      norm_num
    rw [this]
    rfl
  have h1 := (node_run_up n n' hup' _ out hrun).1
  rw [run_iff_trace] at h1
  obtain ⟨os, ht, rfl⟩ := h1
  refine ⟨os, _, ht, fun o' ho' u hu => hin u ?_⟩
  simp only [twists, List.mem_filterMap, List.mem_flatten] at hu ⊢
  obtain ⟨x, hx, hux⟩ := hu
  exact ⟨x, ⟨o', ho', hx⟩, hux⟩

/-- The hypotheses of `C89_closed_loop_partial` are met by a history with a map and two iterations, of which
the first publishes a twist and the second finds the robot where that twist took it. -/
example : ∃ (n : Node ℝ) (o0 : List (Out ℝ)) (es : List (Event ℝ)) (os : List (List (Out ℝ))) (t : Expl ℝ)
    (l : Option (V3 ℝ × List (V3 ℝ))), Node.omni driveParams = .ok (n, o0) ∧
    Instant 0.1 driveParams.val_dt driveParams.val_horizon ∧
    Instant 0.1 driveParams.dwa_dt driveParams.dwa_horizon ∧ Trace n.expl es os t ∧ Driven 0.1 es os l ∧
    (∀ m' ∈ maps es, m' = sideMsg) ∧ (∀ o ∈ os, ∀ u ∈ twists o, Measurable u) ∧
    (∀ x, (poses es).head? = some x → n.expl.collision.collisionCheck (mapOf sideMsg) x = .ok false) ∧
    (poses es).length = 2 ∧ twists os.flatten ≠ [] := by
  obtain ⟨n, o0, hn⟩ := drive_starts
  obtain ⟨os1, t1, ht1, hin1⟩ := drive_run hn [1.5] (by intro x hx; simp at hx; subst hx; norm_num)
  obtain ⟨_, _, _, target, collision, ec, dwa, -, -, he, -⟩ := omni_ok hn
  have hst : n.expl = (Expl.start ec collision dwa target driveParams.map_frame_id driveParams.val_dt
      driveParams.val_horizon).1 := by rw [← he]
  have hcoll : n.expl.collision = nearDetector := by
    obtain ⟨_, _, _, _, collision, _, _, ⟨-, -, -, -, hc⟩, -, -, he, -⟩ := omni_parts hn
    rw [drive_collision, Res.ok.injEq] at hc
    have h1 := congrArg (fun r => r.1.collision) he
    rw [hc]
    exact h1
  -- the first iteration
  obtain ⟨osa, o1, ta, rfl, hta, hs1⟩ := Trace.unsnoc (es := [.map sideMsg])
    (e := .tick (some (alongTf 1.5)) []) ht1
  obtain ⟨osb, oa, tb, rfl, htb, hsa⟩ := Trace.unsnoc (es := []) (e := .map sideMsg) hta
  have hosb : osb = [] := (Trace.det htb .nil).1
  subst hosb
  have hone : (twists o1).length = 1 := by
    rw [hst] at hta
    rw [C67_one_per_iteration hta hs1, if_pos]
    refine ⟨rfl, by simp [maps, Event.map?], ?_⟩
    rw [poses_snoc, along_pose]
    simp
  obtain ⟨u, hu⟩ := List.length_eq_one_iff.mp hone
  obtain ⟨hu0, hu1, hu2⟩ := drive_within (hin1 o1 (by simp) u (by rw [hu]; simp))
  have hu0 := abs_le.mp hu0
  -- the second
  obtain ⟨os2, t2, ht2, hin2⟩ := drive_run hn [1.5, 1.5 + 0.1 * u.c0] (by
    intro x hx
    simp only [List.mem_cons, List.not_mem_nil, or_false] at hx
    rcases hx with rfl | rfl <;> norm_num
    constructor <;> linarith)
  obtain ⟨osc, o2, tc, rfl, htc, hs2⟩ := Trace.unsnoc
    (es := [.map sideMsg] ++ [.tick (some (alongTf 1.5)) []])
    (e := .tick (some (alongTf (1.5 + 0.1 * u.c0))) []) ht2
  obtain ⟨rfl, -⟩ := Trace.det htc ht1
  have hfirst : Driven 0.1 ([] ++ [.map sideMsg] ++ [.tick (some (alongTf 1.5)) []]) ([] ++ [oa] ++ [o1])
      (some (⟨1.5, 2.5, 0⟩, twists o1)) :=
    .first (.callback .nil rfl) (along_pose _ _)
  refine ⟨n, o0, _, _, t2, _, hn, ⟨0, ?_, ?_⟩, ⟨0, ?_, ?_⟩, ht2, .next hfirst (along_pose _ _) ?_, ?_, ?_, ?_,
    ?_, ?_⟩
  · simp only [driveParams, sideParams]; norm_num
  · simp only [driveParams, sideParams]; norm_num
  · simp only [driveParams, sideParams]; norm_num
  · simp only [driveParams, sideParams]; norm_num
  · rw [hu]
    refine ⟨by simp, ?_⟩
    intro v hv
    rw [List.mem_singleton] at hv
    subst hv
    simp only [flow, hu1, hu2, if_true]
    refine ⟨by simp; ring, by simp, 0, by simp⟩
  · simp [maps, Event.map?]
  · intro o ho v hv
    exact .inl (drive_within (hin2 o ho v hv)).2.2
  · intro x hx
    have hp : (poses (.map sideMsg :: [1.5, 1.5 + 0.1 * u.c0].map fun x =>
        Event.tick (some (alongTf x)) [])).head? = some ⟨1.5, 2.5, 0⟩ := along_pose 1.5 []
    rw [hp, Option.some.injEq] at hx
    rw [hcoll, ← hx]
    exact top_clear 0
  · rfl
  · intro h
    have : u ∈ twists ([oa] ++ [o1] ++ [o2]).flatten := by
      simp only [List.flatten_append, List.flatten_singleton, twists_append, List.mem_append]
      left; right
      rw [hu]; simp
    simp only [List.nil_append] at h
    rw [h] at this
    simp at this

end Ergodic
