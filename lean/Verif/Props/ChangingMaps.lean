import Verif.Spec.ChangingMaps
import Verif.Props.ClosedLoop
import Verif.Props.Local

/-!
# Property C124: a robot that does what it is told is safe on maps that change

Exact arithmetic.
-/

namespace Ergodic

/-! ## Maps that grow -/

/-- A position strictly inside the first map: its cell in the grown map is the same cell, shifted. -/
theorem grown_config (c : Collision ℝ) {m m' : OccupancyGrid ℝ} (hs : Sensible c (mapOf m))
    (hs' : Sensible c (mapOf m')) (hres : m'.resolution = m.resolution) {a b : ℕ}
    (hx : m.originX = m'.originX + a * m.resolution) (hy : m.originY = m'.originY + b * m.resolution)
    (hw : m.width.toNat + a ≤ m'.width.toNat) (hh : m.height.toNat + b ≤ m'.height.toNat) (q : V3 ℝ)
    (h0 : m.originX ≤ q.c0) (h1 : q.c0 < m.originX + m.width.toNat * m.resolution) (h2 : m.originY ≤ q.c1)
    (h3 : q.c1 < m.originY + m.height.toNat * m.resolution) :
    ∃ cfg, c.config (mapOf m) q = .ok cfg ∧ InRange (mapOf m) cfg ∧
      c.config (mapOf m') q = .ok { cfg with cx := cfg.cx + a, cy := cfg.cy + b } ∧
      InRange (mapOf m') { cfg with cx := cfg.cx + a, cy := cfg.cy + b } ∧
      cfg.r_max = ⌊c.search_radius / m.resolution⌋ ∧
      |m.originX + (cfg.cx + 1 / 2) * m.resolution - q.c0| ≤ 1 / 2 * m.resolution ∧
      |m.originY + (cfg.cy + 1 / 2) * m.resolution - q.c1| ≤ 1 / 2 * m.resolution := by
  have hr : 0 < m.resolution := hs.res
  obtain ⟨n, hn0, hn1⟩ := exists_strip hr h0
  obtain ⟨k, hk0, hk1⟩ := exists_strip hr h2
  have hn : n < m.width.toNat := by
    have := nat_lt_of_strip hr hn0 h1
    exact_mod_cast this
  have hk : k < m.height.toNat := by
    have := nat_lt_of_strip hr hk0 h3
    exact_mod_cast this
  have bw : m'.width.toNat ≤ 2 ^ 30 := hs'.xsize
  have bh : m'.height.toNat ≤ 2 ^ 30 := hs'.ysize
  have grid : ∀ (M : OccupancyGrid ℝ) (n k : ℕ), M.resolution = m.resolution → n < M.width.toNat →
      k < M.height.toNat → M.width.toNat ≤ 2 ^ 30 → M.height.toNat ≤ 2 ^ 30 →
      M.originX + n * m.resolution ≤ q.c0 → q.c0 < M.originX + (n + 1) * m.resolution →
      M.originY + k * m.resolution ≤ q.c1 → q.c1 < M.originY + (k + 1) * m.resolution →
      (mapOf M).world2Grid q.c0 q.c1 = .ok (UInt32.ofNat k, UInt32.ofNat n) := by
    intro M n k hM hn hk hwM hhM a0 a1 a2 a3
    have cx := strip_cast hr (n := n) (by omega) a0 a1
    have cy := strip_cast hr (n := k) (by omega) a2 a3
    have en := ofNat_toNat (show n < 2 ^ 32 by omega)
    have ek := ofNat_toNat (show k < 2 ^ 32 by omega)
    have d1 : UInt32.ofNat n ≠ M.width := by intro h; rw [h] at en; omega
    have d2 : UInt32.ofNat k ≠ M.height := by intro h; rw [h] at ek; omega
    simp only [GridMap.world2Grid, mapOf, real_sub, real_div, hM, cx, cy, Res.ok_bind, if_neg d1, if_neg d2]
  have g1 := grid m n k rfl hn hk (by omega) (by omega) hn0 hn1 hk0 hk1
  have g2 := grid m' (n + a) (k + b) hres (by omega) (by omega) bw bh
    (by rw [hx] at hn0; push_cast; linarith) (by rw [hx] at hn1; push_cast; linarith)
    (by rw [hy] at hk0; push_cast; linarith) (by rw [hy] at hk1; push_cast; linarith)
  have en := ofNat_toNat (show n < 2 ^ 32 by omega)
  have ek := ofNat_toNat (show k < 2 ^ 32 by omega)
  have en' := ofNat_toNat (show n + a < 2 ^ 32 by omega)
  have ek' := ofNat_toNat (show k + b < 2 ^ 32 by omega)
  obtain ⟨e1, e2⟩ := config_of_cell c _ hs q _ _ g1 (by omega) (by omega)
  obtain ⟨e3, e4⟩ := config_of_cell c _ hs' q _ _ g2 (by omega) (by omega)
  have hr' : (mapOf m').resolution = (mapOf m).resolution := hres
  rw [hr', en', ek'] at e3 e4
  rw [en, ek] at e1 e2
  push_cast at e3 e4
  refine ⟨_, e1, e2, e3, e4, rfl, ?_, ?_⟩
  · rw [abs_le]
    constructor <;> push_cast <;> linarith
  · rw [abs_le]
    constructor <;> push_cast <;> linarith

theorem planar_axes {p q : V3 ℝ} {D : ℝ} (h : planar p q ≤ D) : |p.c0 - q.c0| ≤ D ∧ |p.c1 - q.c1| ≤ D := by
  unfold planar at h
  constructor
  · exact (Real.abs_le_sqrt (by nlinarith [sq_nonneg (p.c1 - q.c1)])).trans h
  · exact (Real.abs_le_sqrt (by nlinarith [sq_nonneg (p.c0 - q.c0)])).trans h

/-- C124: a map that grew by whole cells, and whose newly occupied cells are farther from the robot than
its reach, the search radius and half a cell, shows no new obstacle near. -/
theorem C124_grown (c : Collision ℝ) {m m' : OccupancyGrid ℝ} (hs : Sensible c (mapOf m))
    (hs' : Sensible c (mapOf m')) {D R : ℝ} {x : V3 ℝ} (hg : Grown c.occupied_threshold D R x m m')
    (hR : D + c.search_radius + 1 / 2 * m.resolution ≤ R) : NoNewNear c D x m m' := by
  intro q hq hfree
  obtain ⟨hres, ⟨a, b, hx, hy, hw, hh, hocc⟩, hl, hrt, hb, ha⟩ := hg
  obtain ⟨d0, d1⟩ := planar_axes hq
  have r : 0 < m.resolution := hs.res
  have d0' := abs_le.mp d0
  have d1' := abs_le.mp d1
  obtain ⟨cfg, e1, e2, e3, e4, hrm, n0, n1⟩ := grown_config c hs hs' hres hx hy hw hh q (by linarith)
    (by linarith) (by linarith) (by linarith)
  obtain ⟨v, hv, hiff⟩ := collisionCheck_iff c _ hs.wf q _ e1 e2
  obtain ⟨v', hv', hiff'⟩ := collisionCheck_iff c _ hs'.wf q _ e3 e4
  rw [hfree, Res.ok.injEq] at hv
  subst hv
  cases v' with
  | false => exact hv'
  | true =>
    exfalso
    obtain ⟨dx, dy, hvis, ho, hd⟩ := hiff'.mp rfl
    obtain ⟨bx, bY⟩ := visited_bound hvis
    dsimp only at bx bY ho hd
    have hrad : (cfg.r_max : ℝ) * m.resolution ≤ c.search_radius := by
      rw [hrm, ← le_div_iff₀ r]
      exact Int.floor_le _
    have cell : ∀ (O X Q : ℝ) (k d s : Int), |d| ≤ cfg.r_max → |O + ((k : ℝ) + 1 / 2) * m.resolution - Q| ≤ 1 / 2 * m.resolution →
        |Q - X| ≤ D → |O - s * m.resolution + (((k + s + d : Int) : ℝ) + 1 / 2) * m.resolution - X| ≤ R := by
      intro O X Q k d s h1 h2 h3
      have h1' : |(d : ℝ)| ≤ cfg.r_max := by exact_mod_cast h1
      have h4 : |(d : ℝ) * m.resolution| ≤ c.search_radius := by
        rw [abs_mul, abs_of_pos r]
        exact (mul_le_mul_of_nonneg_right h1' r.le).trans hrad
      have e : O - s * m.resolution + (((k + s + d : Int) : ℝ) + 1 / 2) * m.resolution - X =
          (O + ((k : ℝ) + 1 / 2) * m.resolution - Q) + (d : ℝ) * m.resolution + (Q - X) := by
        push_cast
        ring
      rw [e]
      refine (abs_add_le _ _).trans ?_
      have := abs_add_le (O + ((k : ℝ) + 1 / 2) * m.resolution - Q) ((d : ℝ) * m.resolution)
      linarith
    have c0 := cell m.originX x.c0 q.c0 cfg.cx dx a bx n0 d0
    have c1 := cell m.originY x.c1 q.c1 cfg.cy dy b bY n1 d1
    have o0 : m.originX - ((a : Int) : ℝ) * m.resolution = m'.originX := by rw [hx]; push_cast; ring
    have o1 : m.originY - ((b : Int) : ℝ) * m.resolution = m'.originY := by rw [hy]; push_cast; ring
    rw [o0] at c0
    rw [o1] at c1
    have := hocc _ _ ho c0 c1
    rw [show cfg.cy + (b : Int) + dy - b = cfg.cy + dy by ring,
      show cfg.cx + (a : Int) + dx - a = cfg.cx + dx by ring] at this
    have hf := hiff.mpr ⟨dx, dy, hvis, this, hd⟩
    cases hf

/-! ## The closed loop -/

variable {ec : ErgodicControl ℝ} {collision : Collision ℝ} {dwa : DynamicWindow ℝ} {target : Target ℝ}
  {frame : String} {val_dt val_horizon : ℝ} {es : List (Event ℝ)} {os : List (List (Out ℝ))} {s t : Expl ℝ}
  {e : Event ℝ} {o : List (Out ℝ)}

theorem Foreseen.prefix {c : Collision ℝ} {D : ℝ} {es es' : List (Event ℝ)} (h : Foreseen c D (es ++ es')) :
    Foreseen c D es := by
  obtain ⟨h1, h2, h3⟩ := h
  refine ⟨?_, ?_, ?_⟩
  · intro pre e post m x he
    exact h1 pre e (post ++ es') m x (by rw [he]; simp)
  · intro pre m post x he
    exact h2 pre m (post ++ es') x (by rw [he]; simp)
  · intro pre m' post m x he
    exact h3 pre m' (post ++ es') m x (by rw [he]; simp)

theorem moved_near {T D : ℝ} (hT : 0 ≤ T) (hD : 0 ≤ D) {p q : V3 ℝ} {us : List (V3 ℝ)}
    (hsp : ∀ u ∈ us, speed u * T ≤ D) (h : Moved T p us q) : planar q p ≤ D := by
  cases us with
  | nil =>
    obtain ⟨h0, h1, -⟩ := h.1 rfl
    have : planar q p = 0 := by unfold planar; rw [h0, h1]; simp
    rw [this]
    exact hD
  | cons u us =>
    obtain ⟨h0, h1, -⟩ := h.2 u (by simp)
    have e : planar q p = planar (flow p u T) p := by unfold planar; rw [h0, h1]
    have := C76_flow p u T
    rw [abs_of_nonneg hT] at this
    rw [e]
    exact this.trans (hsp u (by simp))

/-- What the published twist leads to is free on the current map. -/
theorem next_free_current
    (h : Trace (Expl.start ec collision dwa target frame val_dt val_horizon).1 es os s)
    (hs : s.step e = .ok (t, o)) (hcol : dwa.collision = collision)
    (hsteps : numSteps dwa.horizon dwa.dt = .ok dwa.steps) (hv : 0 < val_dt) (hd : 0 < dwa.dt) {T : ℝ}
    (hTv : Instant T val_dt val_horizon) (hTd : Instant T dwa.dt dwa.horizon) {m : OccupancyGrid ℝ}
    (hm : (maps es).getLast? = some m) (hw : ∀ u ∈ twists o, Measurable u) {p : V3 ℝ}
    (hp : (poses (es ++ [e])).getLast? = some p) (hfree : collision.collisionCheck (mapOf m) p = .ok false)
    (q : V3 ℝ) (hq : Moved T p (twists o) q) : collision.collisionCheck (mapOf m) q = .ok false := by
  have h1 := C67_one_per_iteration h hs
  split at h1
  · obtain ⟨u, hu⟩ := List.length_eq_one_iff.mp h1
    rw [hu] at hq
    rcases C89_period h hs hcol hsteps hv hd hTv hTd u (by rw [hu]; simp) (hw u (by rw [hu]; simp)) m p hm
      hp q hq with hf | ⟨h0, h1⟩
    · exact hf
    · rw [collisionCheck_position collision _ h0 h1]
      exact hfree
  · obtain ⟨h0, h1, -⟩ := hq.1 (List.length_eq_zero_iff.mp h1)
    rw [collisionCheck_position collision _ h0 h1]
    exact hfree

theorem map_none_of_pose {e : Event ℝ} {x : V3 ℝ} (h : e.pose? = some x) : e.map? = none := by
  cases e <;> simp_all [Event.map?, Event.pose?]

theorem driven_foreseen (hcol : dwa.collision = collision)
    (hsteps : numSteps dwa.horizon dwa.dt = .ok dwa.steps) (hv : 0 < val_dt) (hd : 0 < dwa.dt) {T D : ℝ}
    (hTv : Instant T val_dt val_horizon) (hTd : Instant T dwa.dt dwa.horizon) (hD : 0 ≤ D)
    {l : Option (V3 ℝ × List (V3 ℝ))} (hdr : Driven T es os l) :
    ∀ t, Trace (Expl.start ec collision dwa target frame val_dt val_horizon).1 es os t →
    Foreseen collision D es → (∀ o ∈ os, ∀ u ∈ twists o, Measurable u ∧ speed u * T ≤ D) →
    (∀ pre e post m x, es = pre ++ e :: post → e.pose? = some x → (maps pre).getLast? = some m →
      collision.collisionCheck (mapOf m) x = .ok false) ∧
    (l = none → poses es = []) ∧
    ∀ p us, l = some (p, us) → (poses es).getLast? = some p ∧ (∀ u ∈ us, speed u * T ≤ D) ∧
      (maps es = [] → us = []) ∧
      ∀ m, (maps es).getLast? = some m → ∀ q, Moved T p us q →
        collision.collisionCheck (mapOf m) q = .ok false := by
  have hT : 0 ≤ T := by
    obtain ⟨k, rfl, -⟩ := hTv
    positivity
  -- an iteration at `q`, where the map shows `q` free
  have iter : ∀ {es : List (Event ℝ)} {os : List (List (Out ℝ))} {e : Event ℝ} {o : List (Out ℝ)} {t' t : Expl ℝ}
      {q : V3 ℝ}, Trace (Expl.start ec collision dwa target frame val_dt val_horizon).1 es os t' →
      t'.step e = .ok (t, o) → e.pose? = some q → (∀ u ∈ twists o, Measurable u ∧ speed u * T ≤ D) →
      (∀ pre e post m x, es = pre ++ e :: post → e.pose? = some x → (maps pre).getLast? = some m →
        collision.collisionCheck (mapOf m) x = .ok false) →
      (∀ m, (maps es).getLast? = some m → collision.collisionCheck (mapOf m) q = .ok false) →
      (∀ pre e' post m x, es ++ [e] = pre ++ e' :: post → e'.pose? = some x → (maps pre).getLast? = some m →
        collision.collisionCheck (mapOf m) x = .ok false) ∧
      ∀ p us, some (q, twists o) = some (p, us) → (poses (es ++ [e])).getLast? = some p ∧
        (∀ u ∈ us, speed u * T ≤ D) ∧ (maps (es ++ [e]) = [] → us = []) ∧
        ∀ m, (maps (es ++ [e])).getLast? = some m → ∀ q, Moved T p us q →
          collision.collisionCheck (mapOf m) q = .ok false := by
    intro es os e o t' t q ht' hs he hw hold hfree
    have hp : (poses (es ++ [e])).getLast? = some q := by rw [poses_snoc, he]; simp
    have hm : maps (es ++ [e]) = maps es := by rw [maps_snoc, map_none_of_pose he]; simp
    refine ⟨?_, ?_⟩
    · intro pre e' post m x hsplit hx hmm
      rcases List.eq_nil_or_concat post with rfl | ⟨post', z, rfl⟩
      · obtain ⟨rfl, h2⟩ := List.append_inj' hsplit rfl
        cases h2
        rw [he, Option.some.injEq] at hx
        subst hx
        exact hfree m hmm
      · have : es ++ [e] = (pre ++ e' :: post') ++ [z] := by rw [hsplit]; simp
        obtain ⟨rfl, -⟩ := List.append_inj' this rfl
        exact hold pre e' post' m x rfl hx hmm
    · rintro p us hl
      cases hl
      refine ⟨hp, fun u hu => (hw u hu).2, ?_, ?_⟩
      · intro hm0
        have h1 := C67_one_per_iteration ht' hs
        rw [if_neg (by rw [← hm]; tauto)] at h1
        exact List.length_eq_zero_iff.mp h1
      · intro m hmm
        rw [hm] at hmm
        exact next_free_current ht' hs hcol hsteps hv hd hTv hTd hmm (fun u hu => (hw u hu).1) hp (hfree m hmm)
  induction hdr with
  | nil => intro t ht _ _; exact ⟨by intro pre e post m x h; simp at h, fun _ => rfl, by simp⟩
  | @callback es os l e o hd' he ih =>
    intro t ht hf hw
    obtain ⟨t', ht', hs⟩ := ht.last
    have hp : poses (es ++ [e]) = poses es := by rw [poses_snoc, pose_none_of_not_tick he]; simp
    obtain ⟨i1, i2, i3⟩ := ih t' ht' hf.prefix (fun o ho => hw o (by simp [ho]))
    rw [hp]
    refine ⟨?_, i2, ?_⟩
    · intro pre e' post m x hsplit hx hmm
      rcases List.eq_nil_or_concat post with rfl | ⟨post', z, rfl⟩
      · obtain ⟨rfl, h2⟩ := List.append_inj' hsplit rfl
        cases h2
        rw [pose_none_of_not_tick he] at hx
        cases hx
      · have : es ++ [e] = (pre ++ e' :: post') ++ [z] := by rw [hsplit]; simp
        obtain ⟨rfl, -⟩ := List.append_inj' this rfl
        exact i1 pre e' post' m x rfl hx hmm
    · intro p us hl
      obtain ⟨j1, j2, j3, j4⟩ := i3 p us hl
      cases e with
      | tick tf draws => simp [Event.isTick] at he
      | odom v =>
        have hm : maps (es ++ [.odom v]) = maps es := by rw [maps_snoc]; simp [Event.map?]
        rw [hm]
        exact ⟨j1, j2, j3, j4⟩
      | map m' =>
        have hm : maps (es ++ [.map m']) = maps es ++ [m'] := by rw [maps_snoc]; simp [Event.map?]
        refine ⟨j1, j2, by rw [hm]; simp, ?_⟩
        intro m hmm q hq
        rw [hm] at hmm
        simp only [List.getLast?_append, List.getLast?_singleton, Option.some_or, Option.some.injEq] at hmm
        subst hmm
        cases hl' : (maps es).getLast? with
        | none =>
          have h0 := List.getLast?_eq_none_iff.mp hl'
          obtain ⟨a0, a1, -⟩ := hq.1 (j3 h0)
          rw [collisionCheck_position collision _ a0 a1]
          exact hf.first_map es m' [] p rfl h0 j1
        | some m0 =>
          exact hf.later es m' [] m0 p rfl hl' j1 q (moved_near hT hD j2 hq) (j4 m0 hl' q hq)
  | @first es os p e o hd' he ih =>
    intro t ht hf hw
    obtain ⟨t', ht', hs⟩ := ht.last
    obtain ⟨i1, i2, -⟩ := ih t' ht' hf.prefix (fun o ho => hw o (by simp [ho]))
    obtain ⟨k1, k2⟩ := iter ht' hs he (hw o (by simp)) i1
      (fun m hm => hf.first_pose es e [] m p rfl (i2 rfl) he hm)
    exact ⟨k1, by simp, k2⟩
  | @next es os p us q e o hd' he hmv ih =>
    intro t ht hf hw
    obtain ⟨t', ht', hs⟩ := ht.last
    obtain ⟨i1, -, i3⟩ := ih t' ht' hf.prefix (fun o ho => hw o (by simp [ho]))
    obtain ⟨-, -, -, j4⟩ := i3 p us rfl
    obtain ⟨k1, k2⟩ := iter ht' hs he (hw o (by simp)) i1 (fun m hm => j4 m hm q hmv)
    exact ⟨k1, by simp, k2⟩

/-- C124 for the nodes: on maps that change, a robot that carries out every published twist exactly for one
loop period is free, at every iteration, on the map known then, provided no map shows a new obstacle within
one period's reach of where the last iteration found the robot, and the period is one of the instants
checked by the validation and by the dynamic window. -/
theorem C124_closed_loop {p : Params ℝ} {n : Node ℝ} {o0 : List (Out ℝ)}
    (hn : Node.cart p = .ok (n, o0) ∨ Node.omni p = .ok (n, o0)) (hv : 0 < p.val_dt) (hd : 0 < p.dwa_dt)
    {T D : ℝ} (hTv : Instant T p.val_dt p.val_horizon) (hTd : Instant T p.dwa_dt p.dwa_horizon) (hD : 0 ≤ D)
    (ht : Trace n.expl es os t) {l : Option (V3 ℝ × List (V3 ℝ))} (hdr : Driven T es os l)
    (hf : Foreseen n.expl.collision D es)
    (hw : ∀ o ∈ os, ∀ u ∈ twists o, Measurable u ∧ speed u * T ≤ D) :
    ∀ pre e post m x, es = pre ++ e :: post → e.pose? = some x → (maps pre).getLast? = some m →
      n.expl.collision.collisionCheck (mapOf m) x = .ok false := by
  have main : ∀ (ec : ErgodicControl ℝ) (collision : Collision ℝ) (dwa : DynamicWindow ℝ) (target : Target ℝ),
      (n.expl, o0) = Expl.start ec collision dwa target p.map_frame_id p.val_dt p.val_horizon →
      dwa.collision = collision → numSteps dwa.horizon dwa.dt = .ok dwa.steps → dwa.dt = p.dwa_dt →
      dwa.horizon = p.dwa_horizon →
      ∀ pre e post m x, es = pre ++ e :: post → e.pose? = some x → (maps pre).getLast? = some m →
        n.expl.collision.collisionCheck (mapOf m) x = .ok false := by
    intro ec collision dwa target he hc hst e1 e2
    have h1 : n.expl = (Expl.start ec collision dwa target p.map_frame_id p.val_dt p.val_horizon).1 := by
      rw [← he]
    have h2 : n.expl.collision = collision := by rw [h1]; rfl
    rw [h2] at hf ⊢
    rw [h1] at ht
    rw [← e1] at hd hTd
    rw [← e2] at hTd
    exact (driven_foreseen hc hst hv hd hTv hTd hD hdr t ht hf hw).1
  have win : ∀ {c : Collision ℝ} {ay ylo yhi : ℝ} {ny : UInt32} {dwa : DynamicWindow ℝ},
      DynamicWindow.new c p.dwa_dt p.dwa_horizon p.acc_dt p.acc_lim_x ay p.acc_lim_th
        p.max_vel_x p.min_vel_x yhi ylo p.max_rot_vel p.min_rot_vel p.vx_samples ny p.vth_samples = .ok dwa →
      dwa.collision = c ∧ numSteps dwa.horizon dwa.dt = .ok dwa.steps ∧ dwa.dt = p.dwa_dt ∧
      dwa.horizon = p.dwa_horizon := by
    intro c ay ylo yhi ny dwa h
    simp only [DynamicWindow.new, Res.bind_eq_ok, Res.ok.injEq] at h
    obtain ⟨k, hk, rfl⟩ := h
    exact ⟨rfl, hk, rfl, rfl⟩
  rcases hn with hn | hn
  · obtain ⟨_, _, target, collision, ec, dwa, -, hdw, he, -⟩ := cart_ok hn
    obtain ⟨a, b, c, d⟩ := win hdw
    exact main ec collision dwa target he a b c d
  · obtain ⟨_, _, _, target, collision, ec, dwa, -, hdw, he, -⟩ := omni_ok hn
    obtain ⟨a, b, c, d⟩ := win hdw
    exact main ec collision dwa target he a b c d

/-! ## A history that meets the hypotheses -/

theorem drive_run_of {n : Node ℝ} {o : List (Out ℝ)} (hn : Node.omni driveParams = .ok (n, o))
    (es : List (Event ℝ)) (hodo : odoms es = [])
    (hs : AllSupplied nearDetector driveParams.target_resolution driveParams.buffer_size driveParams.batch_size es)
    (hr : AlwaysRoom (1 * max driveParams.val_horizon driveParams.dwa_horizon) es) :
    ∃ os t, Trace n.expl es os t ∧ ∀ o ∈ os, ∀ u ∈ twists o, WithinParams driveParams u := by
  have hrec : RecoverableAll driveParams ⟨0, 0, 0⟩ := by
    simp only [RecoverableAll, Recoverable, driveParams, sideParams]
    norm_num
  have hodo' : ∀ v ∈ odoms es, RecoverableAll driveParams v := by rw [hodo]; simp
  obtain ⟨n', out, hrun⟩ := C77_omni_partial driveParams n o nearDetector es drive_sane drive_collision hrec hodo'
    hn 1 (fun u hu => by
      obtain ⟨a, b, -⟩ := drive_within hu
      unfold speed
      rw [b]
      simpa [Real.sqrt_sq_eq_abs] using a) hs hr
  have hlim : LimitsOk driveParams := by
    simp [LimitsOk, WithinParams, driveParams, sideParams]
  have hin := C70_omni_partial driveParams n n' o out _ hlim hrec hodo' hn hrun
  obtain ⟨_, _, _, _, _, _, _, -, -, -, hup⟩ := omni_ok hn
  have hup' : n.up = true := by
    rw [hup]
    have : Flt.lt driveParams.ec_horizon driveParams.dwa_horizon = false := by
      rw [real_lt_false]
      simp only [driveParams, sideParams]
      norm_num
    rw [this]
    rfl
  have h1 := (node_run_up n n' hup' _ out hrun).1
  rw [run_iff_trace] at h1
  obtain ⟨os, ht, rfl⟩ := h1
  refine ⟨os, _, ht, fun o' ho' u hu => hin u ?_⟩
  simp only [twists, List.mem_filterMap, List.mem_flatten] at hu ⊢
  obtain ⟨x, hx, hux⟩ := hu
  exact ⟨x, ⟨o', ho', hx⟩, hux⟩

/-- `sideMsg` grown by four columns to the left: its obstacle is gone, and there is a new one at the far end -/
def grownMsg : OccupancyGrid ℝ :=
  ⟨7, 3, 1, -4, 0, [100, 0, 0, 0, 0, 0, 0, 0, 0, 0, 0, 0, 0, 0, 0, 0, 0, 0, 0, 0, 0]⟩

theorem grownMsg_wf : WellFormed (mapOf grownMsg) := ⟨by decide, by decide⟩

theorem grownMsg_sensible : Sensible nearDetector (mapOf grownMsg) := by
  refine ⟨grownMsg_wf, ?_, by decide, by decide, by decide, by decide, ?_, ?_, ?_, ?_, ?_⟩ <;>
    norm_num [nearDetector, mapOf, grownMsg]

theorem grownMsg_fits : TargetGridFits (mapOf grownMsg) 1 := by
  have hf : ⌊(7:ℝ) + 1 / 2⌋₊ = 7 := by
    rw [Nat.floor_eq_iff (by norm_num)]; constructor <;> norm_num
  have hf' : ⌊(3:ℝ) + 1 / 2⌋₊ = 3 := by
    rw [Nat.floor_eq_iff (by norm_num)]; constructor <;> norm_num
  simp only [TargetGridFits, mapOf, grownMsg, real_mul, real_add, real_ofInt, UInt32.toNat_ofNat]
  norm_num
  rw [show (7:ℝ)/2 = 3 + 1/2 by norm_num, show (15:ℝ)/2 = 7 + 1/2 by norm_num, hf, hf']
  norm_num

theorem grownMsg_occupied {i j : Int} (h : Occupied (4/5 : ℝ) (mapOf grownMsg) i j) : i = 0 ∧ j = 0 := by
  obtain ⟨h1, h2, h3, h4, v, hv, hlt⟩ := h
  have h2' : i < 3 := h2
  have h4' : j < 7 := h4
  by_contra hc
  have hv0 : v = 0 := by
    obtain rfl | rfl | rfl : i = 0 ∨ i = 1 ∨ i = 2 := by omega
    all_goals obtain rfl | rfl | rfl | rfl | rfl | rfl | rfl :
      j = 0 ∨ j = 1 ∨ j = 2 ∨ j = 3 ∨ j = 4 ∨ j = 5 ∨ j = 6 := by omega
    all_goals first
      | exact absurd ⟨rfl, rfl⟩ hc
      | (simpa [cellAt, mapOf, grownMsg] using hv.symm)
  subst hv0
  rw [real_lt_false, show ((0 : Int8).toInt) = 0 from by decide] at hlt
  norm_num at hlt

theorem grownMsg_grown (th : ℝ) : Grown nearDetector.occupied_threshold 0.1 1.6 ⟨1.5, 2.5, th⟩ sideMsg grownMsg := by
  refine ⟨rfl, ⟨4, 0, ?_, ?_, by decide, by decide, ?_⟩, ?_, ?_, ?_, ?_⟩
  · norm_num [sideMsg, grownMsg]
  · norm_num [sideMsg, grownMsg]
  · intro i j ho hx
    obtain ⟨rfl, rfl⟩ := grownMsg_occupied ho
    norm_num [sideMsg, grownMsg, abs_le] at hx
  all_goals
    simp only [sideMsg, show (3 : UInt32).toNat = 3 from rfl]
    norm_num

theorem four_events {F : Type} {m m' : OccupancyGrid F} {tf tf' tf'' : Option (TransformMsg F)}
    {d d' d'' : List Nat} {pre post : List (Event F)}
    (h : [.map m, .tick tf d, .map m', .tick tf' d'] = pre ++ .tick tf'' d'' :: post) :
    pre = [.map m] ∧ tf'' = tf ∧ d'' = d ∨ pre = [.map m, .tick tf d, .map m'] ∧ tf'' = tf' ∧ d'' = d' := by
  rcases pre with _ | ⟨a, _ | ⟨b, _ | ⟨c, _ | ⟨e, r⟩⟩⟩⟩ <;> simp_all

/-- The hypotheses of `C124_closed_loop` are met by a history in which the map changes between two
iterations: it grows, an obstacle disappears and another appears out of reach. -/
example : ∃ (n : Node ℝ) (o0 : List (Out ℝ)) (es : List (Event ℝ)) (os : List (List (Out ℝ))) (t : Expl ℝ)
    (l : Option (V3 ℝ × List (V3 ℝ))), Node.omni driveParams = .ok (n, o0) ∧
    Instant 0.1 driveParams.val_dt driveParams.val_horizon ∧
    Instant 0.1 driveParams.dwa_dt driveParams.dwa_horizon ∧ Trace n.expl es os t ∧ Driven 0.1 es os l ∧
    Foreseen n.expl.collision 0.1 es ∧ (∀ o ∈ os, ∀ u ∈ twists o, Measurable u ∧ speed u * 0.1 ≤ 0.1) ∧
    maps es = [sideMsg, grownMsg] ∧ (poses es).length = 2 ∧ twists os.flatten ≠ [] := by
  obtain ⟨n, o0, hn⟩ := drive_starts
  obtain ⟨os1, t1, ht1, hin1⟩ := drive_run hn [1.5] (by intro x hx; simp at hx; subst hx; norm_num)
  obtain ⟨_, _, _, target, collision, ec, dwa, -, -, he, -⟩ := omni_ok hn
  have hst : n.expl = (Expl.start ec collision dwa target driveParams.map_frame_id driveParams.val_dt
      driveParams.val_horizon).1 := by rw [← he]
  have hcoll : n.expl.collision = nearDetector := by
    obtain ⟨_, _, _, _, collision, _, _, ⟨-, -, -, -, hc⟩, -, -, he, -⟩ := omni_parts hn
    rw [drive_collision, Res.ok.injEq] at hc
    have h1 := congrArg (fun r => r.1.collision) he
    rw [hc]
    exact h1
  -- the first iteration
  obtain ⟨osa, o1, ta, rfl, hta, hs1⟩ := Trace.unsnoc (es := [.map sideMsg])
    (e := .tick (some (alongTf 1.5)) []) ht1
  obtain ⟨osb, oa, tb, rfl, htb, hsa⟩ := Trace.unsnoc (es := []) (e := .map sideMsg) hta
  have hosb : osb = [] := (Trace.det htb .nil).1
  subst hosb
  have hone : (twists o1).length = 1 := by
    rw [hst] at hta
    rw [C67_one_per_iteration hta hs1, if_pos]
    refine ⟨rfl, by simp [maps, Event.map?], ?_⟩
    rw [poses_snoc, along_pose]
    simp
  obtain ⟨u, hu⟩ := List.length_eq_one_iff.mp hone
  obtain ⟨hu0, hu1, hu2⟩ := drive_within (hin1 o1 (by simp) u (by rw [hu]; simp))
  have hu0 := abs_le.mp hu0
  -- the second
  have hevents : ∀ e : Event ℝ, e ∈ [Event.map sideMsg, .tick (some (alongTf 1.5)) [], .map grownMsg,
      .tick (some (alongTf (1.5 + 0.1 * u.c0))) []] → e.odom? = none := by
    intro e he
    simp only [List.mem_cons, List.not_mem_nil, or_false] at he
    rcases he with rfl | rfl | rfl | rfl <;> rfl
  obtain ⟨os2, t2, ht2, hin2⟩ := drive_run_of hn
    [.map sideMsg, .tick (some (alongTf 1.5)) [], .map grownMsg, .tick (some (alongTf (1.5 + 0.1 * u.c0))) []]
    (by unfold odoms; rw [List.filterMap_eq_nil_iff]; exact hevents)
    (by
      intro pre tf draws post h
      rcases four_events h with ⟨rfl, rfl, rfl⟩ | ⟨rfl, rfl, rfl⟩
      · refine ⟨rfl, by simp, fun m hm => ?_⟩
        simp only [maps, List.filterMap_cons, Event.map?, List.filterMap_nil, List.getLast?_singleton,
          Option.some.injEq] at hm
        subst hm
        exact ⟨side_sensible, side_fits⟩
      · refine ⟨rfl, by simp, fun m hm => ?_⟩
        simp only [maps, List.filterMap_cons, Event.map?, List.filterMap_nil, List.getLast?_cons_cons,
          List.getLast?_singleton, Option.some.injEq] at hm
        subst hm
        exact ⟨grownMsg_sensible, grownMsg_fits⟩)
    (by
      intro pre tf draws post m x h hm hx
      rcases four_events h with ⟨rfl, rfl, rfl⟩ | ⟨rfl, rfl, rfl⟩
      · simp only [maps, List.filterMap_cons, Event.map?, List.filterMap_nil, List.getLast?_singleton,
          Option.some.injEq] at hm
        subst hm
        rw [poses_snoc, along_pose] at hx
        simp only [Option.toList_some, List.getLast?_append, List.getLast?_singleton, Option.some_or,
          Option.some.injEq] at hx
        subst hx
        simp only [Room, mapOf, sideMsg, driveParams, sideParams]
        norm_num
      · simp only [maps, List.filterMap_cons, Event.map?, List.filterMap_nil, List.getLast?_cons_cons,
          List.getLast?_singleton, Option.some.injEq] at hm
        subst hm
        rw [poses_snoc, along_pose] at hx
        simp only [Option.toList_some, List.getLast?_append, List.getLast?_singleton, Option.some_or,
          Option.some.injEq] at hx
        subst hx
        simp only [Room, mapOf, grownMsg, driveParams, sideParams]
        norm_num
        constructor <;> linarith)
  obtain ⟨osc, o2, tc, rfl, htc, hs2⟩ := Trace.unsnoc
    (es := [.map sideMsg] ++ [.tick (some (alongTf 1.5)) []] ++ [.map grownMsg])
    (e := .tick (some (alongTf (1.5 + 0.1 * u.c0))) []) ht2
  obtain ⟨osd, ob, td, rfl, htd, hsd⟩ := Trace.unsnoc
    (es := [.map sideMsg] ++ [.tick (some (alongTf 1.5)) []]) (e := .map grownMsg) htc
  obtain ⟨rfl, -⟩ := Trace.det htd ht1
  have hdr : Driven 0.1 ([] ++ [.map sideMsg] ++ [.tick (some (alongTf 1.5)) []] ++ [.map grownMsg])
      ([] ++ [oa] ++ [o1] ++ [ob]) (some (⟨1.5, 2.5, 0⟩, twists o1)) :=
    .callback (.first (.callback .nil rfl) (along_pose _ _)) rfl
  refine ⟨n, o0, _, _, t2, _, hn, ⟨0, ?_, ?_⟩, ⟨0, ?_, ?_⟩, ht2, .next hdr (along_pose _ _) ?_, ?_, ?_, ?_,
    ?_, ?_⟩
  · simp only [driveParams, sideParams]; norm_num
  · simp only [driveParams, sideParams]; norm_num
  · simp only [driveParams, sideParams]; norm_num
  · simp only [driveParams, sideParams]; norm_num
  · rw [hu]
    refine ⟨by simp, ?_⟩
    intro v hv
    rw [List.mem_singleton] at hv
    subst hv
    simp only [flow, hu1, hu2, if_true]
    refine ⟨by simp; ring, by simp, 0, by simp⟩
  · rw [hcoll]
    refine ⟨?_, ?_, ?_⟩
    · intro pre e post m x h hp hx hm
      rcases pre with _ | ⟨a, _ | ⟨b, pre⟩⟩
      · simp [maps] at hm
      · simp only [List.nil_append, List.cons_append, List.cons.injEq] at h
        obtain ⟨rfl, rfl, -⟩ := h
        rw [along_pose, Option.some.injEq] at hx
        simp only [maps, List.filterMap_cons, Event.map?, List.filterMap_nil, List.getLast?_singleton,
          Option.some.injEq] at hm
        subst hm hx
        exact top_clear 0
      · simp only [List.cons_append, List.cons.injEq] at h
        obtain ⟨rfl, rfl, -⟩ := h
        have h0 := along_pose 1.5 []
        simp [poses, List.filterMap_cons, Event.pose?] at hp
    · intro pre m post x h hm hp
      rcases pre with _ | ⟨a, pre⟩
      · simp [poses] at hp
      · simp only [List.cons_append, List.cons.injEq] at h
        obtain ⟨rfl, -⟩ := h
        simp [maps, Event.map?] at hm
    · intro pre m' post m x h hm hp
      rcases pre with _ | ⟨a, _ | ⟨b, _ | ⟨c, _ | ⟨d, pre⟩⟩⟩⟩
      · simp [maps] at hm
      · simp at h
      · simp only [List.nil_append, List.cons_append, List.cons.injEq] at h
        obtain ⟨rfl, rfl, h3, -⟩ := h
        cases h3
        simp only [maps, List.filterMap_cons, Event.map?, List.filterMap_nil, List.getLast?_singleton,
          Option.some.injEq] at hm
        subst hm
        have hx : x = ⟨1.5, 2.5, 0⟩ := by
          have h1 := poses_snoc [Event.map sideMsg] (.tick (some (alongTf 1.5)) [])
          rw [along_pose] at h1
          have h2 : poses [Event.map sideMsg, .tick (some (alongTf 1.5)) []] = [⟨1.5, 2.5, 0⟩] := h1
          rw [h2] at hp
          simpa using hp.symm
        subst hx
        exact C124_grown nearDetector side_sensible grownMsg_sensible (grownMsg_grown 0)
          (by norm_num [nearDetector, sideMsg])
      · simp at h
      · simp at h
  · intro o ho v hv
    obtain ⟨h0, h1, h2⟩ := drive_within (hin2 o ho v hv)
    refine ⟨.inl h2, ?_⟩
    have : speed v ≤ 1 := by
      unfold speed
      rw [h1]
      simpa [Real.sqrt_sq_eq_abs] using h0
    linarith
  · rfl
  · rfl
  · intro h
    have : u ∈ twists ([oa] ++ [o1] ++ [ob] ++ [o2]).flatten := by
      simp only [List.flatten_append, List.flatten_singleton, twists_append, List.mem_append]
      left; left; right
      rw [hu]; simp
    simp only [List.nil_append] at h
    rw [h] at this
    simp at this

end Ergodic
