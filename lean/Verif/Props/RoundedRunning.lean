import Verif.Spec.RoundedRunning
import Verif.Props.RoundedMotion
import Verif.Props.RoundedReference
import Verif.Props.Running

/-!
# Property C99: the node keeps running in rounded arithmetic

C77 is about exact arithmetic.  Here every operation of the node is rounded: planning, simulation,
collision queries and the search of the dynamic window.
-/

namespace Ergodic
variable {M : Machine}

/-! ## Collision queries beyond the upper edges -/

/-- C87 beyond the upper edges: with any rounding to nearest, none of the three queries throws, runs
forever or has undefined behaviour for a point that is not below the lower edges and within `2^29`
cells of them. -/
theorem C87_no_failure_not_below {c : Collision (RDbl M)} {g : GridMap (RDbl M)}
    {ax ay r b s o x y : ℝ} (hs : SensibleRd c g ax ay r b s o) (hx0 : ax ≤ x)
    (hx1 : x ≤ ax + 2 ^ 29 * r) (hy0 : ay ≤ y) (hy1 : y ≤ ay + 2 ^ 29 * r) (th : RDbl M) :
    (∃ v, c.collisionCheck g ⟨.fin x, .fin y, th⟩ = .ok v) ∧
    (∃ v, c.minDistance g ⟨.fin x, .fin y, th⟩ = .ok v) ∧
    (∃ v, c.minDirection g ⟨.fin x, .fin y, th⟩ = .ok v) := by
  have hr := hs.placed.positive
  obtain ⟨n, hn, n0, n1, -, -⟩ := locate_rd M hs.normal (n := 2 ^ 29) (by norm_num) hx0 (by
    push_cast; linarith)
  obtain ⟨m, hm, m0, m1, -, -⟩ := locate_rd M hs.normal (n := 2 ^ 29) (by norm_num) hy0 (by
    push_cast; linarith)
  have hw := world2Grid_rd hs.placed (show n < 2 ^ 32 by omega) (show m < 2 ^ 32 by omega) n0 n1 m0 m1
  have fold : ∀ (k : ℕ) (z : UInt32), z ≠ 0 → k ≤ 2 ^ 29 →
      (if UInt32.ofNat k = z then UInt32.ofNat k - 1 else UInt32.ofNat k).toNat ≤ 2 ^ 29 := by
    intro k z hz hk
    have ek := ofNat_toNat (show k < 2 ^ 32 by omega)
    split
    · rename_i h
      have h1 : 0 < (UInt32.ofNat k).toNat := by rw [h]; exact uint32_pos_iff.mp hz
      rw [UInt32.toNat_sub_of_le _ _ (UInt32.le_iff_toNat_le.mpr (by
        rw [show (1 : UInt32).toNat = 1 from rfl]; omega)), ek]
      omega
    · rw [ek]; exact hk
  have hi := fold m g.ysize hs.y0 hm
  have hj := fold n g.xsize hs.x0 hn
  generalize (if UInt32.ofNat m = g.ysize then UInt32.ofNat m - 1 else UInt32.ofNat m) = i at hw hi
  generalize (if UInt32.ofNat n = g.xsize then UInt32.ofNat n - 1 else UInt32.ofNat n) = j at hw hj
  have hs1 := hs.search1
  have hc1 := hs.col1
  have hb0 := hs.bnd0
  have ho0 := hs.obs0
  have hor := hs.order
  have hbo : M.rnd (b + o) ≤ 32768 * r := by
    have := (M.err' (show minNormal ≤ 32767 * r by linarith [hs.normal]) (x := b + o) (by
      rw [abs_of_nonneg (by linarith)]; exact hc1)).2
    norm_num at this
    linarith
  obtain ⟨e1, -, -⟩ := cells_rd (M := M) hr hb0 (by linarith)
  obtain ⟨e2, -, -⟩ := cells_rd (M := M) hr (M.rnd_nonneg (by linarith : 0 ≤ b + o)) hbo
  obtain ⟨e3, -, -⟩ := cells_rd (M := M) hr (hb0.trans hor) (by linarith)
  refine C30_no_failure_any c g hs.wf _ {
    r_bnd := cellsRd M b r, r_col := cellsRd M (M.rnd (b + o)) r, r_max := cellsRd M s r,
    cx := j.toNat, cy := i.toNat } ?_ ?_
  · unfold Collision.config
    rw [hw, hs.bnd, hs.search, hs.obs, hs.placed.resolution, RDbl.add_fin]
    rw [Res.ok_bind, e1, Res.ok_bind, e2, Res.ok_bind, e3, Res.ok_bind, u2i_small (by dsimp only; omega),
      u2i_small (by dsimp only; omega)]
  · refine ⟨by simp, by simp, by simp only; omega, by simp only; omega, uint32_pos_iff.mp hs.x0,
      uint32_pos_iff.mp hs.y0, hs.xsize, hs.ysize, ?_⟩
    exact cells_le_rd hr (by norm_num) (by exact_mod_cast hs1)

/-! ## Look-ahead around a pose with room -/

/-- Every pose of a look-ahead is within `D` of the start on both axes. -/
theorem lookahead_reach (hM : AccurateTrig M) {dt v w X D x y θ : ℝ} {n : ℕ}
    (h : Lookahead dt v w X D n) (hn : n ≤ 2 ^ 40) {u : V3 (RDbl M)} (hu : Slow v w u) (hθ : |θ| ≤ 4)
    (hx : |x| ≤ X) (hy : |y| ≤ X) (k : ℕ) (hk : k ≤ n) :
    ∃ x' y' θ', poseAfter u (.fin dt) ⟨.fin x, .fin y, .fin θ⟩ k = ⟨.fin x', .fin y', .fin θ'⟩ ∧
      |x' - x| ≤ D ∧ |y' - y| ≤ D := by
  obtain ⟨a, b, c, rfl, hs, hc⟩ := hu
  have hdt : 0 < dt := lt_of_lt_of_le (by norm_num) h.step_lo
  have hV : 0 < v * dt := lt_of_lt_of_le (by positivity) h.long
  have ha : |a| ≤ speed ⟨a, b, c⟩ := by
    unfold speed
    exact Real.abs_le_sqrt (by nlinarith [sq_nonneg b])
  have hb : |b| ≤ speed ⟨a, b, c⟩ := by
    unfold speed
    exact Real.abs_le_sqrt (by nlinarith [sq_nonneg a])
  have hN : MotionNumbers a b c dt (v * dt) := by
    refine ⟨h.step_lo, h.step_hi, h.long, ?_, ?_, ?_⟩
    · rw [abs_mul, abs_of_pos hdt]; exact mul_le_mul_of_nonneg_right (ha.trans hs) hdt.le
    · rw [abs_mul, abs_of_pos hdt]; exact mul_le_mul_of_nonneg_right (hb.trans hs) hdt.le
    · rw [abs_mul, abs_of_pos hdt]; exact (mul_le_mul_of_nonneg_right hc hdt.le).trans h.turn
  obtain ⟨x', y', θ', e, -, hx', hy', -⟩ := C98_reach (M := M) hM (x := x) (y := y) (θ := θ) hN hθ hn
    (B := 2 * (X + (3 * n + 19) * (v * dt))) (by linarith) (by linarith) k hk
  refine ⟨x', y', θ', e, ?_⟩
  have hX : 0 ≤ X := (abs_nonneg x).trans hx
  have hkn : (k : ℝ) ≤ n := by exact_mod_cast hk
  have hs' : speed ⟨a, b, c⟩ * dt ≤ v * dt := mul_le_mul_of_nonneg_right hs hdt.le
  have hg : v * dt * (stepGap c dt + 1 / 2 ^ 43) ≤ v * dt * (1 / 2 ^ 21) := by
    refine mul_le_mul_of_nonneg_left ?_ hV.le
    have := stepGap_le c dt
    norm_num at this ⊢
    linarith
  have hle : (k : ℝ) * (speed ⟨a, b, c⟩ * dt + v * dt * (stepGap c dt + 1 / 2 ^ 43) +
      2 * (X + (3 * n + 19) * (v * dt)) / 2 ^ 52) ≤ D := by
    refine le_trans ?_ h.far
    have e1 : v * dt * (1 + 1 / 2 ^ 21) = v * dt + v * dt * (1 / 2 ^ 21) := by ring
    refine le_trans (mul_le_mul_of_nonneg_left (show _ ≤ v * dt * (1 + 1 / 2 ^ 21) +
      2 * (X + (3 * n + 19) * (v * dt)) / 2 ^ 52 from
        add_le_add (by rw [e1]; exact add_le_add hs' hg) le_rfl) (Nat.cast_nonneg k)) ?_
    exact mul_le_mul_of_nonneg_right hkn (by positivity)
  exact ⟨hx'.trans hle, hy'.trans hle⟩

/-- No collision query of a look-ahead fails. -/
theorem lookahead_checks (hM : AccurateTrig M) {c : Collision (RDbl M)} {g : GridMap (RDbl M)}
    (hs : ∃ ax ay r b s o, SensibleRd c g ax ay r b s o) {dt v w X D : ℝ} {n : ℕ}
    (h : Lookahead dt v w X D n) (hn : n ≤ 2 ^ 40) {u p : V3 (RDbl M)} (hu : Slow v w u)
    (hr : RoomRd g p X D) : ∀ k < n, ∃ hit, c.collisionCheck g (poseAfter u (.fin dt) p (k + 1)) = .ok hit := by
  intro k hk
  obtain ⟨ax, ay, r, b, s, o, hs⟩ := hs
  obtain ⟨x, y, θ, ax', ay', r', rfl, hp, hθ, hx, hy, h1, h2, h3, h4⟩ := hr
  obtain rfl : ax = ax' := RDbl.fin_inj.mp (hs.placed.xmin.symm.trans hp.xmin)
  obtain rfl : ay = ay' := RDbl.fin_inj.mp (hs.placed.ymin.symm.trans hp.ymin)
  obtain rfl : r = r' := RDbl.fin_inj.mp (hs.placed.resolution.symm.trans hp.resolution)
  obtain ⟨x', y', θ', e, hx', hy'⟩ := lookahead_reach hM h hn hu hθ hx hy (k + 1) (by omega)
  rw [e]
  have hx' := abs_le.mp hx'
  have hy' := abs_le.mp hy'
  exact (C87_no_failure_not_below hs (by linarith) (by linarith) (by linarith) (by linarith) _).1

theorem validate_rd (hM : AccurateTrig M) {c : Collision (RDbl M)} {g : GridMap (RDbl M)}
    (hs : ∃ ax ay r b s o, SensibleRd c g ax ay r b s o) {dt v w X D : ℝ} {horizon : RDbl M}
    {n : UInt32} (hn : numSteps horizon (.fin dt) = .ok n) (h : Lookahead dt v w X D n.toNat)
    {u p : V3 (RDbl M)} (hu : Slow v w u) (hr : RoomRd g p X D) :
    ∃ b, validateControl c g p u (.fin dt) horizon = .ok b := by
  unfold validateControl
  rw [hn, Res.ok_bind]
  exact validateLoop_total c g u _ _ p
    (lookahead_checks hM hs h (by have := uint32_lt n; omega) hu hr)

theorem controlTwist_rd (hM : AccurateTrig M) {d : DynamicWindow (RDbl M)} {g : GridMap (RDbl M)}
    (hs : ∃ ax ay r b s o, SensibleRd d.collision g ax ay r b s o) {dt v w X D : ℝ}
    (hdt : d.dt = .fin dt) (h : Lookahead dt v w X D d.steps.toNat) {p vb : V3 (RDbl M)}
    (vref : V3 (RDbl M)) (hu : ∀ u, IsSample d vb u → Slow v w u) (hr : RoomRd g p X D) :
    ∃ b u, d.controlTwist g p vb vref = .ok (b, u) := by
  refine search_total d vb _ fun u hu' => ?_
  have hc := lookahead_checks hM hs h (by have := uint32_lt d.steps; omega)
    (hu u ((mem_visited d vb u).mp hu')) hr
  rw [← hdt] at hc
  rcases free_or_hit d g p u hc with hf | hh
  · exact ⟨_, (objectiveTwist_ok d g p vref u _).mpr (Or.inl ⟨hf, rfl⟩)⟩
  · exact ⟨_, (objectiveTwist_ok d g p vref u _).mpr (Or.inr ⟨hh, rfl⟩)⟩

theorem controlTraj_rd (hM : AccurateTrig M) {d : DynamicWindow (RDbl M)} {g : GridMap (RDbl M)}
    (hs : ∃ ax ay r b s o, SensibleRd d.collision g ax ay r b s o) {dt v w X D : ℝ}
    (hdt : d.dt = .fin dt) (h : Lookahead dt v w X D d.steps.toNat) {p vb : V3 (RDbl M)}
    (ref : List (V3 (RDbl M))) (dt_ref : RDbl M)
    (hcol : ∀ k < d.steps.toNat, ColumnExists ref.length d.dt (Flt.ofInt ref.length *. dt_ref) k)
    (hu : ∀ u, IsSample d vb u → Slow v w u) (hr : RoomRd g p X D) :
    ∃ b u, d.controlTraj g p vb ref dt_ref = .ok (b, u) := by
  refine search_total d vb _ fun u hu' => ?_
  have hc := lookahead_checks hM hs h (by have := uint32_lt d.steps; omega)
    (hu u ((mem_visited d vb u).mp hu')) hr
  rw [← hdt] at hc
  exact C86_total d g p u ref _ hcol hc

/-! ## One iteration -/

section
variable {model : TwistModel (RDbl M)} {collision : Collision (RDbl M)}
  {dt horizon resolution weight : RDbl M} {num_basis buffer_size batch_size : Nat} {Rinv : M3 (RDbl M)}
  {umin umax : V3 (RDbl M)} {e0 e : ErgodicControl (RDbl M)}

/-- The columns stored by a controller of either robot do not make the model throw. -/
theorem columns_accepted_rd (hp : PowPositive M)
    (hP : ParamsNum model dt horizon resolution weight Rinv umin umax)
    (hm : model = omniModel ∨ (model = cartModel ∧ umin.c1 = .fin 0 ∧ umax.c1 = .fin 0))
    (h0 : ErgodicControl.new model collision dt horizon resolution weight num_basis buffer_size
      batch_size Rinv umin umax = .ok e0) (hh : FiniteHistory e0 e) :
    ∀ y, ∀ v ∈ e.ut, ∃ d, model.f y v = .ok d := by
  intro y v hv
  rcases hm with rfl | ⟨rfl, a, b⟩
  · exact ⟨_, rfl⟩
  · have hz : (lit 0 0 : RDbl M) = .fin 0 := by simp
    have hv0 : v.c1 = .fin 0 := by
      rcases columns_within hp hP h0 hh v hv with rfl | ⟨_, _, _, _, _, _, _, _, _, rfl, rfl, rfl, -, ⟨k1, k2⟩, -⟩
      · exact hz
      · have e1 := RDbl.fin_inj.mp a
        have e2 := RDbl.fin_inj.mp b
        rw [e1] at k1
        rw [e2] at k2
        rw [le_antisymm k2 k1]
    refine ⟨⟨v.c0 *. Flt.cos y.c2, v.c0 *. Flt.sin y.c2, v.c2⟩, ?_⟩
    show SimpleCart.f y v = _
    unfold SimpleCart.f
    rw [if_neg]
    rw [not_not, hv0, hz]
    unfold almostEqual
    rw [RDbl.sub_fin, sub_zero, M.rnd_zero, fabs_rd le_rfl, RDbl.lit_fin, RDbl.lt_fin]
    refine rnd_pos ?_
    have : (1 : ℝ) / 2 ^ 1000 ≤ 1 / 2 ^ 40 :=
      one_div_le_one_div_of_le (by positivity) (pow_le_pow_right₀ (by norm_num) (by norm_num))
    refine this.trans ?_
    norm_num

/-- Replanning succeeds; a new twist is finite and within the limits. -/
theorem replan_rd (hp : PowPositive M)
    (hP : ParamsNum model dt horizon resolution weight Rinv umin umax)
    (hm : model = omniModel ∨ (model = cartModel ∧ umin.c1 = .fin 0 ∧ umax.c1 = .fin 0))
    (h0 : ErgodicControl.new model collision dt horizon resolution weight num_basis buffer_size
      batch_size Rinv umin umax = .ok e0) (s : Expl (RDbl M)) (hh : FiniteHistory e0 s.ec)
    (hn : 2 ≤ s.ec.steps.toNat) {c : Collision (RDbl M)} (hmap : MapOk c resolution s.ec.target s.grid)
    (hx : V3Num s.pose) {draws : List Nat} (hd : draws.length = batch_size)
    (hr : ∀ r ∈ draws, r < s.ec.buffer.memory.length) (h1 : Flt.lt umax.c0 umin.c0 = false)
    (h2 : Flt.lt umax.c1 umin.c1 = false) (h3 : Flt.lt umax.c2 umin.c2 = false) :
    ∃ r o, s.replan draws = .ok (r, o) ∧ FiniteHistory e0 r.ec ∧
      (r.u = s.u ∨ FiniteWithin umin umax r.u) := by
  unfold Expl.replan
  split
  · exact ⟨_, _, rfl, hh, Or.inl rfl⟩
  · have hc : ∃ e' u, s.ec.control s.grid s.pose draws = .ok (e', u) ∧ FiniteWithin umin umax u ∧
        FiniteHistory e0 e' := by
      rcases hm with rfl | ⟨rfl, a, b⟩
      · exact C96_omni hp hP h0 hh hn hmap.num hmap.small hmap.seen hx hd hr h1 h2 h3
      · obtain ⟨e', u, k1, k2, -, k3⟩ := C96_cart hp hP h0 hh hn hmap.num hmap.small hmap.seen hx hd hr
          h1 ⟨a, b⟩ h3
        exact ⟨e', u, k1, k2, k3⟩
    obtain ⟨e', u, hc, hu, hh'⟩ := hc
    have hb : EcBuilt model collision dt horizon resolution weight num_basis buffer_size batch_size
      Rinv umin umax s.ec := ⟨e0, h0, hh.reach⟩
    obtain ⟨-, q, hq⟩ := (C60_replay hb hc).2.2 (columns_accepted_rd hp hP hm h0 hh') s.map_frame_id
    rw [hc]
    simp only [Res.ok_bind, hq]
    exact ⟨_, _, rfl, hh', Or.inr hu⟩

/-- Avoiding succeeds; a new twist is one the dynamic window sampled, or zero. -/
theorem avoid_rd (hM : AccurateTrig M) (hp : PowPositive M)
    (hP : ParamsNum model dt horizon resolution weight Rinv umin umax)
    (hm : model = omniModel ∨ (model = cartModel ∧ umin.c1 = .fin 0 ∧ umax.c1 = .fin 0))
    (h0 : ErgodicControl.new model collision dt horizon resolution weight num_basis buffer_size
      batch_size Rinv umin umax = .ok e0) (s : Expl (RDbl M)) (hh : FiniteHistory e0 s.ec)
    (hs : ∃ ax ay r b s' o, SensibleRd s.collision s.grid ax ay r b s' o)
    (hs' : ∃ ax ay r b s' o, SensibleRd s.dwa.collision s.grid ax ay r b s' o)
    {vdt ddt v w X D : ℝ} {nv : UInt32} (hvdt : s.val_dt = .fin vdt)
    (hnv : numSteps s.val_horizon s.val_dt = .ok nv) (hlv : Lookahead vdt v w X D nv.toNat)
    (hddt : s.dwa.dt = .fin ddt) (hsteps : numSteps s.dwa.horizon s.dwa.dt = .ok s.dwa.steps)
    (hld : Lookahead ddt v w X D s.dwa.steps.toNat)
    (hcol : ∀ k < s.dwa.steps.toNat,
      ColumnExists s.ec.steps.toNat s.dwa.dt (Flt.ofInt s.ec.steps.toNat *. dt) k)
    (hu : Slow v w s.u) (hsamp : ∀ u, IsSample s.dwa s.vb u → Slow v w u)
    (hroom : RoomRd s.grid s.pose X D) :
    ∃ r o, s.avoid = .ok (r, o) ∧ r.ec = s.ec ∧ Slow v w r.u := by
  have hb : EcBuilt model collision dt horizon resolution weight num_basis buffer_size batch_size
    Rinv umin umax s.ec := ⟨e0, h0, hh.reach⟩
  have hi := hb.inv
  have hz : Slow v w (V3.zero : V3 (RDbl M)) := by
    have hw : 0 ≤ w := by
      obtain ⟨_, _, _, -, -, h⟩ := hu
      exact (abs_nonneg _).trans h
    have hv : 0 ≤ v := by
      obtain ⟨_, _, _, -, h, -⟩ := hu
      exact (speed_nonneg _).trans h
    refine ⟨0, 0, 0, by simp [V3.zero], ?_, by simpa using hw⟩
    simpa [speed] using hv
  have hnew : ∀ {ref : List (V3 (RDbl M))} {dtr : RDbl M} {vref : V3 (RDbl M)} {b : Bool} {u : V3 (RDbl M)},
      s.dwa.controlTwist s.grid s.pose s.vb vref = .ok (b, u) ∨
        s.dwa.controlTraj s.grid s.pose s.vb ref dtr = .ok (b, u) → Slow v w u := by
    intro ref dtr vref b u h
    rcases search_free h with ⟨h, -⟩ | ⟨-, rfl⟩
    · exact hsamp _ h
    · exact hz
  rw [hvdt] at hnv
  obtain ⟨valid, hv⟩ := validate_rd hM hs hnv hlv hu hroom
  unfold Expl.avoid
  rw [hvdt, hv, Res.ok_bind]
  cases valid with
  | true => exact ⟨_, _, rfl, rfl, hu⟩
  | false =>
    rw [if_neg (by simp)]
    split
    · obtain ⟨b, u, hc⟩ := controlTwist_rd hM hs' hddt hld (vb := s.vb) s.u hsamp hroom
      rw [hc, Res.ok_bind]
      exact ⟨_, _, rfl, rfl, hnew (ref := []) (dtr := dt) (Or.inl hc)⟩
    · obtain ⟨xs, hxs⟩ := (C51_total s.ec.dt s.ec.horizon s.ec.model.f s.ec.pose s.ec.ut
        (fun y v hv => by
          rw [hi.model_eq]; exact columns_accepted_rd hp hP hm h0 hh y v hv)
        s.ec.steps hi.steps).1.mpr hi.ut_length.ge
      have hlen : xs.length = s.ec.steps.toNat := by
        obtain ⟨n, hn', hl, -⟩ := C51_structure _ _ _ _ _ _ hxs
        rw [hi.steps, Res.ok.injEq] at hn'
        rw [hn', hl]
      have hts : s.ec.timeStep = dt := hi.dt_eq
      obtain ⟨b, u, hc⟩ := controlTraj_rd hM hs' hddt hld (vb := s.vb) xs dt (by rw [hlen]; exact hcol)
        hsamp hroom
      have hxs' : s.ec.optTraj = .ok xs := hxs
      have hsl := hnew (vref := V3.zero) (Or.inr hc)
      rw [hxs', Res.ok_bind, hts, hc, Res.ok_bind]
      cases b with
      | false => exact ⟨_, _, rfl, rfl, hsl⟩
      | true =>
        dsimp only
        rw [if_pos rfl]
        unfold constTwistPath
        rw [hsteps, Res.ok_bind, Res.ok_bind]
        exact ⟨_, _, rfl, rfl, hsl⟩

/-- C99: a trace exists for every history whose iterations are supplied; every published twist is
finite and slow. -/
theorem C99_trace (hM : AccurateTrig M) (hp : PowPositive M)
    (hP : ParamsNum model dt horizon resolution weight Rinv umin umax)
    (hm : model = omniModel ∨ (model = cartModel ∧ umin.c1 = .fin 0 ∧ umax.c1 = .fin 0))
    {ec : ErgodicControl (RDbl M)}
    (h0 : ErgodicControl.new model collision dt horizon resolution weight num_basis buffer_size
      batch_size Rinv umin umax = .ok ec) (hn : 2 ≤ ec.steps.toNat)
    (h1 : Flt.lt umax.c0 umin.c0 = false) (h2 : Flt.lt umax.c1 umin.c1 = false)
    (h3 : Flt.lt umax.c2 umin.c2 = false) {dwa : DynamicWindow (RDbl M)}
    (hcoll : dwa.collision = collision) {vdt ddt v w X D : ℝ} {val_horizon : RDbl M} {nv : UInt32}
    (hnv : numSteps val_horizon (.fin vdt) = .ok nv) (hlv : Lookahead vdt v w X D nv.toNat)
    (hddt : dwa.dt = .fin ddt) (hsteps : numSteps dwa.horizon dwa.dt = .ok dwa.steps)
    (hld : Lookahead ddt v w X D dwa.steps.toNat)
    (hcol : ∀ k < dwa.steps.toNat,
      ColumnExists ec.steps.toNat dwa.dt (Flt.ofInt ec.steps.toNat *. dt) k)
    (target : Target (RDbl M)) (htg : ∀ G ∈ target.gaussians, GaussNum G) (frame : String)
    (hbox : ∀ u, FiniteWithin umin umax u → Slow v w u) (hw : 0 ≤ w) (es : List (Event (RDbl M)))
    (hsamp : ∀ vb, vb = V3.zero ∨ vb ∈ odoms es → ∀ u, IsSample dwa vb u → Slow v w u)
    (hpose : ∀ p ∈ poses es, V3Num p)
    (hsup : AllSuppliedRd collision resolution target buffer_size batch_size X D es) :
    ∃ os t, Trace (Expl.start ec collision dwa target frame (.fin vdt) val_horizon).1 es os t ∧
      FiniteHistory ec t.ec ∧ Slow v w t.u ∧ ∀ u ∈ twists os.flatten, Slow v w u := by
  have hv : 0 ≤ v := by
    have := lt_of_lt_of_le (by positivity) hlv.long
    have h := hlv.step_lo
    by_contra hc
    push Not at hc
    nlinarith
  have hz : Slow v w (V3.zero : V3 (RDbl M)) :=
    ⟨0, 0, 0, by simp [V3.zero], by simpa [speed] using hv, by simpa using hw⟩
  induction es using List.reverseRecOn with
  | nil => exact ⟨[], _, .nil, .setTarget _ .start htg, hz, by simp [twists]⟩
  | append_singleton es e ih =>
    obtain ⟨os, s, ht, hh, hu, htw⟩ := ih
      (fun vb hvb => hsamp vb (by
        rcases hvb with h | h
        · exact Or.inl h
        · right; simp only [odoms, List.filterMap_append, List.mem_append] at h ⊢; exact Or.inl h))
      (fun p h => hpose p (by
        simp only [poses, List.filterMap_append, List.mem_append] at h ⊢; exact Or.inl h))
      (fun pre tf draws post h => hsup pre tf draws (post ++ [e]) (by rw [h]; simp))
    suffices h : ∃ t o, s.step e = .ok (t, o) ∧ FiniteHistory ec t.ec ∧ Slow v w t.u ∧
        ∀ u ∈ twists o, Slow v w u by
      obtain ⟨t, o, h, k1, k2, k3⟩ := h
      refine ⟨_, _, .snoc ht h, k1, k2, fun u hu => ?_⟩
      rw [List.flatten_append, twists_append, List.mem_append] at hu
      rcases hu with hu | hu
      · exact htw u hu
      · exact k3 u (by simpa using hu)
    cases e with
    | map m => exact ⟨_, _, rfl, hh, hu, by simp [twists]⟩
    | odom v => exact ⟨_, _, rfl, hh, hu, by simp [twists]⟩
    | tick tf draws =>
      have hsp := hsup es tf draws [] rfl
      have hi1 := ht.inv.localize tf draws
      have hi := hi1.advance
      have hul : (s.localize tf).u = s.u := by
        obtain ⟨-, -, -, -, -, -, -, -, f9, -, -⟩ := s.localize_frame tf
        exact f9
      have hhl : FiniteHistory ec (s.localize tf).ec := by
        cases tf with
        | none => exact hh
        | some t =>
          refine .addStateMemory _ hh (hpose _ ?_)
          simp [poses, Event.pose?]
      show ∃ t o, s.iteration tf draws = .ok (t, o) ∧ _
      unfold Expl.iteration
      dsimp only
      by_cases hact : ((s.localize tf).map_received && (s.localize tf).pose_known) = true
      · rw [if_pos hact]
        rw [Bool.and_eq_true] at hact
        have hmaps : maps (es ++ [Event.tick tf draws]) = maps es := by simp [maps, Event.map?]
        have hmap : ∃ m, (maps es).getLast? = some m := by
          have := hi1.map_received_eq
          rw [hact.1, hmaps] at this
          cases hl : (maps es).getLast? with
          | none => rw [List.getLast?_eq_none_iff] at hl; rw [hl] at this; simp at this
          | some m => exact ⟨m, rfl⟩
        have hpos : ∃ x, (poses (es ++ [Event.tick tf draws])).getLast? = some x := by
          have := hi1.pose_known_eq
          rw [hact.2] at this
          cases hl : (poses (es ++ [Event.tick tf draws])).getLast? with
          | none => rw [List.getLast?_eq_none_iff] at hl; rw [hl] at this; simp at this
          | some m => exact ⟨m, rfl⟩
        obtain ⟨m, hm'⟩ := hmap
        obtain ⟨x, hx⟩ := hpos
        have hok := hsp.map m hm'
        have hroom := hsp.room m x hm' hx
        obtain ⟨i, f, ea⟩ := (s.localize tf).advanceDwa_frame
        have hae : (s.localize tf).advanceDwa.ec = (s.localize tf).ec := by rw [ea]
        have hau : (s.localize tf).advanceDwa.u = s.u := by rw [ea]; exact hul
        set a := (s.localize tf).advanceDwa with ha
        have hgrid : a.grid = mapOf m := hi.grid_eq m (by rw [hmaps]; exact hm')
        have hap : a.pose = x := hi.pose_eq x hx
        have hst : ∀ b : ErgodicControl (RDbl M), FiniteHistory ec b → b.steps = ec.steps := by
          intro b hb
          have k1 := (EcBuilt.inv ⟨ec, h0, hb.reach⟩).steps_eq
          have k2 := (EcBuilt.inv ⟨ec, h0, .start⟩).steps_eq
          rw [k1, Res.ok.injEq] at k2
          exact k2
        have hmem : a.ec.buffer.memory.length =
            min (poses (es ++ [Event.tick tf draws])).length buffer_size := by
          have hb0 : ec.buffer = { buffer_size, batch_size } := by
            have h := h0
            simp only [ErgodicControl.new, Res.bind_eq_ok] at h
            obtain ⟨steps, -, h⟩ := h
            split at h
            · simp at h
            · simp only [Res.ok.injEq] at h
              rw [← h]
          rw [hi.buffer_eq, hb0]
          exact (C22_first_states_kept buffer_size batch_size _).1
        have hha : FiniteHistory ec a.ec := by rw [hae]; exact hhl
        obtain ⟨r, o1, hr, hhr, hru⟩ := replan_rd hp hP hm h0 a hha (by rw [hst _ hha]; exact hn)
          (c := collision) (by rw [hi.target_eq, hgrid]; exact hok)
          (by rw [hap]; exact hpose x (List.mem_of_getLast? hx)) hsp.count
          (fun q hq => by rw [hmem]; exact hsp.range q hq) h1 h2 h3
        have hir := hi.replan hr
        have hru : Slow v w r.u := by
          rcases hru with h | h
          · rw [h, hau]; exact hu
          · exact hbox _ h
        have hvb : r.vb = V3.zero ∨ r.vb ∈ odoms (es ++ [Event.tick tf draws]) := by
          rw [hir.vb_eq]
          unfold lastOdom
          cases hl : (odoms (es ++ [Event.tick tf draws])).getLast? with
          | none => exact Or.inl rfl
          | some v => exact Or.inr (List.mem_of_getLast? hl)
        have hgr : r.grid = mapOf m := hir.grid_eq m (by rw [hmaps]; exact hm')
        have hpr : r.pose = x := hir.pose_eq x hx
        obtain ⟨t, o2, hav, hte, htu⟩ := avoid_rd hM hp hP hm h0 r hhr (v := v) (w := w) (X := X) (D := D)
          (vdt := vdt) (ddt := ddt) (nv := nv)
          (by rw [hir.collision_eq, hgr]; exact hok.sensible)
          (by rw [hir.dwa_eq, hcoll, hgr]; exact hok.sensible) hir.val_dt_eq
          (by rw [hir.val_horizon_eq, hir.val_dt_eq]; exact hnv) hlv (by rw [hir.dwa_eq]; exact hddt)
          (by rw [hir.dwa_eq]; exact hsteps) (by rw [hir.dwa_eq]; exact hld)
          (by rw [hir.dwa_eq, hst _ hhr]; exact hcol) hru
          (by rw [hir.dwa_eq]; exact hsamp r.vb hvb) (by rw [hgr, hpr]; exact hroom)
        have hit : s.iteration tf draws = .ok (t, o1 ++ o2 ++ [.twist t.u]) := by
          unfold Expl.iteration
          dsimp only
          rw [if_pos (by rw [Bool.and_eq_true]; exact hact), ← ha, hr, Res.ok_bind]
          dsimp only
          rw [hav, Res.ok_bind]
        rw [hr, Res.ok_bind]
        dsimp only
        rw [hav, Res.ok_bind]
        refine ⟨_, _, rfl, by rw [hte]; exact hhr, htu, fun u hu' => ?_⟩
        rw [iteration_twists hit] at hu'
        split at hu'
        · rw [List.mem_singleton] at hu'; rw [hu']; exact htu
        · simp at hu'
      · rw [if_neg hact]
        exact ⟨_, _, rfl, hhl, by rw [hul]; exact hu, by simp [twists]⟩

end

/-! ## The two executables -/

theorem numSteps_fin {h d : ℝ} (h0 : 0 ≤ h) (d0 : 0 < d) (hq : h ≤ 2 ^ 24 * d) :
    ∃ n : UInt32, numSteps (.fin h : RDbl M) (.fin d) = .ok n ∧ n.toNat = ⌊M.rnd (h / d)⌋₊ ∧
      n.toNat ≤ 2 ^ 24 := by
  have q0 : 0 ≤ h / d := div_nonneg h0 d0.le
  have r0 : 0 ≤ M.rnd (h / d) := M.rnd_nonneg q0
  have r1 : M.rnd (h / d) ≤ ((2 ^ 24 : ℤ) : ℝ) := M.rnd_le_int (by norm_num) (by
    rw [div_le_iff₀ d0]; push_cast; linarith)
  have hf : ⌊M.rnd (h / d)⌋₊ ≤ 2 ^ 24 := by
    have := (Nat.floor_le r0).trans r1
    exact_mod_cast this
  have en := ofNat_toNat (show ⌊M.rnd (h / d)⌋₊ < 2 ^ 32 by omega)
  refine ⟨UInt32.ofNat ⌊M.rnd (h / d)⌋₊, ?_, en, by rw [en]; exact hf⟩
  unfold numSteps
  rw [RDbl.div_fin _ d0.ne', fabs_rd r0]
  exact castU32_rd (by omega) (Nat.floor_le r0) (Nat.lt_floor_add_one _)

theorem node_trace {F : Type} [Flt F] {n : Node F} {es : List (Event F)} {s t : Expl F}
    {os : List (List (Out F))} (hs : n.expl = s) (h : Trace s es os t) (P : V3 F → Prop)
    (hP : ∀ u ∈ twists os.flatten, P u) :
    ∃ n' out, n.run es = .ok (n', out) ∧ ∀ u ∈ twists out, P u := by
  cases hu : n.up with
  | true =>
    subst hs
    exact ⟨_, _, node_run_of_expl n hu es t os.flatten ((run_iff_trace _ _ _ _).mpr ⟨os, h, rfl⟩), hP⟩
  | false => exact ⟨_, _, node_run_down n hu es, by simp [twists]⟩

theorem gaussians_num {ts : List (V2 ℝ × V2 ℝ)} {gs : List (Gaussian (RDbl M))}
    (h : ((ts.map fun t => ((⟨.fin t.1.c0, .fin t.1.c1⟩ : V2 (RDbl M)),
      (⟨.fin t.2.c0, .fin t.2.c1⟩ : V2 (RDbl M)))).mapM fun t => Gaussian.new t.1 t.2) = .ok gs) :
    ∀ G ∈ gs, GaussNum G := by
  induction ts generalizing gs with
  | nil =>
    simp only [List.map_nil, List.mapM_nil] at h
    have h : Res.ok [] = Res.ok gs := h
    rw [Res.ok.injEq] at h
    subst h
    simp
  | cons a ts ih =>
    simp only [List.map_cons, List.mapM_cons, Res.bind_eq_ok] at h
    obtain ⟨G, hG, gs', hgs, h⟩ := h
    have h : Res.ok (G :: gs') = Res.ok gs := h
    rw [Res.ok.injEq] at h
    subst h
    intro G' hG'
    rcases List.mem_cons.mp hG' with rfl | hG'
    · unfold Gaussian.new at hG
      dsimp only at hG
      split at hG
      · simp at hG
      · rename_i hn
        rw [not_or, not_not, not_not] at hn
        simp only [RDbl.mul_fin, RDbl.lit_fin] at hG hn
        have ha := (RDbl.lt_fin _ _).mp hn.1
        have hb := (RDbl.lt_fin _ _).mp hn.2
        rw [show M.rnd (((0 : Int) : ℝ) / 10 ^ 0) = 0 by norm_num [M.rnd_zero]] at ha hb
        rw [RDbl.div_fin _ ha.ne', RDbl.div_fin _ hb.ne', Res.ok.injEq] at hG
        subst hG
        exact ⟨⟨⟨_, rfl⟩, _, rfl⟩, ⟨⟨_, rfl⟩, _, rfl⟩, ⟨_, rfl⟩, _, rfl⟩
    · exact ih hgs G' hG'

theorem inv_weight_num {p : Params (RDbl M)} {q : Params ℝ} (h : ReadsAs p q)
    (hw : ∀ a ∈ q.control_weights, a ≠ 0) {i : Nat} {a : RDbl M} (ha : p.control_weights[i]? = some a) :
    Num (lit 1 0 /. a) := by
  rw [h.weights, List.getElem?_map, Option.map_eq_some_iff] at ha
  obtain ⟨b, hb, rfl⟩ := ha
  rw [RDbl.lit_fin, RDbl.div_fin _ (hw b (List.mem_of_getElem? hb))]
  exact ⟨_, rfl⟩

theorem atLeastOne_le (n : UInt32) : ((DynamicWindow.atLeastOne n).toNat : ℝ) ≤ n.toNat + 1 := by
  have : (DynamicWindow.atLeastOne n).toNat ≤ n.toNat + 1 := by
    unfold DynamicWindow.atLeastOne
    split
    · rename_i h; subst h; decide
    · omega
  exact_mod_cast this

/-- C99 for the omni-directional robot: in rounded arithmetic, when at every iteration the robot has
room for the longer of the two look-aheads, the node handles every history: it neither throws nor
has undefined behaviour, and every twist it publishes is finite and slow. -/
theorem C99_omni (hM : AccurateTrig M) (hpow : PowPositive M) (p : Params (RDbl M)) (q : Params ℝ)
    (n : Node (RDbl M)) (o : List (Out (RDbl M))) (c : Collision (RDbl M))
    (target : Target (RDbl M)) (es : List (Event (RDbl M))) {v w X D B : ℝ} (hB : 0 ≤ B)
    (hq : ReadsAs p q) (hp : SaneRd M q v w X D)
    (hc : Collision.new p.boundary_radius p.search_radius p.obstacle_threshold p.occupied_threshold = .ok c)
    (ht : (p.targets.mapM fun t => Gaussian.new t.1 t.2) = .ok target.gaussians)
    (hn : Node.omni p = .ok (n, o))
    (hv : ∀ a b r, Between q.min_vel_x q.max_vel_x p.vx_samples B a →
      Between q.min_vel_y q.max_vel_y p.vy_samples B b →
      Between q.min_rot_vel q.max_rot_vel p.vth_samples B r → speed ⟨a, b, r⟩ ≤ v ∧ |r| ≤ w)
    (hz : OdomOk M q B ⟨.fin 0, .fin 0, .fin 0⟩) (ho : ∀ u ∈ odoms es, OdomOk M q B u)
    (hpose : ∀ x ∈ poses es, V3Num x)
    (hs : AllSuppliedRd c p.target_resolution target p.buffer_size p.batch_size X D es) :
    ∃ n' out, n.run es = .ok (n', out) ∧ ∀ u ∈ twists out, Slow v w u := by
  obtain ⟨w0, w1, w2, gs, collision, ec, dwa, ⟨hw0, hw1, hw2, hgs, hcol⟩, hec, hdwa, hst, -⟩ := omni_parts hn
  rw [hc, Res.ok.injEq] at hcol
  subst hcol
  rw [ht, Res.ok.injEq] at hgs
  subst hgs
  have hl0 : (lit 0 0 : RDbl M) = .fin 0 := by simp
  have hzero : (V3.zero : V3 (RDbl M)) = ⟨.fin 0, .fin 0, .fin 0⟩ := by simp [V3.zero]
  have hE0 : 0 < q.ec_dt := minNormal_pos.trans_le hp.ec_dt
  have hd0 : 0 < q.dwa_dt := lt_of_lt_of_le (by norm_num) hp.dwa_room.step_lo
  have hv0 : 0 < q.val_dt := lt_of_lt_of_le (by norm_num) hp.val_room.step_lo
  obtain ⟨N, hN, hNf, -⟩ := numSteps_fin (M := M) (by linarith [hp.ec_two]) hE0
    (hp.ec_fits.trans (mul_le_mul_of_nonneg_right (by norm_num) hE0.le))
  obtain ⟨nd, hnd, hndf, hnd24⟩ := numSteps_fin (M := M) hp.dwa_horizon hd0 hp.dwa_fits
  obtain ⟨nv, hnv, hnvf, -⟩ := numSteps_fin (M := M) hp.val_horizon hv0 hp.val_fits
  have hecs : ec.steps = N := by
    have := (EcBuilt.inv ⟨ec, hec, .start⟩).steps_eq
    rw [hq.ec_dt, hq.ec_horizon, hN, Res.ok.injEq] at this
    exact this.symm
  have hq2 : ((2 : ℤ) : ℝ) ≤ M.rnd (q.ec_horizon / q.ec_dt) := M.int_le_rnd (by norm_num) (by
    rw [le_div_iff₀ hE0]; exact_mod_cast hp.ec_two)
  have h2 : 2 ≤ ec.steps.toNat := by
    rw [hecs, hNf]
    exact Nat.le_floor (by exact_mod_cast hq2)
  have h20 : N.toNat ≤ 2 ^ 20 := by
    rw [hNf]
    have r1 : M.rnd (q.ec_horizon / q.ec_dt) ≤ ((2 ^ 20 : ℤ) : ℝ) := M.rnd_le_int (by norm_num) (by
      rw [div_le_iff₀ hE0]; push_cast; linarith [hp.ec_fits])
    have := (Nat.floor_le (by linarith [show ((0:ℝ)) ≤ ((2 : ℤ) : ℝ) by norm_num])).trans r1
    exact_mod_cast this
  simp only [DynamicWindow.new, Res.bind_eq_ok, Res.ok.injEq] at hdwa
  obtain ⟨steps, hsteps, hd⟩ := hdwa
  have hsn : steps = nd := by
    rw [hq.dwa_dt, hq.dwa_horizon, hnd, Res.ok.injEq] at hsteps
    exact hsteps.symm
  have hB' : ∀ s : UInt32, 0 ≤ ((s.toNat : ℝ) + 1) * B / 2 ^ 46 := fun s => by positivity
  have hbox : ∀ u, FiniteWithin (⟨p.min_vel_x, p.min_vel_y, p.min_rot_vel⟩ : V3 (RDbl M))
      ⟨p.max_vel_x, p.max_vel_y, p.max_rot_vel⟩ u → Slow v w u := by
    rintro u ⟨a, b, r, l0, l1, l2, k0, k1, k2, rfl, el, eh, ⟨a0, a1⟩, ⟨b0, b1⟩, r0, r1⟩
    rw [hq.min_vel_x, hq.min_vel_y, hq.min_rot_vel, V3.mk.injEq, RDbl.fin_inj, RDbl.fin_inj, RDbl.fin_inj] at el
    rw [hq.max_vel_x, hq.max_vel_y, hq.max_rot_vel, V3.mk.injEq, RDbl.fin_inj, RDbl.fin_inj, RDbl.fin_inj] at eh
    obtain ⟨rfl, rfl, rfl⟩ := el
    obtain ⟨rfl, rfl, rfl⟩ := eh
    have := hv a b r ⟨a0, by linarith [hB' p.vx_samples]⟩ ⟨b0, by linarith [hB' p.vy_samples]⟩
      ⟨r0, by linarith [hB' p.vth_samples]⟩
    exact ⟨a, b, r, rfl, this⟩
  have hw : 0 ≤ w := by
    have := (hv 0 0 0 ⟨hp.min_x, by linarith [hB' p.vx_samples, hp.max_x]⟩
      ⟨hp.min_y, by linarith [hB' p.vy_samples, hp.max_y]⟩
      ⟨hp.min_rot, by linarith [hB' p.vth_samples, hp.max_rot]⟩).2
    exact (abs_nonneg _).trans this
  have hstart : (n.expl, o) = Expl.start ec c dwa target p.map_frame_id (.fin q.val_dt) p.val_horizon := by
    rw [hst, hq.val_dt]
  obtain ⟨os, t, htr, -, -, htw⟩ := C99_trace hM hpow
    ⟨omni_num, ⟨_, hq.ec_dt⟩, ⟨_, hq.ec_horizon⟩, ⟨_, hq.target_resolution⟩, ⟨_, hq.expl_weight⟩,
      ⟨⟨inv_weight_num hq hp.weights hw0, ⟨_, hl0⟩, ⟨_, hl0⟩⟩, ⟨⟨_, hl0⟩, inv_weight_num hq hp.weights hw1, ⟨_, hl0⟩⟩,
        ⟨_, hl0⟩, ⟨_, hl0⟩, inv_weight_num hq hp.weights hw2⟩,
      ⟨⟨_, hq.min_vel_x⟩, ⟨_, hq.min_vel_y⟩, ⟨_, hq.min_rot_vel⟩⟩,
      ⟨⟨_, hq.max_vel_x⟩, ⟨_, hq.max_vel_y⟩, ⟨_, hq.max_rot_vel⟩⟩⟩ (Or.inl rfl) hec h2
    (by simp only [hq.max_vel_x, hq.min_vel_x, RDbl.lt_fin_false]; exact hp.min_x.trans hp.max_x)
    (by simp only [hq.max_vel_y, hq.min_vel_y, RDbl.lt_fin_false]; exact hp.min_y.trans hp.max_y)
    (by simp only [hq.max_rot_vel, hq.min_rot_vel, RDbl.lt_fin_false]; exact hp.min_rot.trans hp.max_rot)
    (dwa := dwa) (by rw [← hd]) (vdt := q.val_dt) (ddt := q.dwa_dt) (v := v) (w := w) (X := X) (D := D)
    (val_horizon := p.val_horizon) (by rw [hq.val_horizon]; exact hnv) (by rw [hnvf]; exact hp.val_room)
    (by rw [← hd]; exact hq.dwa_dt) (by rw [← hd]; exact hsteps)
    (by rw [← hd]; dsimp only; rw [hsn, hndf]; exact hp.dwa_room)
    (by
      rw [hecs, ← hd]
      dsimp only
      rw [hq.ec_dt, hq.dwa_dt, hsn]
      refine C86_in_range_partial (minNormal_small ?_) hp.ec_dt (by rw [← hecs]; omega) h20 hnd24 ?_
      · exact le_trans (by norm_num) hp.dwa_room.step_lo
      · have h1 := steps_le_rd hp.dwa_horizon hd0 hnd
        have h2 := hp.columns
        rw [← hNf] at h2
        have hNE : 0 ≤ (N.toNat : ℝ) * q.ec_dt := by positivity
        refine h1.trans ?_
        norm_num at h2 ⊢
        nlinarith)
    target (by rw [hq.targets] at ht; exact gaussians_num ht) p.map_frame_id hbox hw es
    (fun vb hvb u hu => by
      have hvb' : OdomOk M q B vb := by
        rcases hvb with rfl | hvb
        · rw [hzero]; exact hz
        · exact ho vb hvb
      obtain ⟨a, b, r, rfl, sa, sb, sr⟩ := hvb'
      have hwn : WindowNumbers dwa (⟨.fin a, .fin b, .fin r⟩ : V3 (RDbl M))
          ⟨a, q.acc_lim_x, q.acc_dt, q.min_vel_x, q.max_vel_x⟩
          ⟨b, q.acc_lim_y, q.acc_dt, q.min_vel_y, q.max_vel_y⟩
          ⟨r, q.acc_lim_th, q.acc_dt, q.min_rot_vel, q.max_rot_vel⟩ := by
        subst hd
        exact ⟨rfl, rfl, rfl, hq.acc_lim_x, hq.acc_lim_y, hq.acc_lim_th, hq.acc_dt, hq.acc_dt, hq.acc_dt,
          hq.min_vel_x, hq.min_vel_y, hq.min_rot_vel, hq.max_vel_x, hq.max_vel_y, hq.max_rot_vel⟩
      obtain ⟨⟨s0, e0, a0, a1, -⟩, ⟨s1, e1, b0, b1, -⟩, s2, e2, r0, r1, -⟩ :=
        C85_within_partial dwa _ u _ _ _ B hwn sa sb sr hu
      obtain ⟨u0, u1, u2⟩ := u
      dsimp only at e0 e1 e2 a0 a1 b0 b1 r0 r1
      subst e0 e1 e2
      have le : ∀ s : UInt32, ((DynamicWindow.atLeastOne s).toNat : ℝ) * B / 2 ^ 46 ≤ (s.toNat + 1) * B / 2 ^ 46 :=
        fun s => div_le_div_of_nonneg_right (mul_le_mul_of_nonneg_right (atLeastOne_le s) hB) (by positivity)
      refine ⟨s0, s1, s2, rfl, hv s0 s1 s2 ⟨a0, a1.trans ?_⟩ ⟨b0, b1.trans ?_⟩ ⟨r0, r1.trans ?_⟩⟩
      all_goals
        subst hd
        exact add_le_add le_rfl (le _))
    hpose hs
  exact node_trace (congrArg Prod.fst hstart) htr _ htw

/-- C99 for the cart: the same, the speed being bounded together with the largest measured lateral
velocity `lat` (a positive measured lateral velocity is simulated and published, see
`C70_refuted_cart`). -/
theorem C99_cart (hM : AccurateTrig M) (hpow : PowPositive M) (p : Params (RDbl M)) (q : Params ℝ)
    (n : Node (RDbl M)) (o : List (Out (RDbl M))) (c : Collision (RDbl M))
    (target : Target (RDbl M)) (es : List (Event (RDbl M))) {v w X D B lat : ℝ} (hB : 0 ≤ B)
    (hlat : 0 ≤ lat)
    (hq : ReadsAs p q) (hp : SaneRd M q v w X D)
    (hc : Collision.new p.boundary_radius p.search_radius p.obstacle_threshold p.occupied_threshold = .ok c)
    (ht : (p.targets.mapM fun t => Gaussian.new t.1 t.2) = .ok target.gaussians)
    (hn : Node.cart p = .ok (n, o))
    (hv : ∀ a b r, Between q.min_vel_x q.max_vel_x p.vx_samples B a →
      0 ≤ b → b ≤ lat →
      Between q.min_rot_vel q.max_rot_vel p.vth_samples B r → speed ⟨a, b, r⟩ ≤ v ∧ |r| ≤ w)
    (hz : CartOdomOk M q B lat ⟨.fin 0, .fin 0, .fin 0⟩) (ho : ∀ u ∈ odoms es, CartOdomOk M q B lat u)
    (hpose : ∀ x ∈ poses es, V3Num x)
    (hs : AllSuppliedRd c p.target_resolution target p.buffer_size p.batch_size X D es) :
    ∃ n' out, n.run es = .ok (n', out) ∧ ∀ u ∈ twists out, Slow v w u := by
  obtain ⟨w0, w1, gs, collision, ec, dwa, ⟨hw0, hw1, hgs, hcol⟩, hec, hdwa, hst, -⟩ := cart_parts hn
  rw [hc, Res.ok.injEq] at hcol
  subst hcol
  rw [ht, Res.ok.injEq] at hgs
  subst hgs
  have hl0 : (lit 0 0 : RDbl M) = .fin 0 := by simp
  have hzero : (V3.zero : V3 (RDbl M)) = ⟨.fin 0, .fin 0, .fin 0⟩ := by simp [V3.zero]
  have hE0 : 0 < q.ec_dt := minNormal_pos.trans_le hp.ec_dt
  have hd0 : 0 < q.dwa_dt := lt_of_lt_of_le (by norm_num) hp.dwa_room.step_lo
  have hv0 : 0 < q.val_dt := lt_of_lt_of_le (by norm_num) hp.val_room.step_lo
  obtain ⟨N, hN, hNf, -⟩ := numSteps_fin (M := M) (by linarith [hp.ec_two]) hE0
    (hp.ec_fits.trans (mul_le_mul_of_nonneg_right (by norm_num) hE0.le))
  obtain ⟨nd, hnd, hndf, hnd24⟩ := numSteps_fin (M := M) hp.dwa_horizon hd0 hp.dwa_fits
  obtain ⟨nv, hnv, hnvf, -⟩ := numSteps_fin (M := M) hp.val_horizon hv0 hp.val_fits
  have hecs : ec.steps = N := by
    have := (EcBuilt.inv ⟨ec, hec, .start⟩).steps_eq
    rw [hq.ec_dt, hq.ec_horizon, hN, Res.ok.injEq] at this
    exact this.symm
  have hq2 : ((2 : ℤ) : ℝ) ≤ M.rnd (q.ec_horizon / q.ec_dt) := M.int_le_rnd (by norm_num) (by
    rw [le_div_iff₀ hE0]; exact_mod_cast hp.ec_two)
  have h2 : 2 ≤ ec.steps.toNat := by
    rw [hecs, hNf]
    exact Nat.le_floor (by exact_mod_cast hq2)
  have h20 : N.toNat ≤ 2 ^ 20 := by
    rw [hNf]
    have r1 : M.rnd (q.ec_horizon / q.ec_dt) ≤ ((2 ^ 20 : ℤ) : ℝ) := M.rnd_le_int (by norm_num) (by
      rw [div_le_iff₀ hE0]; push_cast; linarith [hp.ec_fits])
    have := (Nat.floor_le (by linarith [show ((0:ℝ)) ≤ ((2 : ℤ) : ℝ) by norm_num])).trans r1
    exact_mod_cast this
  simp only [DynamicWindow.new, Res.bind_eq_ok, Res.ok.injEq] at hdwa
  obtain ⟨steps, hsteps, hd⟩ := hdwa
  have hsn : steps = nd := by
    rw [hq.dwa_dt, hq.dwa_horizon, hnd, Res.ok.injEq] at hsteps
    exact hsteps.symm
  have hB' : ∀ s : UInt32, 0 ≤ ((s.toNat : ℝ) + 1) * B / 2 ^ 46 := fun s => by positivity
  have hbox : ∀ u, FiniteWithin (⟨p.min_vel_x, lit 0 0, p.min_rot_vel⟩ : V3 (RDbl M))
      ⟨p.max_vel_x, lit 0 0, p.max_rot_vel⟩ u → Slow v w u := by
    rintro u ⟨a, b, r, l0, l1, l2, k0, k1, k2, rfl, el, eh, ⟨a0, a1⟩, ⟨b0, b1⟩, r0, r1⟩
    rw [hq.min_vel_x, hl0, hq.min_rot_vel, V3.mk.injEq, RDbl.fin_inj, RDbl.fin_inj, RDbl.fin_inj] at el
    rw [hq.max_vel_x, hl0, hq.max_rot_vel, V3.mk.injEq, RDbl.fin_inj, RDbl.fin_inj, RDbl.fin_inj] at eh
    obtain ⟨rfl, rfl, rfl⟩ := el
    obtain ⟨rfl, rfl, rfl⟩ := eh
    have := hv a b r ⟨a0, by linarith [hB' p.vx_samples]⟩ b0 (b1.trans hlat)
      ⟨r0, by linarith [hB' p.vth_samples]⟩
    exact ⟨a, b, r, rfl, this⟩
  have hw : 0 ≤ w := by
    have := (hv 0 0 0 ⟨hp.min_x, by linarith [hB' p.vx_samples, hp.max_x]⟩
      le_rfl hlat
      ⟨hp.min_rot, by linarith [hB' p.vth_samples, hp.max_rot]⟩).2
    exact (abs_nonneg _).trans this
  have hstart : (n.expl, o) = Expl.start ec c dwa target p.map_frame_id (.fin q.val_dt) p.val_horizon := by
    rw [hst, hq.val_dt]
  obtain ⟨os, t, htr, -, -, htw⟩ := C99_trace hM hpow
    ⟨cart_num, ⟨_, hq.ec_dt⟩, ⟨_, hq.ec_horizon⟩, ⟨_, hq.target_resolution⟩, ⟨_, hq.expl_weight⟩,
      ⟨⟨inv_weight_num hq hp.weights hw0, ⟨_, hl0⟩, ⟨_, hl0⟩⟩, ⟨⟨_, hl0⟩, ⟨_, hl0⟩, ⟨_, hl0⟩⟩,
        ⟨_, hl0⟩, ⟨_, hl0⟩, inv_weight_num hq hp.weights hw1⟩,
      ⟨⟨_, hq.min_vel_x⟩, ⟨_, hl0⟩, ⟨_, hq.min_rot_vel⟩⟩,
      ⟨⟨_, hq.max_vel_x⟩, ⟨_, hl0⟩, ⟨_, hq.max_rot_vel⟩⟩⟩ (Or.inr ⟨rfl, hl0, hl0⟩) hec h2
    (by simp only [hq.max_vel_x, hq.min_vel_x, RDbl.lt_fin_false]; exact hp.min_x.trans hp.max_x)
    (by simp only [hl0, RDbl.lt_fin_false]; exact le_rfl)
    (by simp only [hq.max_rot_vel, hq.min_rot_vel, RDbl.lt_fin_false]; exact hp.min_rot.trans hp.max_rot)
    (dwa := dwa) (by rw [← hd]) (vdt := q.val_dt) (ddt := q.dwa_dt) (v := v) (w := w) (X := X) (D := D)
    (val_horizon := p.val_horizon) (by rw [hq.val_horizon]; exact hnv) (by rw [hnvf]; exact hp.val_room)
    (by rw [← hd]; exact hq.dwa_dt) (by rw [← hd]; exact hsteps)
    (by rw [← hd]; dsimp only; rw [hsn, hndf]; exact hp.dwa_room)
    (by
      rw [hecs, ← hd]
      dsimp only
      rw [hq.ec_dt, hq.dwa_dt, hsn]
      refine C86_in_range_partial (minNormal_small ?_) hp.ec_dt (by rw [← hecs]; omega) h20 hnd24 ?_
      · exact le_trans (by norm_num) hp.dwa_room.step_lo
      · have h1 := steps_le_rd hp.dwa_horizon hd0 hnd
        have h2 := hp.columns
        rw [← hNf] at h2
        have hNE : 0 ≤ (N.toNat : ℝ) * q.ec_dt := by positivity
        refine h1.trans ?_
        norm_num at h2 ⊢
        nlinarith)
    target (by rw [hq.targets] at ht; exact gaussians_num ht) p.map_frame_id hbox hw es
    (fun vb hvb u hu => by
      have hvb' : CartOdomOk M q B lat vb := by
        rcases hvb with rfl | hvb
        · rw [hzero]; exact hz
        · exact ho vb hvb
      obtain ⟨a, b, r, rfl, sa, sb, sr⟩ := hvb'
      subst hd
      obtain ⟨i, hi, j, hj, k, hk, rfl⟩ := hu
      have k0 := axis_admits sa hi
      have k2 := axis_admits sr hk
      dsimp only at k0 k2
      rw [← hq.acc_lim_x, ← hq.acc_dt, ← hq.min_vel_x, ← hq.max_vel_x] at k0
      rw [← hq.acc_lim_th, ← hq.acc_dt, ← hq.min_rot_vel, ← hq.max_rot_vel] at k2
      obtain ⟨s0, e0, a0, a1, -⟩ := k0
      obtain ⟨s2, e2, r0, r1, -⟩ := k2
      have hj0 : j = 0 := by
        have : (DynamicWindow.atLeastOne 0).toNat = 1 := by decide
        simp only [this] at hj; omega
      subst hj0
      have e1 : fmax ((.fin b : RDbl M) -. lit 0 0 *. p.acc_dt) (lit 0 0) = .fin (max (M.rnd b) 0) := by
        rw [hl0, hq.acc_dt, RDbl.mul_fin, zero_mul, M.rnd_zero, RDbl.sub_fin, sub_zero, fmax_rd]
      have le : ∀ s : UInt32, ((DynamicWindow.atLeastOne s).toNat : ℝ) * B / 2 ^ 46 ≤ (s.toNat + 1) * B / 2 ^ 46 :=
        fun s => div_le_div_of_nonneg_right (mul_le_mul_of_nonneg_right (atLeastOne_le s) hB) (by positivity)
      refine ⟨s0, max (M.rnd b) 0, s2, ?_, hv s0 _ s2 ⟨a0, a1.trans (add_le_add le_rfl (le _))⟩
        (le_max_right _ _) (max_le sb hlat) ⟨r0, r1.trans (add_le_add le_rfl (le _))⟩⟩
      rw [V3.mk.injEq]
      exact ⟨e0, e1, e2⟩)
    hpose hs
  exact node_trace (congrArg Prod.fst hstart) htr _ htw

/-! ## a node that the theorems speak about -/

section demo

/-- Numbers of the example: limits of one, steps of a second, a look-ahead of one second; `l` is the
limit of the lateral velocity. -/
noncomputable def roomReal (l : ℝ) : Params ℝ :=
  { map_frame_id := "map", val_dt := 1, val_horizon := 1
    max_vel_x := 1, max_vel_y := l, max_rot_vel := 1
    min_vel_x := -1, min_vel_y := -l, min_rot_vel := -1
    acc_lim_x := 1, acc_lim_y := 1, acc_lim_th := 1
    boundary_radius := 1, search_radius := 2, obstacle_threshold := 1, occupied_threshold := 1
    ec_dt := 1, ec_horizon := 2, target_resolution := 1, expl_weight := 1
    num_basis := 2, buffer_size := 10, batch_size := 2, control_weights := [1, 1, 1]
    dwa_dt := 1, dwa_horizon := 1, acc_dt := 1, vx_samples := 3, vy_samples := 3, vth_samples := 3
    targets := [(⟨0, 0⟩, ⟨1, 1⟩)] }

/-- The same numbers as binary64 numbers. -/
noncomputable def roomParams (l : ℝ) : Params (RDbl ieee) :=
  { map_frame_id := "map", val_dt := .fin 1, val_horizon := .fin 1
    max_vel_x := .fin 1, max_vel_y := .fin l, max_rot_vel := .fin 1
    min_vel_x := .fin (-1), min_vel_y := .fin (-l), min_rot_vel := .fin (-1)
    acc_lim_x := .fin 1, acc_lim_y := .fin 1, acc_lim_th := .fin 1
    boundary_radius := .fin 1, search_radius := .fin 2, obstacle_threshold := .fin 1
    occupied_threshold := .fin 1
    ec_dt := .fin 1, ec_horizon := .fin 2, target_resolution := .fin 1, expl_weight := .fin 1
    num_basis := 2, buffer_size := 10, batch_size := 2, control_weights := [.fin 1, .fin 1, .fin 1]
    dwa_dt := .fin 1, dwa_horizon := .fin 1, acc_dt := .fin 1
    vx_samples := 3, vy_samples := 3, vth_samples := 3
    targets := [(⟨.fin 0, .fin 0⟩, ⟨.fin 1, .fin 1⟩)] }

theorem room_reads (l : ℝ) : ReadsAs (roomParams l) (roomReal l) := by
  constructor <;> rfl

/-- A free map of ten by ten cells of one metre. -/
noncomputable def roomMsg : OccupancyGrid (RDbl ieee) :=
  { width := 10, height := 10, resolution := .fin 1, originX := .fin 0, originY := .fin 0
    data := List.replicate 100 0 }

/-- The robot in the middle of it. -/
noncomputable def roomTf : TransformMsg (RDbl ieee) := ⟨.fin 5, .fin 5, .fin 0, .fin 0, .fin 0, .fin 1⟩

/-- The detector with these parameters. -/
noncomputable def roomDetector : Collision (RDbl ieee) := ⟨.fin 1, .fin 2, .fin 1, .fin 1⟩

theorem room_collision (l : ℝ) : Collision.new (roomParams l).boundary_radius (roomParams l).search_radius
    (roomParams l).obstacle_threshold (roomParams l).occupied_threshold = .ok roomDetector := by
  have h100 : ieee.rnd 100 = 100 := by exact_mod_cast ieee.int 100 (by norm_num)
  show Collision.new (.fin 1 : RDbl ieee) (.fin 2) (.fin 1) (.fin 1) = _
  unfold Collision.new
  rw [if_neg, if_neg]
  · rfl
  · rw [Bool.or_eq_true, not_or, Bool.not_eq_true, Bool.not_eq_true, RDbl.lit_fin, RDbl.lit_fin,
      RDbl.lt_fin_false, RDbl.lt_fin_false]
    norm_num [ieee.rnd_zero, h100]
  · rw [Bool.not_eq_true, RDbl.lt_fin_false]; norm_num

theorem room_target (l : ℝ) : ((roomParams l).targets.mapM fun t => Gaussian.new t.1 t.2) =
    .ok cornerTarget.gaussians := by
  have hz : (lit 0 0 : RDbl ieee) = .fin 0 := by simp
  have h1 : (lit 1 0 : RDbl ieee) = .fin 1 := by
    rw [RDbl.lit_fin]; norm_num [ieee.rnd_one]
  have hG : Gaussian.new (⟨.fin 0, .fin 0⟩ : V2 (RDbl ieee)) ⟨.fin 1, .fin 1⟩ =
      .ok ⟨⟨.fin 0, .fin 0⟩, ⟨⟨.fin 1, .fin 0⟩, ⟨.fin 0, .fin 1⟩⟩, ⟨⟨.fin 1, .fin 0⟩, ⟨.fin 0, .fin 1⟩⟩⟩ := by
    simp only [Gaussian.new, RDbl.mul_fin, mul_one, ieee.rnd_one, hz, h1,
      RDbl.div_fin _ one_ne_zero, div_one]
    rw [if_neg]
    rw [not_or, not_not, RDbl.lt_fin]
    norm_num
  simp only [roomParams, List.mapM_cons, List.mapM_nil, hG, Res.ok_bind]
  rfl

theorem room_steps : numSteps (.fin 2 : RDbl ieee) (.fin 1) = .ok 2 ∧
    numSteps (.fin 1 : RDbl ieee) (.fin 1) = .ok 1 := by
  have h2 : ieee.rnd 2 = 2 := by exact_mod_cast ieee.int 2 (by norm_num)
  constructor
  · unfold numSteps
    rw [RDbl.div_fin _ one_ne_zero, div_one, h2, fabs_rd (by norm_num)]
    exact castU32_rd (n := 2) (by norm_num) (by norm_num) (by norm_num)
  · unfold numSteps
    rw [RDbl.div_fin _ one_ne_zero, div_one, ieee.rnd_one, fabs_rd (by norm_num)]
    exact castU32_rd (n := 1) (by norm_num) (by norm_num) (by norm_num)

theorem room_omni (l : ℝ) : ∃ n o, Node.omni (roomParams l) = .ok (n, o) ∧ n.up = true := by
  have hc := room_collision l
  have ht := room_target l
  obtain ⟨ec, hec⟩ := (C66_throws_iff omniModel roomDetector (.fin 1) (.fin 2) (.fin 1) (.fin 1) 2 10 2
    (diag3 (lit 1 0 /. .fin 1) (lit 1 0 /. .fin 1) (lit 1 0 /. .fin 1) : M3 (RDbl ieee))
    ⟨.fin (-1), .fin (-l), .fin (-1)⟩ ⟨.fin 1, .fin l, .fin 1⟩ 2 room_steps.1).2 (by decide)
  simp only [roomParams] at hc ht
  unfold Node.omni
  simp only [roomParams, vecAt, List.getElem?_cons_zero, List.getElem?_cons_succ, Res.ok_bind, ht, hc, hec,
    DynamicWindow.new, room_steps.2]
  refine ⟨_, _, rfl, ?_⟩
  rw [Bool.not_eq_true', RDbl.lt_fin_false]; norm_num

theorem room_cart (l : ℝ) : ∃ n o, Node.cart (roomParams l) = .ok (n, o) ∧ n.up = true := by
  have hc := room_collision l
  have ht := room_target l
  obtain ⟨ec, hec⟩ := (C66_throws_iff cartModel roomDetector (.fin 1) (.fin 2) (.fin 1) (.fin 1) 2 10 2
    (diag3 (lit 1 0 /. .fin 1) (lit 0 0) (lit 1 0 /. .fin 1) : M3 (RDbl ieee))
    ⟨.fin (-1), lit 0 0, .fin (-1)⟩ ⟨.fin 1, lit 0 0, .fin 1⟩ 2 room_steps.1).2 (by decide)
  simp only [roomParams] at hc ht
  unfold Node.cart
  simp only [roomParams, vecAt, List.getElem?_cons_zero, List.getElem?_cons_succ, Res.ok_bind, ht, hc, hec,
    DynamicWindow.new, room_steps.2]
  refine ⟨_, _, rfl, ?_⟩
  rw [Bool.not_eq_true', RDbl.lt_fin_false]; norm_num

theorem room_yaw : getYaw (.fin 0 : RDbl ieee) (.fin 0) (.fin 0) (.fin 1) = .fin 0 := by
  have hl : ∀ n : Int, (lit n 0 : RDbl ieee) = .fin (ieee.rnd n) := fun n => by
    rw [RDbl.lit_fin, pow_zero, div_one]
  have hs : (lit (-2) 0 : RDbl ieee) *. (.fin 0 *. .fin 0 -. .fin 1 *. .fin 0) /.
      (.fin 0 *. .fin 0 +. .fin 0 *. .fin 0 +. .fin 0 *. .fin 0 +. .fin 1 *. .fin 1) = .fin 0 := by
    simp only [hl, RDbl.mul_fin, RDbl.sub_fin, RDbl.add_fin, mul_zero, ieee.rnd_zero, sub_zero, add_zero,
      zero_add, mul_one, ieee.rnd_one, RDbl.div_fin _ one_ne_zero, zero_div]
  have h9 : |ieee.rnd (99999 / 10 ^ 5) - 99999 / 10 ^ 5| ≤ 1 / 1000 := by
    have := (ieee.err (B := 1) minNormal_le_one (x := 99999 / 10 ^ 5) (by norm_num [abs_of_pos]))
    refine this.trans ?_
    norm_num
  have h9 := abs_le.mp h9
  have hm : ieee.rnd (((-99999 : Int) : ℝ) / 10 ^ 5) = -ieee.rnd (99999 / 10 ^ 5) := by
    rw [← ieee.neg]; congr 1; norm_num
  have hp : ieee.rnd (((99999 : Int) : ℝ) / 10 ^ 5) = ieee.rnd (99999 / 10 ^ 5) := by norm_num
  set t := ieee.rnd (99999 / 10 ^ 5) with ht
  have h12 : ieee.rnd (((1 : Int) : ℝ) / 10 ^ 12) ≤ 1 / 2 := by
    have := (abs_le.mp (ieee.err (B := 1) minNormal_le_one (x := ((1 : Int) : ℝ) / 10 ^ 12)
      (by norm_num [abs_of_pos]))).2
    norm_num at this ⊢
    linarith
  have ae : ∀ x : ℝ, (x = t ∨ x = -t) → almostEqual (.fin 0 : RDbl ieee) (.fin x) = false := by
    intro x hx
    have habs : fabs ((.fin 0 : RDbl ieee) -. .fin x) = .fin (ieee.rnd t) := by
      rw [RDbl.sub_fin]
      have ht0 : 0 ≤ t := by norm_num at h9 ⊢; linarith
      rcases hx with rfl | rfl
      · rw [zero_sub, ieee.neg]
        unfold fabs
        have hr : 0 < ieee.rnd t := by
          have := (abs_le.mp (ieee.err (B := 2) (minNormal_le_one.trans (by norm_num)) (x := t)
            (abs_le.mpr ⟨by linarith, by linarith⟩))).1
          norm_num at this h9 ⊢
          linarith
        rw [if_pos (by rw [hl, Int.cast_zero, ieee.rnd_zero, RDbl.lt_fin]; linarith), RDbl.neg_fin, neg_neg]
      · rw [zero_sub, neg_neg, fabs_rd (ieee.rnd_nonneg ht0)]
    unfold almostEqual
    rw [habs, RDbl.lit_fin, RDbl.lt_fin_false]
    refine h12.trans ?_
    have := (abs_le.mp (ieee.err (B := 2) (minNormal_le_one.trans (by norm_num)) (x := t)
      (abs_le.mpr ⟨by linarith, by linarith⟩))).1
    norm_num at this h9 ⊢
    linarith
  unfold getYaw
  dsimp only
  have lm : (lit (-99999) 5 : RDbl ieee) = .fin (-t) := by rw [RDbl.lit_fin, hm]
  have lp : (lit 99999 5 : RDbl ieee) = .fin t := by rw [RDbl.lit_fin, hp]
  rw [hs, lm, lp, ae _ (Or.inr rfl), ae _ (Or.inl rfl), if_neg, if_neg]
  · simp only [hl, RDbl.mul_fin, RDbl.sub_fin, RDbl.add_fin, mul_zero, ieee.rnd_zero, sub_zero, add_zero,
      mul_one, ieee.rnd_one]
    show RDbl.fin (Ieee.rnd (realAtan2 0 1)) = _
    have : realAtan2 0 1 = 0 := Complex.arg_one
    rw [this]
    exact congrArg _ ieee.rnd_zero
  · rw [Bool.or_false, Bool.not_eq_true, RDbl.lt_fin_false]
    norm_num at h9 ⊢
    linarith
  · rw [Bool.or_false, Bool.not_eq_true, RDbl.lt_fin_false]
    norm_num at h9 ⊢
    linarith

theorem room_sane (l : ℝ) (h0 : 0 ≤ l) : SaneRd ieee (roomReal l) 2 2 5 3 := by
  have h2 : ieee.rnd 2 = 2 := by exact_mod_cast ieee.int 2 (by norm_num)
  have hm := minNormal_le_one
  have hL : Lookahead 1 2 2 5 3 ⌊ieee.rnd (1 / 1)⌋₊ := by
    rw [div_one, ieee.rnd_one, Nat.floor_one]
    constructor <;> norm_num
  constructor <;> simp only [roomReal]
  case dwa_room => exact hL
  case val_room => exact hL
  case ec_dt => exact hm
  case columns => rw [div_one, h2]; norm_num
  case min_y => linarith
  case max_y => exact h0
  case weights => norm_num
  all_goals norm_num

theorem room_width : (mapOf roomMsg).xmax -. (mapOf roomMsg).xmin = .fin 10 ∧
    (mapOf roomMsg).ymax -. (mapOf roomMsg).ymin = .fin 10 := by
  have h10 : ieee.rnd 10 = 10 := by exact_mod_cast ieee.int 10 (by norm_num)
  have h : ((.fin 1 : RDbl ieee) *. Flt.ofInt ((10 : UInt32).toNat : Int) +. .fin 0) -. .fin 0 = .fin 10 := by
    rw [show ((10 : UInt32).toNat : Int) = 10 from rfl, RDbl.ofInt_fin, RDbl.mul_fin, RDbl.add_fin, RDbl.sub_fin]
    norm_num [h10]
  exact ⟨h, h⟩

theorem room_map_ok : MapOk roomDetector (.fin 1) cornerTarget (mapOf roomMsg) := by
  obtain ⟨hx, hy⟩ := room_width
  refine ⟨⟨0, 0, 1, 1, 2, 1, ?_⟩, ⟨⟨0, rfl⟩, ⟨0, rfl⟩, ⟨10, hx, by norm_num⟩, 10, hy, by norm_num⟩,
    ⟨10, 10, 1, hx, hy, rfl, by norm_num, by norm_num, by norm_num⟩, ?_⟩
  · refine ⟨⟨by decide, ?_⟩, ⟨rfl, rfl, rfl, by norm_num⟩, minNormal_le_one, by decide, by decide, by decide,
      by decide, rfl, rfl, rfl, by norm_num, by norm_num, by norm_num, by norm_num, by norm_num⟩
    show (List.replicate 100 (0 : Int8)).length = _
    rw [List.length_replicate]; decide
  · intro pts h
    obtain ⟨pts', hp, h0⟩ := phiGrid_rd (M := ieee) (lx := 10) (ly := 10) (res := 1) (by norm_num)
      (by norm_num) (by norm_num) (by norm_num) (by norm_num)
    rw [hx, hy, hp] at h
    obtain rfl := Res.ok.inj h
    refine ⟨_, h0, _, List.mem_singleton.mpr rfl, 1, ?_, ?_⟩
    · have hz : (lit 0 0 : RDbl ieee) = .fin 0 := by simp
      simp only [Gaussian.evalTrans, Gaussian.expForm, V2.sub, V2.dot, mapOf, roomMsg, hz, RDbl.sub_fin,
        RDbl.mul_fin, RDbl.add_fin, RDbl.lit_fin, RDbl.exp_fin, sub_zero, mul_zero, zero_mul, add_zero,
        ieee.rnd_zero]
      show RDbl.fin (Ieee.rnd (Real.exp 0)) = _
      rw [Real.exp_zero]
      exact congrArg _ ieee.rnd_one
    · rw [div_le_iff₀ (by positivity), one_mul]
      exact one_le_pow₀ (by norm_num)

theorem room_poses (vb : V3 (RDbl ieee)) : poses ([.map roomMsg, .odom vb] ++
    [Event.tick (some roomTf) [0, 0]]) = [⟨.fin 5, .fin 5, .fin 0⟩] := by
  show [(⟨.fin 5, .fin 5, getYaw (.fin 0 : RDbl ieee) (.fin 0) (.fin 0) (.fin 1)⟩ : V3 (RDbl ieee))] = _
  rw [room_yaw]

theorem room_supplied (vb : V3 (RDbl ieee)) : AllSuppliedRd roomDetector (.fin 1) cornerTarget 10 2 5 3
    [.map roomMsg, .odom vb, .tick (some roomTf) [0, 0]] := by
  intro pre tf draws post h
  obtain ⟨rfl, rfl, rfl⟩ := three_events h
  have hm : ∀ m, (maps [.map roomMsg, .odom vb]).getLast? = some m → m = roomMsg := by
    intro m h
    have h : some roomMsg = some m := h
    exact (Option.some.inj h).symm
  refine ⟨rfl, ?_, ?_, ?_⟩
  · intro r hr
    rw [room_poses]
    have : r = 0 := by simpa using hr
    subst this
    decide
  · intro m h
    rw [hm m h]; exact room_map_ok
  · intro m x h hx
    rw [hm m h]
    rw [room_poses, List.getLast?_singleton, Option.some.injEq] at hx
    subst hx
    refine ⟨5, 5, 0, 0, 0, 1, rfl, ⟨rfl, rfl, rfl, by norm_num⟩, ?_⟩
    norm_num

/-- An axis with limits of one and an acceleration of one. -/
theorem room_axis {v l : ℝ} (h0 : -l ≤ v) (h1 : v ≤ l) (hl : l ≤ 1) (n : ieee.rnd l = l) :
    AxisNumbers.Sane ⟨v, 1, 1, -l, l⟩ ieee 1 := by
  have : 0 ≤ l := by linarith
  refine sane_of_within minNormal_le_one h0 h1 ?_ ?_ ?_ ?_ ?_ n
  · norm_num
  · norm_num
  · simp only [abs_neg, abs_of_nonneg this]; exact hl
  · simp only [abs_of_nonneg this]; exact hl
  · simp only [ieee.neg, n]

/-- The hypotheses of `C99_omni` hold together: a node with a map of a hundred square metres, the
robot in the middle, moving; it runs, and publishes slow twists. -/
example : ∃ (n n' : Node (RDbl ieee)) (o out : List (Out (RDbl ieee))),
    Node.omni (roomParams 1) = .ok (n, o) ∧ n.up = true ∧
    n.run [.map roomMsg, .odom ⟨.fin 1, .fin (1 / 2), .fin (-1)⟩, .tick (some roomTf) [0, 0]] = .ok (n', out) ∧
    ∀ u ∈ twists out, Slow 2 2 u := by
  obtain ⟨n, o, hn, hu⟩ := room_omni 1
  have hax : ∀ v : ℝ, -1 ≤ v → v ≤ 1 → AxisNumbers.Sane ⟨v, 1, 1, -1, 1⟩ ieee 1 := fun v h0 h1 =>
    room_axis h0 h1 le_rfl ieee.rnd_one
  have h3 : ((3 : UInt32).toNat : ℝ) = 3 := by rw [show (3 : UInt32).toNat = 3 from rfl]; norm_num
  obtain ⟨n', out, hr, ht⟩ := C99_omni ieee_trig ieee_pow (roomParams 1) (roomReal 1) n o roomDetector cornerTarget
    [.map roomMsg, .odom ⟨.fin 1, .fin (1 / 2), .fin (-1)⟩, .tick (some roomTf) [0, 0]] zero_le_one
    (room_reads 1) (room_sane 1 zero_le_one) (room_collision 1) (room_target 1) hn
    (by
      rintro a b r ⟨a0, a1⟩ ⟨b0, b1⟩ ⟨r0, r1⟩
      simp only [roomReal, roomParams, h3] at a0 a1 b0 b1 r0 r1
      norm_num at a1 b1 r1
      refine ⟨?_, abs_le.mpr ⟨by linarith, by linarith⟩⟩
      unfold speed
      rw [Real.sqrt_le_left (by norm_num)]
      have ha : a ^ 2 ≤ 1.01 := by nlinarith
      have hb : b ^ 2 ≤ 1.01 := by nlinarith
      dsimp only
      linarith)
    ⟨0, 0, 0, rfl, hax 0 (by norm_num) (by norm_num), hax 0 (by norm_num) (by norm_num),
      hax 0 (by norm_num) (by norm_num)⟩
    (by
      intro u hu
      simp only [odoms, List.filterMap_cons, Event.odom?, List.filterMap_nil, List.mem_singleton] at hu
      subst hu
      exact ⟨_, _, _, rfl, hax _ (by norm_num) (by norm_num), hax _ (by norm_num) (by norm_num),
        hax _ (by norm_num) (by norm_num)⟩)
    (by
      intro x hx
      have hx : x ∈ poses ([.map roomMsg, .odom ⟨.fin 1, .fin (1 / 2), .fin (-1)⟩] ++
        [Event.tick (some roomTf) [0, 0]]) := hx
      rw [room_poses, List.mem_singleton] at hx
      subst hx
      exact ⟨⟨_, rfl⟩, ⟨_, rfl⟩, _, rfl⟩)
    (room_supplied _)
  exact ⟨n, n', o, out, hn, hu, hr, ht⟩

/-- So do those of `C99_cart`, with a measured lateral velocity of a half. -/
example : ∃ (n n' : Node (RDbl ieee)) (o out : List (Out (RDbl ieee))),
    Node.cart (roomParams 0) = .ok (n, o) ∧ n.up = true ∧
    n.run [.map roomMsg, .odom ⟨.fin 1, .fin (1 / 2), .fin (-1)⟩, .tick (some roomTf) [0, 0]] = .ok (n', out) ∧
    ∀ u ∈ twists out, Slow 2 2 u := by
  obtain ⟨n, o, hn, hu⟩ := room_cart 0
  have hax : ∀ v : ℝ, -1 ≤ v → v ≤ 1 → AxisNumbers.Sane ⟨v, 1, 1, -1, 1⟩ ieee 1 := fun v h0 h1 =>
    room_axis h0 h1 le_rfl ieee.rnd_one
  have h3 : ((3 : UInt32).toNat : ℝ) = 3 := by rw [show (3 : UInt32).toNat = 3 from rfl]; norm_num
  have hh : ieee.rnd (1 / 2) ≤ 1 := by
    have := ieee.mono (show (1 / 2 : ℝ) ≤ 1 by norm_num)
    rwa [ieee.rnd_one] at this
  obtain ⟨n', out, hr, ht⟩ := C99_cart ieee_trig ieee_pow (roomParams 0) (roomReal 0) n o roomDetector cornerTarget
    [.map roomMsg, .odom ⟨.fin 1, .fin (1 / 2), .fin (-1)⟩, .tick (some roomTf) [0, 0]] zero_le_one zero_le_one
    (room_reads 0) (room_sane 0 le_rfl) (room_collision 0) (room_target 0) hn
    (by
      rintro a b r ⟨a0, a1⟩ b0 b1 ⟨r0, r1⟩
      simp only [roomReal, roomParams, h3] at a0 a1 r0 r1
      norm_num at a1 r1
      refine ⟨?_, abs_le.mpr ⟨by linarith, by linarith⟩⟩
      unfold speed
      rw [Real.sqrt_le_left (by norm_num)]
      have ha : a ^ 2 ≤ 1.01 := by nlinarith
      have hb : b ^ 2 ≤ 1.01 := by nlinarith
      dsimp only
      linarith)
    ⟨0, 0, 0, rfl, hax 0 (by norm_num) (by norm_num), by rw [ieee.rnd_zero]; norm_num,
      hax 0 (by norm_num) (by norm_num)⟩
    (by
      intro u hu
      simp only [odoms, List.filterMap_cons, Event.odom?, List.filterMap_nil, List.mem_singleton] at hu
      subst hu
      exact ⟨_, _, _, rfl, hax _ (by norm_num) (by norm_num), hh, hax _ (by norm_num) (by norm_num)⟩)
    (by
      intro x hx
      have hx : x ∈ poses ([.map roomMsg, .odom ⟨.fin 1, .fin (1 / 2), .fin (-1)⟩] ++
        [Event.tick (some roomTf) [0, 0]]) := hx
      rw [room_poses, List.mem_singleton] at hx
      subst hx
      exact ⟨⟨_, rfl⟩, ⟨_, rfl⟩, _, rfl⟩)
    (room_supplied _)
  exact ⟨n, n', o, out, hn, hu, hr, ht⟩

end demo

end Ergodic
