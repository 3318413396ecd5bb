import Verif.Lemmas.ErgodicControl
import Verif.Lemmas.DynamicWindow
import Verif.Props.Target

/-!
# Properties C59, C60, C65, C66: the receding-horizon loop of the ergodic controller
-/

namespace Ergodic

section params
variable {F : Type} [Flt F] {model : TwistModel F} {collision : Collision F}
  {dt horizon resolution weight : F} {num_basis buffer_size batch_size : Nat} {Rinv : M3 F}
  {umin umax : V3 F} {e e' : ErgodicControl F} {g : GridMap F} {x u : V3 F} {draws : List Nat}

/-! ## C60 receding horizon -/

/-- C60: `control` predicts with the stored signal shifted by one column and a zero last column,
replaces every column, returns the first column, and stores the pose; the number of columns is
the number of steps of the horizon before and after. -/
theorem C60_receding (hb : EcBuilt model collision dt horizon resolution weight num_basis buffer_size
      batch_size Rinv umin umax e) (h : e.control g x draws = .ok (e', u)) :
    ∃ (n : UInt32) (us traj rhot : List (V3 F)), numSteps horizon dt = .ok n ∧ 2 ≤ n.toNat ∧
      e.ut.length = n.toNat ∧ us.length = n.toNat ∧
      (∀ i, i + 1 < n.toNat → us[i]? = e.ut[i + 1]?) ∧ us[n.toNat - 1]? = some ⟨lit 0 0, lit 0 0, lit 0 0⟩ ∧
      Rollout dt model.f x us traj ∧
      traj.length = n.toNat ∧ rhot.length = n.toNat ∧ e'.ut.length = n.toNat ∧
      (∀ (i : Nat) (y r : V3 F), traj[i]? = some y → rhot[i]? = some r →
        ∃ v, e'.ut[i]? = some v ∧ e.newControl (relTo g y) r = .ok v) ∧
      e'.ut[0]? = some u ∧ e'.pose = x := by
  have hi := hb.inv
  obtain ⟨ec, traj, pre, rhot, us, hcfg, h2, hsol, -, htl, -, rfl, hul, hrl, hu0, hnc⟩ :=
    ErgodicControl.control_ok hi.steps h
  obtain ⟨lx, ly, phik, rfl⟩ := ErgodicControl.configTarget_frame hcfg
  have hlen : (e.ut.drop 1 ++ [V3.zero]).length = e.steps.toNat := by
    have := hi.ut_length
    simp only [List.length_append, List.length_drop, List.length_singleton]; omega
  have hro := solve_rollout hi.steps hlen hsol
  rw [hi.dt_eq, hi.model_eq] at hro
  have hut := hi.ut_length
  refine ⟨e.steps, _, traj, rhot, hi.steps_eq, by omega, hut, hlen, ?_, ?_, hro, htl,
    by omega, by simp only; omega, ?_, hu0, rfl⟩
  · intro i hlt
    rw [List.getElem?_append_left (by simp; omega), List.getElem?_drop, Nat.add_comm]
  · rw [List.getElem?_append_right (by simp; omega)]
    have : e.steps.toNat - 1 - (e.ut.drop 1).length = 0 := by simp; omega
    rw [this]; rfl
  · intro i y r hy hr
    exact hnc i _ r (by rw [List.getElem?_map, hy]; rfl) hr

/-- C60: whatever has been called, `timeStep` is the spacing of the replayed states: the time step
given to the constructor. -/
theorem C60_time_step (model : TwistModel F) (collision : Collision F)
    (dt horizon resolution weight : F) (num_basis buffer_size batch_size : Nat) (Rinv : M3 F)
    (umin umax : V3 F) (e : ErgodicControl F)
    (h : EcBuilt model collision dt horizon resolution weight num_basis buffer_size batch_size Rinv
      umin umax e) : e.timeStep = dt := h.inv.dt_eq

/-- C60: after `control`, `optTraj` and `path` replay the stored signal from the stored pose; on a
model that does not throw they succeed. -/
theorem C60_replay (hb : EcBuilt model collision dt horizon resolution weight num_basis buffer_size
      batch_size Rinv umin umax e) (h : e.control g x draws = .ok (e', u)) :
    (∀ xs, e'.optTraj = .ok xs → Rollout dt model.f x e'.ut xs) ∧
    (∀ frame p, e'.path frame = .ok p → p.frame_id = frame ∧ ∃ xs, Rollout dt model.f x e'.ut xs ∧
      p.poses = xs.map fun y => poseMsg y.c0 y.c1 (normalizeAnglePI y.c2)) ∧
    ((∀ y, ∀ v ∈ e'.ut, ∃ d, model.f y v = .ok d) → ∀ frame, (∃ xs, e'.optTraj = .ok xs) ∧
      ∃ p, e'.path frame = .ok p) := by
  have hb' := hb.control h
  have hi := hb'.inv
  obtain ⟨_, _, _, _, _, _, _, _, _, _, _, _, _, _, _, _, hpose⟩ := C60_receding hb h
  have hro : ∀ xs, RungeKutta.solve e'.dt e'.model.f e'.pose e'.ut e'.horizon = .ok xs →
      Rollout dt model.f x e'.ut xs := by
    intro xs hxs
    have := solve_rollout hi.steps hi.ut_length hxs
    rwa [hi.dt_eq, hi.model_eq, hpose] at this
  refine ⟨hro, ?_, ?_⟩
  · intro frame p hp
    simp only [ErgodicControl.path, Res.bind_eq_ok, Res.ok.injEq] at hp
    obtain ⟨xs, hxs, rfl⟩ := hp
    exact ⟨rfl, xs, hro xs hxs, rfl⟩
  · intro hf frame
    have hf' : ∀ y, ∀ v ∈ e'.ut, ∃ d, e'.model.f y v = .ok d := by rw [hi.model_eq]; exact hf
    obtain ⟨xs, hxs⟩ := (C51_total e'.dt e'.horizon e'.model.f e'.pose e'.ut hf' e'.steps
      hi.steps).1.mpr hi.ut_length.ge
    refine ⟨⟨xs, hxs⟩, ⟨frame, xs.map fun y => poseMsg y.c0 y.c1 (normalizeAnglePI y.c2)⟩, ?_⟩
    simp only [ErgodicControl.path, hxs, Res.ok_bind]

/-- A call whose horizon has at least two steps, whose model does not throw, whose map can be
gridded and whose draws are in range comes as far as the update of the signal. -/
theorem control_reaches (hb : EcBuilt model collision dt horizon resolution weight num_basis buffer_size
      batch_size Rinv umin umax e) (hn : 2 ≤ e.steps.toNat)
    (hf : ∀ y, ∀ v ∈ V3.zero :: e.ut, ∃ d, model.f y v = .ok d) (hg : ∃ ec, e.configTarget g = .ok ec)
    (hd : draws.length = batch_size) (hr : ∀ r ∈ draws, r < e.buffer.memory.length) :
    ∃ (ec : ErgodicControl F) (xt rhot : List (V3 F)), ec.umin = umin ∧ ec.umax = umax ∧
      xt.length = e.steps.toNat ∧ rhot.length = e.steps.toNat ∧
      e.control g x draws = (do
        let ut' ← ec.updateLoop xt rhot
        let u ← col ut' 0
        .ok ({ ec with ut := ut' }, u)) := by
  have hi := hb.inv
  have hcfg : ∃ ec, ErgodicControl.configTarget { e with pose := x } g = .ok ec := by
    obtain ⟨ec, hec⟩ := hg
    rcases ErgodicControl.configTarget_ok hec with ⟨ha, hb, -⟩ | ⟨hne, grid, phik, hgrid, hp, -⟩
    · refine ⟨{ e with pose := x, map_pos := ⟨g.xmin, g.ymin⟩ }, ?_⟩
      unfold ErgodicControl.configTarget
      simp [ha, hb]
    · refine ⟨{ e with
        pose := x, map_pos := ⟨g.xmin, g.ymin⟩,
        basis := { e.basis with lx := g.xmax -. g.xmin, ly := g.ymax -. g.ymin }, phik := phik }, ?_⟩
      unfold ErgodicControl.configTarget
      dsimp only
      rw [if_neg (by rw [Bool.and_eq_true]; exact hne), hgrid, Res.ok_bind, hp, Res.ok_bind]
  obtain ⟨ec, hec⟩ := hcfg
  obtain ⟨lx, ly, phik, hfr⟩ := ErgodicControl.configTarget_frame hec
  have hut := hi.ut_length
  have hsh : ErgodicControl.shift ec.ut = .ok (ec.ut.drop 1 ++ [V3.zero]) := by
    unfold ErgodicControl.shift
    rw [if_neg (by rw [hfr]; simp only; omega)]
  have hlen : (ec.ut.drop 1 ++ [V3.zero]).length = e.steps.toNat := by
    rw [hfr]
    simp only [List.length_append, List.length_drop, List.length_singleton]; omega
  have hsteps : numSteps ec.horizon ec.dt = .ok e.steps := by rw [hfr]; exact hi.steps
  obtain ⟨traj, htraj⟩ := (C51_total ec.dt ec.horizon ec.model.f ec.pose (ec.ut.drop 1 ++ [V3.zero])
    (by
      rw [hfr]; dsimp only; rw [hi.model_eq]
      intro y v hv
      refine hf y v ?_
      rw [List.mem_append, List.mem_singleton] at hv
      rcases hv with hv | rfl
      · exact List.mem_cons_of_mem _ (List.mem_of_mem_drop hv)
      · exact List.mem_cons_self) e.steps hsteps).1.mpr hlen.ge
  obtain ⟨n, hn', htl, -⟩ := C51_structure _ _ _ _ _ _ htraj
  rw [hsteps, Res.ok.injEq] at hn'
  subst hn'
  obtain ⟨hist, hbuf⟩ := hi.buffer_eq
  have hml := (C22_first_states_kept buffer_size batch_size hist).1
  obtain ⟨pre, hpre, -⟩ := C23_sample buffer_size batch_size hist draws traj
    (by intro hc; rw [hc] at htl; simp at htl; omega) hd
    (by intro r hr'; rw [← hml, ← hbuf]; exact hr r hr')
  rw [← hbuf] at hpre
  have hbuf' : ec.buffer = e.buffer := by rw [hfr]
  rw [← hbuf'] at hpre
  have hst : ec.steps = e.steps := by rw [hfr]
  have hdrop : ((pre ++ traj).map (ErgodicControl.toFourier ec.map_pos)).drop
      (((pre ++ traj).map (ErgodicControl.toFourier ec.map_pos)).length - ec.steps.toNat) =
      traj.map (ErgodicControl.toFourier ec.map_pos) := by
    rw [hst, List.map_append, List.length_append, List.length_map, List.length_map, htl,
      Nat.add_sub_cancel]
    exact List.drop_left' (by simp)
  have hxl : (traj.map (ErgodicControl.toFourier ec.map_pos)).length = e.steps.toNat := by
    rw [List.length_map, htl]
  obtain ⟨rhot, hrho⟩ := C52_total ec.dt ec.horizon rhodot ec.model.fdx ec.rhoT
    (traj.map (ErgodicControl.toFourier ec.map_pos)) (ec.ut.drop 1 ++ [V3.zero])
    (ErgodicControl.gradErgodicMetric { ec with ut := ec.ut.drop 1 ++ [V3.zero] }
      (ec.basis.trajCoeff ((pre ++ traj).map (ErgodicControl.toFourier ec.map_pos)))
      (traj.map (ErgodicControl.toFourier ec.map_pos)))
    (ErgodicControl.gradBarrier { ec with ut := ec.ut.drop 1 ++ [V3.zero] }
      (traj.map (ErgodicControl.toFourier ec.map_pos))) e.steps hsteps hxl.ge hlen.ge
    (by simp only [ErgodicControl.gradErgodicMetric, List.length_map]; omega)
    (by simp only [ErgodicControl.gradBarrier, List.length_map]; omega)
  obtain ⟨n, hn', hrl, -⟩ := C52_structure _ _ _ _ _ _ _ _ _ _ hrho
  rw [hsteps, Res.ok.injEq] at hn'
  subst hn'
  refine ⟨{ ec with ut := ec.ut.drop 1 ++ [V3.zero] },
    traj.map (ErgodicControl.toFourier ec.map_pos), rhot, by rw [hfr]; exact hi.umin_eq,
    by rw [hfr]; exact hi.umax_eq, hxl, hrl, ?_⟩
  unfold ErgodicControl.control
  rw [hec, Res.ok_bind, hsh, Res.ok_bind]
  dsimp only
  rw [htraj, Res.ok_bind, hpre, Res.ok_bind,
    if_neg (by rw [hst, List.length_map, List.length_append]; omega), hdrop, hrho, Res.ok_bind]

/-- C60: a call of `control` succeeds whenever the horizon has at least two steps, the model
throws neither on the stored columns nor at rest, the map can be gridded, the draws are what `randi(batch, [0, stored - 1])` returns and
no upper limit is below its lower limit. -/
theorem C60_total (hb : EcBuilt model collision dt horizon resolution weight num_basis buffer_size
      batch_size Rinv umin umax e) (hn : 2 ≤ e.steps.toNat)
    (hf : ∀ y, ∀ v ∈ V3.zero :: e.ut, ∃ d, model.f y v = .ok d) (hg : ∃ ec, e.configTarget g = .ok ec)
    (hd : draws.length = batch_size) (hr : ∀ r ∈ draws, r < e.buffer.memory.length)
    (h0 : Flt.lt umax.c0 umin.c0 = false) (h1 : Flt.lt umax.c1 umin.c1 = false)
    (h2 : Flt.lt umax.c2 umin.c2 = false) : ∃ e' u, e.control g x draws = .ok (e', u) := by
  obtain ⟨ec, xt, rhot, hmin, hmax, hxl, hrl, hc⟩ := control_reaches (x := x) hb hn hf hg hd hr
  have hup : ∀ (xs rs : List (V3 F)), xs.length ≤ rs.length → ∃ us, ec.updateLoop xs rs = .ok us := by
    intro xs
    induction xs with
    | nil => intro rs _; exact ⟨[], rfl⟩
    | cons y xs ih =>
      intro rs hl
      cases rs with
      | nil => simp at hl
      | cons r rs =>
        obtain ⟨us, hus⟩ := ih rs (by simpa using hl)
        have hnc : ∃ v, ec.newControl y r = .ok v := by
          simp [ErgodicControl.newControl, ErgodicControl.clampR, hmin, hmax, h0, h1, h2]
        obtain ⟨v, hv⟩ := hnc
        exact ⟨v :: us, by simp only [ErgodicControl.updateLoop, hv, hus, Res.ok_bind]⟩
  obtain ⟨us, hus⟩ := hup xt rhot (by omega)
  obtain ⟨hul, -, -⟩ := ErgodicControl.updateLoop_ok _ _ _ _ hus
  have hu0 : ∃ u, us[0]? = some u := by
    rw [List.getElem?_eq_getElem (by omega)]; exact ⟨_, rfl⟩
  obtain ⟨u, hu⟩ := hu0
  exact ⟨_, _, by rw [hc, hus, Res.ok_bind, col_eq_ok.mpr hu, Res.ok_bind]⟩

/-! ## C65 gradients along the predicted trajectory -/

/-- C65: the columns fed to the backward pass, to the barrier and to the metric gradient are the
predicted trajectory in map coordinates, in order, for every content of the memory and every
draw; remembered states enter only through the trajectory coefficients. -/
theorem C65_columns (hb : EcBuilt model collision dt horizon resolution weight num_basis buffer_size
      batch_size Rinv umin umax e) (h : e.control g x draws = .ok (e', u)) :
    ∃ us traj pre rhot : List (V3 F), us = e.ut.drop 1 ++ [⟨lit 0 0, lit 0 0, lit 0 0⟩] ∧
      Rollout dt model.f x us traj ∧
      e.buffer.sampleMemory draws traj = .ok (pre ++ traj) ∧
      RungeKutta.solveBack dt rhodot model.fdx ⟨lit 0 0, lit 0 0, lit 0 0⟩ (traj.map (relTo g)) us
        (e'.gradErgodicMetric (e'.basis.trajCoeff ((pre ++ traj).map (relTo g)))
          (traj.map (relTo g)))
        (e'.gradBarrier (traj.map (relTo g))) horizon = .ok rhot ∧
      rhot.length = traj.length ∧ e'.ut.length = traj.length ∧
      ∀ (i : Nat) (y r : V3 F), traj[i]? = some y → rhot[i]? = some r →
        ∃ v, e'.ut[i]? = some v ∧ e'.newControl (relTo g y) r = .ok v := by
  have hi := hb.inv
  obtain ⟨ec, traj, pre, rhot, us, hcfg, h2, hsol, hmem, htl, hback, rfl, hul, hrl, hu0, hnc⟩ :=
    ErgodicControl.control_ok hi.steps h
  obtain ⟨lx, ly, phik, rfl⟩ := ErgodicControl.configTarget_frame hcfg
  have hut := hi.ut_length
  have hlen : (e.ut.drop 1 ++ [V3.zero]).length = e.steps.toNat := by
    simp only [List.length_append, List.length_drop, List.length_singleton]; omega
  have hro := solve_rollout hi.steps hlen hsol
  rw [hi.dt_eq, hi.model_eq] at hro
  rw [hi.dt_eq, hi.model_eq, hi.horizon_eq, hi.rhoT_eq] at hback
  refine ⟨_, traj, pre, rhot, rfl, hro, hmem, hback, hrl, hul, ?_⟩
  intro i y r hy hr
  exact hnc i _ r (by rw [List.getElem?_map, hy]; rfl) hr

/-- C65: in particular the trajectory along which gradients are taken does not depend on the
memory or on the draws: two calls with the same signal and pose use the same columns. -/
theorem C65_independent {e₁ e₁' e₂ e₂' : ErgodicControl F} {draws₁ draws₂ : List Nat} {u₁ u₂ : V3 F}
    (hb₁ : EcBuilt model collision dt horizon resolution weight num_basis buffer_size batch_size Rinv
      umin umax e₁)
    (hb₂ : EcBuilt model collision dt horizon resolution weight num_basis buffer_size batch_size Rinv
      umin umax e₂) (hut : e₁.ut = e₂.ut)
    (h₁ : e₁.control g x draws₁ = .ok (e₁', u₁)) (h₂ : e₂.control g x draws₂ = .ok (e₂', u₂)) :
    ∃ traj rhot₁ rhot₂ : List (V3 F), Rollout dt model.f x (e₁.ut.drop 1 ++ [⟨lit 0 0, lit 0 0, lit 0 0⟩]) traj ∧
      (∀ (i : Nat) (y r : V3 F), traj[i]? = some y → rhot₁[i]? = some r →
        ∃ v, e₁'.ut[i]? = some v ∧ e₁'.newControl (relTo g y) r = .ok v) ∧
      (∀ (i : Nat) (y r : V3 F), traj[i]? = some y → rhot₂[i]? = some r →
        ∃ v, e₂'.ut[i]? = some v ∧ e₂'.newControl (relTo g y) r = .ok v) ∧
      rhot₁.length = traj.length ∧ rhot₂.length = traj.length := by
  obtain ⟨us₁, t₁, p₁, r₁, rfl, ro₁, -, -, l₁, -, c₁⟩ := C65_columns hb₁ h₁
  obtain ⟨us₂, t₂, p₂, r₂, rfl, ro₂, -, -, l₂, -, c₂⟩ := C65_columns hb₂ h₂
  rw [← hut] at ro₂
  obtain rfl := ro₁.unique ro₂
  exact ⟨t₁, r₁, r₂, ro₁, c₁, c₂, l₁, l₂⟩

/-! ## C66 constructor -/

/-- C66: construction throws exactly when the horizon has one step (and is undefined exactly when
the step count does not fit an `unsigned int`). -/
theorem C66_throws_iff (model : TwistModel F) (collision : Collision F)
    (dt horizon resolution weight : F) (num_basis buffer_size batch_size : Nat) (Rinv : M3 F)
    (umin umax : V3 F) (n : UInt32) (hn : numSteps horizon dt = .ok n) :
    (n = 1 → ErgodicControl.new model collision dt horizon resolution weight num_basis buffer_size
      batch_size Rinv umin umax = .throw .invalidArgument) ∧
    (n ≠ 1 → ∃ e, ErgodicControl.new model collision dt horizon resolution weight num_basis
      buffer_size batch_size Rinv umin umax = .ok e) := by
  constructor
  · intro h; simp [ErgodicControl.new, hn, h]
  · intro h
    unfold ErgodicControl.new
    rw [hn, Res.ok_bind, if_neg h]
    exact ⟨_, rfl⟩

/-! ## C59 limits -/

theorem clampR_ok {v lo hi w : F} [StrictLt F] (h : ErgodicControl.clampR v lo hi = .ok w) :
    Flt.lt w lo = false ∧ Flt.lt hi w = false := by
  unfold ErgodicControl.clampR fclamp at h
  by_cases h0 : Flt.lt hi lo = true
  · rw [if_pos h0] at h; simp at h
  · rw [if_neg h0, Res.ok.injEq] at h
    rw [Bool.not_eq_true] at h0
    by_cases h1 : Flt.lt v lo = true
    · rw [if_pos h1] at h
      rw [← h]; exact ⟨StrictLt.irrefl _, h0⟩
    · rw [if_neg h1] at h
      by_cases h2 : Flt.lt hi v = true
      · rw [if_pos h2] at h
        rw [← h]; exact ⟨h0, StrictLt.irrefl _⟩
      · rw [if_neg h2] at h
        rw [← h]; exact ⟨by simpa using h1, by simpa using h2⟩

/-- the columns of the signal after `control` are results of the update -/
theorem columns_updated (hb : EcBuilt model collision dt horizon resolution weight num_basis
      buffer_size batch_size Rinv umin umax e) (h : e.control g x draws = .ok (e', u)) :
    ∀ v ∈ e'.ut, ∃ y r, e.newControl y r = .ok v := by
  obtain ⟨n, us, traj, rhot, -, -, -, -, -, -, -, h1, h2, h3, h4, -, -⟩ := C60_receding hb h
  intro v hv
  obtain ⟨i, hi, rfl⟩ := List.getElem_of_mem hv
  obtain ⟨w, hw, hw'⟩ := h4 i traj[i] rhot[i] (by simp) (by simp)
  rw [List.getElem?_eq_getElem hi, Option.some.injEq] at hw
  exact ⟨_, _, by rw [hw]; exact hw'⟩

/-- C59, in every arithmetic whose `<` is strict: after `control` no column, in particular not the
returned twist, compares as outside the limits. -/
theorem C59_not_outside [StrictLt F] (hb : EcBuilt model collision dt horizon resolution weight
      num_basis buffer_size batch_size Rinv umin umax e)
    (h : e.control g x draws = .ok (e', u)) :
    NotOutside umin u umax ∧ ∀ v ∈ e'.ut, NotOutside umin v umax := by
  have hall : ∀ v ∈ e'.ut, NotOutside umin v umax := by
    intro v hv
    obtain ⟨y, r, hyr⟩ := columns_updated hb h v hv
    simp only [ErgodicControl.newControl, Res.bind_eq_ok, Res.ok.injEq] at hyr
    obtain ⟨u0, h0, u1, h1, u2, h2, rfl⟩ := hyr
    have hi := hb.inv
    rw [hi.umin_eq, hi.umax_eq] at h0 h1 h2
    exact ⟨clampR_ok h0, clampR_ok h1, clampR_ok h2⟩
  obtain ⟨n, us, traj, rhot, -, -, -, -, -, -, -, -, -, -, -, hu, -⟩ := C60_receding hb h
  exact ⟨hall u (List.mem_of_getElem? hu), hall⟩

/-- Every stored column is zero or within the limits, at any time. -/
theorem columns_always [StrictLt F] (hb : EcBuilt model collision dt horizon resolution weight
      num_basis buffer_size batch_size Rinv umin umax e) :
    ∀ v ∈ e.ut, v = V3.zero ∨ NotOutside umin v umax := by
  obtain ⟨e0, h0, hr⟩ := hb
  induction hr with
  | start =>
    simp only [ErgodicControl.new, Res.bind_eq_ok] at h0
    obtain ⟨steps, hs, h0⟩ := h0
    split at h0
    · simp at h0
    · simp only [Res.ok.injEq] at h0
      rw [← h0]
      intro v hv
      exact Or.inl (List.eq_of_mem_replicate hv)
  | control g x draws hr hc ih => exact fun v hv => Or.inr ((C59_not_outside ⟨e0, h0, hr⟩ hc).2 v hv)
  | addStateMemory x hr ih => exact ih
  | setTarget t hr ih => exact ih

/-- C59: with an upper limit below the lower one, `control` never returns normally
(`std::clamp` is undefined). -/
theorem C59_inverted (hb : EcBuilt model collision dt horizon resolution weight num_basis buffer_size
      batch_size Rinv umin umax e) (h : Flt.lt umax.c0 umin.c0 = true ∨ Flt.lt umax.c1 umin.c1 = true ∨
      Flt.lt umax.c2 umin.c2 = true) : ¬ ∃ e' u, e.control g x draws = .ok (e', u) := by
  rintro ⟨e', u, hc⟩
  obtain ⟨n, us, traj, rhot, -, -, -, -, -, -, -, -, -, -, -, hu, -⟩ := C60_receding hb hc
  obtain ⟨y, r, hyr⟩ := columns_updated hb hc u (List.mem_of_getElem? hu)
  have hi := hb.inv
  simp only [ErgodicControl.newControl, Res.bind_eq_ok, Res.ok.injEq, ErgodicControl.clampR,
    hi.umin_eq, hi.umax_eq] at hyr
  obtain ⟨u0, h0, u1, h1, u2, h2, -⟩ := hyr
  rcases h with h | h | h
  · rw [if_pos h] at h0; simp at h0
  · rw [if_pos h] at h1; simp at h1
  · rw [if_pos h] at h2; simp at h2

/-- C59: with an upper limit below the lower one, a call that comes as far as the update has
undefined behaviour: neither an exception nor an endless loop. -/
theorem C59_inverted_ub (hb : EcBuilt model collision dt horizon resolution weight num_basis
      buffer_size batch_size Rinv umin umax e) (hn : 2 ≤ e.steps.toNat)
    (hf : ∀ y, ∀ v ∈ V3.zero :: e.ut, ∃ d, model.f y v = .ok d) (hg : ∃ ec, e.configTarget g = .ok ec)
    (hd : draws.length = batch_size) (hr : ∀ r ∈ draws, r < e.buffer.memory.length)
    (h : Flt.lt umax.c0 umin.c0 = true ∨ Flt.lt umax.c1 umin.c1 = true ∨
      Flt.lt umax.c2 umin.c2 = true) : e.control g x draws = .ub := by
  obtain ⟨ec, xt, rhot, hmin, hmax, hxl, hrl, hc⟩ := control_reaches (x := x) hb hn hf hg hd hr
  have hnc : ∀ y r, ec.newControl y r = .ub := by
    intro y r
    have hcl : ∀ v lo hi : F, ErgodicControl.clampR v lo hi = .ub ∨
        ∃ w, ErgodicControl.clampR v lo hi = .ok w := by
      intro v lo hi
      unfold ErgodicControl.clampR
      split
      · exact Or.inl rfl
      · exact Or.inr ⟨_, rfl⟩
    have hub : ∀ v lo hi : F, Flt.lt hi lo = true → ErgodicControl.clampR v lo hi = .ub := by
      intro v lo hi hl; rw [ErgodicControl.clampR, if_pos hl]
    unfold ErgodicControl.newControl
    rw [hmin, hmax]
    dsimp only
    rcases h with h | h | h
    · rw [hub _ _ _ h]; rfl
    · rcases hcl ((ec.Rinv.neg.mul (ec.model.fdu y).t).mulVec r).c0 umin.c0 umax.c0 with h0 | ⟨w, h0⟩
      · rw [h0]; rfl
      · rw [h0, Res.ok_bind, hub _ _ _ h]; rfl
    · rcases hcl ((ec.Rinv.neg.mul (ec.model.fdu y).t).mulVec r).c0 umin.c0 umax.c0 with h0 | ⟨w, h0⟩
      · rw [h0]; rfl
      rw [h0, Res.ok_bind]
      rcases hcl ((ec.Rinv.neg.mul (ec.model.fdu y).t).mulVec r).c1 umin.c1 umax.c1 with h1 | ⟨w', h1⟩
      · rw [h1]; rfl
      · rw [h1, Res.ok_bind, hub _ _ _ h]; rfl
  obtain ⟨y, xs, rfl⟩ := List.exists_cons_of_length_pos (l := xt) (by omega)
  obtain ⟨r, rs, rfl⟩ := List.exists_cons_of_length_pos (l := rhot) (by omega)
  rw [hc, ErgodicControl.updateLoop, hnc]
  rfl

end params

/-- Full statement of C59 for an arithmetic `F`. -/
def C59_statement (F : Type) [Flt F] : Prop :=
  ∀ (model : TwistModel F) (collision : Collision F) (dt horizon resolution weight : F)
    (num_basis buffer_size batch_size : Nat) (Rinv : M3 F) (umin umax : V3 F)
    (e e' : ErgodicControl F) (g : GridMap F) (x u : V3 F) (draws : List Nat),
    EcBuilt model collision dt horizon resolution weight num_basis buffer_size batch_size Rinv
      umin umax e → e.control g x draws = .ok (e', u) →
    InBox umin u umax ∧ ∀ v ∈ e'.ut, InBox umin v umax

theorem inBox_real (lo u hi : V3 ℝ) : NotOutside lo u hi ↔ InBox lo u hi := by
  have : ∀ a b : ℝ, AtMost a b ↔ a ≤ b := by
    intro a b; simp only [AtMost, real_lt]; exact le_iff_lt_or_eq.symm
  simp only [NotOutside, InBox, this, real_lt_false]

/-- C59 in exact arithmetic: every column of the stored signal and the returned twist are within
the limits. -/
theorem C59_limits_partial : C59_statement ℝ := by
  intro model collision dt horizon resolution weight num_basis buffer_size batch_size Rinv umin umax
    e e' g x u draws hb h
  obtain ⟨h1, h2⟩ := C59_not_outside hb h
  exact ⟨(inBox_real _ _ _).mp h1, fun v hv => (inBox_real _ _ _).mp (h2 v hv)⟩

/-- C60 for the cart, which throws on any lateral velocity: with both lateral limits zero a call
never throws (exact arithmetic). -/
theorem C60_total_cart {collision : Collision ℝ} {dt horizon resolution weight : ℝ}
    {num_basis buffer_size batch_size : Nat} {Rinv : M3 ℝ} {umin umax : V3 ℝ} {e : ErgodicControl ℝ}
    {g : GridMap ℝ} {x : V3 ℝ} {draws : List Nat}
    (hb : EcBuilt cartModel collision dt horizon resolution weight num_basis buffer_size
      batch_size Rinv umin umax e) (hn : 2 ≤ e.steps.toNat) (hg : ∃ ec, e.configTarget g = .ok ec)
    (hd : draws.length = batch_size) (hr : ∀ r ∈ draws, r < e.buffer.memory.length)
    (h0 : umin.c0 ≤ umax.c0) (h1 : umin.c1 = 0 ∧ umax.c1 = 0) (h2 : umin.c2 ≤ umax.c2) :
    ∃ e' u, e.control g x draws = .ok (e', u) ∧ u.c1 = 0 := by
  have hf : ∀ y : V3 ℝ, ∀ v ∈ V3.zero :: e.ut, ∃ d, (cartModel : TwistModel ℝ).f y v = .ok d := by
    intro y v hv
    have hz : v.c1 = 0 := by
      rw [List.mem_cons] at hv
      rcases hv with rfl | hv
      · simp [V3.zero]
      · rcases columns_always hb v hv with rfl | hv
        · simp [V3.zero]
        · have := hv.2.1
          rw [real_lt_false, real_lt_false, h1.1, h1.2] at this
          linarith [this.1, this.2]
    refine ⟨⟨v.c0 *. Flt.cos y.c2, v.c0 *. Flt.sin y.c2, v.c2⟩, ?_⟩
    show SimpleCart.f y v = _
    unfold SimpleCart.f
    rw [if_neg]
    rw [not_not, hz]
    norm_num [almostEqual, real_fabs]
  obtain ⟨e', u, hc⟩ := C60_total (x := x) hb hn hf hg hd hr (by rwa [real_lt_false])
    (by rw [real_lt_false, h1.1, h1.2]) (by rwa [real_lt_false])
  refine ⟨e', u, hc, ?_⟩
  have := (C59_not_outside hb hc).1.2.1
  rw [real_lt_false, real_lt_false, h1.1, h1.2] at this
  linarith [this.1, this.2]

section dbl
variable {model : TwistModel Dbl} {collision : Collision Dbl}
  {dt horizon resolution weight : Dbl} {num_basis buffer_size batch_size : Nat} {Rinv : M3 Dbl}
  {umin umax : V3 Dbl} {e e' : ErgodicControl Dbl} {g : GridMap Dbl} {x u : V3 Dbl} {draws : List Nat}

theorem Dbl.atMost_of_not_lt {a b : Dbl} (ha : a ≠ .nan) (hb : b ≠ .nan) (h : Flt.lt b a = false) :
    AtMost a b := by
  have h' : Dbl.lt b a = false := h
  show Dbl.lt a b = true ∨ a = b
  cases a with
  | nan => exact absurd rfl ha
  | inf s =>
    cases b with
    | nan => exact absurd rfl hb
    | inf t => cases s <;> cases t <;> simp_all [Dbl.lt]
    | fin r => cases s <;> simp_all [Dbl.lt]
  | fin r =>
    cases b with
    | nan => exact absurd rfl hb
    | inf t => cases t <;> simp_all [Dbl.lt]
    | fin q =>
      simp only [Dbl.lt, decide_eq_false_iff_not, not_lt] at h'
      rcases h'.lt_or_eq with hl | hl
      · left; simp [Dbl.lt, hl]
      · right; rw [hl]

/-- C59 with special values: a component that is not a number is the only way to leave the
limits. -/
theorem C59_or_nan_partial (hb : EcBuilt model collision dt horizon resolution weight num_basis
      buffer_size batch_size Rinv umin umax e) (h : e.control g x draws = .ok (e', u))
    (hlim : umin.c0 ≠ .nan ∧ umax.c0 ≠ .nan ∧ umin.c1 ≠ .nan ∧ umax.c1 ≠ .nan ∧
      umin.c2 ≠ .nan ∧ umax.c2 ≠ .nan) :
    ∀ v ∈ e'.ut, (v.c0 ≠ .nan → AtMost umin.c0 v.c0 ∧ AtMost v.c0 umax.c0) ∧
      (v.c1 ≠ .nan → AtMost umin.c1 v.c1 ∧ AtMost v.c1 umax.c1) ∧
      (v.c2 ≠ .nan → AtMost umin.c2 v.c2 ∧ AtMost v.c2 umax.c2) := by
  obtain ⟨a, b, c, d, p, q⟩ := hlim
  intro v hv
  obtain ⟨⟨h0, h0'⟩, ⟨h1, h1'⟩, ⟨h2, h2'⟩⟩ := (C59_not_outside hb h).2 v hv
  exact ⟨fun n => ⟨Dbl.atMost_of_not_lt a n h0, Dbl.atMost_of_not_lt n b h0'⟩,
    fun n => ⟨Dbl.atMost_of_not_lt c n h1, Dbl.atMost_of_not_lt n d h1'⟩,
    fun n => ⟨Dbl.atMost_of_not_lt p n h2, Dbl.atMost_of_not_lt n q h2'⟩⟩

theorem fsum_nan {l : List Dbl} (h : ∃ v ∈ l, v = .nan) : fsum l = .nan := by
  have key : ∀ (l : List Dbl) (a : Dbl), a = .nan ∨ (∃ v ∈ l, v = .nan) →
      l.foldl (fun s x => s +. x) a = .nan := by
    intro l
    induction l with
    | nil => intro a h; simpa using h
    | cons y l ih =>
      intro a h
      rw [List.foldl_cons]
      apply ih
      rcases h with rfl | ⟨v, hv, rfl⟩
      · left; simp
      · rcases List.mem_cons.mp hv with rfl | hv
        · left; simp
        · exact Or.inr ⟨_, hv, rfl⟩
  exact key l _ (Or.inr h)

theorem stepBack_nan (dt c : Dbl) (rho b : V3 Dbl) (A : M3 Dbl) :
    RungeKutta.stepBack dt rhodot rho ⟨.nan, .nan, c⟩ b A = ⟨.nan, .nan, .nan⟩ := by
  simp [RungeKutta.stepBack, rhodot, V3.sub, V3.neg, V3.smul, V3.add, M3.mulVec, M3.t, V3.dot]

theorem clampR_nan {lo hi w : Dbl} (h : ErgodicControl.clampR .nan lo hi = .ok w) : w = .nan := by
  unfold ErgodicControl.clampR fclamp at h
  split at h
  · simp at h
  · simpa using h.symm

/-- When the target coefficients are not numbers, a successful `control` returns, and stores in
every column, a twist without a single number: `std::clamp` lets NaN through. -/
theorem C59_nan (hn : 0 < num_basis)
    (hb : EcBuilt model collision dt horizon resolution weight num_basis
      buffer_size batch_size Rinv umin umax e) (h : e.control g x draws = .ok (e', u))
    (hk : ∀ v ∈ e'.phik, v = .nan) :
    u = ⟨.nan, .nan, .nan⟩ ∧ ∀ v ∈ e'.ut, v = ⟨.nan, .nan, .nan⟩ := by
  have hall : ∀ v ∈ e'.ut, v = ⟨.nan, .nan, .nan⟩ := by
    obtain ⟨us, traj, pre, rhot, -, -, -, hback, hrl, hul, hc⟩ := C65_columns hb h
    have hi := (hb.control h).inv
    obtain ⟨lx, ly, hbas⟩ := hi.basis_eq
    have hrho : ∀ r ∈ rhot, r = ⟨.nan, .nan, .nan⟩ := by
      obtain ⟨n, -, hrn, hs⟩ := C52_structure _ _ _ _ _ _ _ _ _ _ hback
      intro r hr
      obtain ⟨i, hilt, rfl⟩ := List.getElem_of_mem hr
      obtain ⟨eg, b, y, w, he, -, -, -, hri⟩ := hs i (by omega)
      have hnan : ∃ c, eg = ⟨.nan, .nan, c⟩ := by
        simp only [ErgodicControl.gradErgodicMetric, List.getElem?_map, Option.map_eq_some_iff] at he
        obtain ⟨p, -, rfl⟩ := he
        have hdiff : ∀ v ∈ List.zipWith (fun l d => l *. d) e'.basis.lamdak
            (List.zipWith (fun c p => c -. p)
              (e'.basis.trajCoeff ((pre ++ traj).map (relTo g))) e'.phik), v = Dbl.nan := by
          intro v hv
          obtain ⟨j, hj, rfl⟩ := List.getElem_of_mem hv
          simp only [List.getElem_zipWith]
          rw [hk _ (List.getElem_mem _)]
          simp
        have hlen : (List.zipWith (fun l d => l *. d) e'.basis.lamdak
            (List.zipWith (fun c p => c -. p)
              (e'.basis.trajCoeff ((pre ++ traj).map (relTo g))) e'.phik)).length =
            num_basis * num_basis := by
          have h1 : e'.basis.lamdak.length = num_basis * num_basis := by
            rw [hbas]; exact (C39_enumeration Dbl lx ly num_basis).2.2.2
          have h2 : e'.basis.k.length = num_basis * num_basis := by
            rw [hbas]; exact (C39_enumeration Dbl lx ly num_basis).1
          simp [Basis.trajCoeff, h1, h2, hi.phik_length]
        generalize List.zipWith (fun l d => l *. d) e'.basis.lamdak
            (List.zipWith (fun c p => c -. p)
              (e'.basis.trajCoeff ((pre ++ traj).map (relTo g))) e'.phik) = diff at hdiff hlen
        have hg : ∀ q : V2 Dbl, ErgodicControl.gradTimes e'.basis q diff = ⟨.nan, .nan⟩ := by
          intro q
          have hdl : (e'.basis.gradFourierBasis q).length = num_basis * num_basis := by
            rw [Basis.gradFourierBasis, List.length_map, hbas]
            exact (C39_enumeration Dbl lx ly num_basis).1
          have hpos : 0 < num_basis * num_basis := Nat.mul_pos hn hn
          have hz : ∀ (f : V2 Dbl → Dbl → Dbl), (∀ d, f d .nan = .nan) →
              fsum (List.zipWith f (e'.basis.gradFourierBasis q) diff) = .nan := by
            intro f hf
            apply fsum_nan
            have h0 : 0 < (List.zipWith f (e'.basis.gradFourierBasis q) diff).length := by
              rw [List.length_zipWith]; omega
            refine ⟨_, List.getElem_mem h0, ?_⟩
            rw [List.getElem_zipWith, hdiff _ (List.getElem_mem _), hf]
          simp only [ErgodicControl.gradTimes]
          rw [hz _ (fun d => by simp), hz _ (fun d => by simp)]
        exact ⟨lit 0 0, by simp only [hg, Dbl.nan_mul]⟩
      obtain ⟨c, rfl⟩ := hnan
      rw [stepBack_nan, List.getElem?_eq_getElem hilt, Option.some.injEq] at hri
      exact hri
    intro v hv
    obtain ⟨i, hilt, rfl⟩ := List.getElem_of_mem hv
    obtain ⟨w, hw, hw'⟩ := hc i traj[i] rhot[i] (by simp) (by simp)
    rw [List.getElem?_eq_getElem hilt, Option.some.injEq] at hw
    rw [hw]
    rw [hrho _ (List.getElem_mem _)] at hw'
    simp only [ErgodicControl.newControl, Res.bind_eq_ok, Res.ok.injEq, M3.mulVec, V3.dot, Dbl.mul_nan,
      Dbl.nan_add] at hw'
    obtain ⟨u0, h0, u1, h1, u2, h2, rfl⟩ := hw'
    rw [clampR_nan h0, clampR_nan h1, clampR_nan h2]
  obtain ⟨n, us, traj, rhot, -, -, -, -, -, -, -, -, -, -, -, hu, -⟩ := C60_receding hb h
  exact ⟨hall u (List.mem_of_getElem? hu), hall⟩

/-- C59: when the target has no mass on the grid (no Gaussian at all, or every one underflows) and
the map size is new, `control` commands a twist that is not a number. -/
theorem C59_zero_mass (hn : 0 < num_basis)
    (hb : EcBuilt model collision dt horizon resolution weight num_basis
      buffer_size batch_size Rinv umin umax e) (h : e.control g x draws = .ok (e', u))
    (hsize : almostEqual (g.xmax -. g.xmin) e.basis.lx = false ∨
      almostEqual (g.ymax -. g.ymin) e.basis.ly = false) (pts : List (V2 Dbl))
    (hg : ErgodicControl.phiGrid (g.xmax -. g.xmin) (g.ymax -. g.ymin) resolution = .ok pts)
    (hne : pts ≠ []) (hz : ∀ p ∈ pts, e.target.evaluate p ⟨g.xmin, g.ymin⟩ = .fin 0) :
    u = ⟨.nan, .nan, .nan⟩ ∧ ∀ v ∈ e'.ut, v = ⟨.nan, .nan, .nan⟩ := by
  apply C59_nan hn hb h
  have hi := hb.inv
  obtain ⟨ec, traj, pre, rhot, us, hcfg, -, -, -, -, -, rfl, -, -, -, -⟩ :=
    ErgodicControl.control_ok hi.steps h
  rcases ErgodicControl.configTarget_ok hcfg with ⟨h1, h2, -⟩ | ⟨-, grid, phik, hgr, hp, rfl⟩
  · exfalso
    rcases hsize with hs | hs
    · exact absurd h1 (by simpa using hs)
    · exact absurd h2 (by simpa using hs)
  · intro v hv
    rw [show ({ e with pose := x } : ErgodicControl Dbl).resolution = e.resolution from rfl,
      hi.resolution_eq, hg, Res.ok.injEq] at hgr
    subst hgr
    have hnan := C44_zero_mass e.target ⟨g.xmin, g.ymin⟩ pts hz
    have hlen : (e.target.fill ⟨g.xmin, g.ymin⟩ pts).length = pts.length := by simp [Target.fill]
    unfold Basis.spatialCoeff at hp
    rw [if_neg (by rw [hlen]; omega), Res.ok.injEq] at hp
    rw [show ErgodicControl.phik _ = phik from rfl, ← hp] at hv
    obtain ⟨k, -, rfl⟩ := List.mem_map.mp hv
    apply fsum_nan
    have hpos : 0 < pts.length := List.length_pos_iff.mpr hne
    have h0 : 0 < (List.zipWith (fun p v => ({ e.basis with
        lx := g.xmax -. g.xmin, ly := g.ymax -. g.ymin } : Basis Dbl).fk p k *. v) pts
        (e.target.fill ⟨g.xmin, g.ymin⟩ pts)).length := by
      rw [List.length_zipWith]; omega
    refine ⟨_, List.getElem_mem h0, ?_⟩
    rw [List.getElem_zipWith, hnan _ (List.getElem_mem _)]
    simp

end dbl

/-! ### A concrete controller without target -/

/-- unit square map with special-value arithmetic -/
noncomputable def unitMapD : GridMap Dbl :=
  { xsize := 1, ysize := 1, resolution := .fin 1, xmin := .fin 0, ymin := .fin 0, xmax := .fin 1,
    ymax := .fin 1, data := [0] }

/-- reached by calls on a controller with a two-step horizon, in special-value arithmetic -/
def DemoBuiltD (e : ErgodicControl Dbl) : Prop :=
  EcBuilt omniModel (⟨.fin 1, .fin 2, .fin 0.1, .fin 90⟩ : Collision Dbl) (.fin 1) (.fin 2) (.fin 1)
    (.fin 1) 2 0 0
    ⟨⟨.fin 1, .fin 0, .fin 0⟩, ⟨.fin 0, .fin 1, .fin 0⟩, ⟨.fin 0, .fin 0, .fin 1⟩⟩
    ⟨.fin (-1), .fin (-1), .fin (-1)⟩ ⟨.fin 1, .fin 1, .fin 1⟩ e

theorem demoD_steps : numSteps (.fin 2 : Dbl) (.fin 1) = .ok 2 := by
  simp only [numSteps, Dbl.div_fin 2 one_ne_zero, Dbl.fabs_fin, castU32, Dbl.trunc_fin]
  rw [show realTrunc |(2:ℝ) / 1| = 2 by
    rw [show |(2:ℝ) / 1| = ((2 : Int) : ℝ) by norm_num, realTrunc_intCast]]
  rfl

theorem axisLengthD : axisLength (lit 0 0) (.fin 1 : Dbl) (.fin 1) = .ok 1 := by
  unfold axisLength
  rw [Dbl.lit_eq, Dbl.sub_fin, Dbl.div_fin _ one_ne_zero, Dbl.round_fin]
  rw [show ((1:ℝ) - ((0:Int):ℝ) / 10 ^ 0) / 1 = ((1:Nat):ℝ) by norm_num, realRound_natCast]
  simp only [castU32, Dbl.trunc_fin]
  rw [show realTrunc ((1:Nat):ℝ) = 1 from realTrunc_intCast 1]
  rfl

theorem phiGridD : ∃ pts, ErgodicControl.phiGrid (.fin 1 : Dbl) (.fin 1) (.fin 1) = .ok pts ∧ pts ≠ [] := by
  unfold ErgodicControl.phiGrid
  rw [axisLengthD, Res.ok_bind, Res.ok_bind]
  dsimp only
  rw [if_neg (by decide)]
  refine ⟨_, rfl, ?_⟩
  rw [show ((1:UInt32) + 1).toNat = 2 from rfl]
  simp [ErgodicControl.accumList]

theorem demoD_size : almostEqual ((.fin 1 : Dbl) -. .fin 0) (lit 0 0) = false := by
  unfold almostEqual
  rw [Dbl.lit_eq, Dbl.sub_fin, Dbl.sub_fin, Dbl.fabs_fin, Dbl.lit_eq, Dbl.lt_fin_false]
  norm_num

theorem demoD_run : ∃ e e' u, DemoBuiltD e ∧ e.control unitMapD ⟨.fin 0, .fin 0, .fin 0⟩ [] = .ok (e', u) ∧
    u = ⟨.nan, .nan, .nan⟩ := by
  have h : ∃ e0, ErgodicControl.new omniModel (⟨.fin 1, .fin 2, .fin 0.1, .fin 90⟩ : Collision Dbl)
      (.fin 1) (.fin 2) (.fin 1) (.fin 1) 2 0 0
      ⟨⟨.fin 1, .fin 0, .fin 0⟩, ⟨.fin 0, .fin 1, .fin 0⟩, ⟨.fin 0, .fin 0, .fin 1⟩⟩
      ⟨.fin (-1), .fin (-1), .fin (-1)⟩ ⟨.fin 1, .fin 1, .fin 1⟩ = .ok e0 ∧
      e0.basis.lx = lit 0 0 ∧ e0.target.gaussians = [] ∧ e0.resolution = .fin 1 ∧ e0.steps = 2 := by
    unfold ErgodicControl.new
    rw [demoD_steps, Res.ok_bind, if_neg (by decide)]
    exact ⟨_, rfl, rfl, rfl, rfl, rfl⟩
  obtain ⟨e0, h0, hlx, ht, hres, hst⟩ := h
  have hb : DemoBuiltD e0 := ⟨e0, h0, .start⟩
  obtain ⟨pts, hp, hne⟩ := phiGridD
  have hd : (Dbl.fin 1 -. .fin 0) = .fin 1 := by rw [Dbl.sub_fin, sub_zero]
  have hc : ∃ e' u, e0.control unitMapD ⟨.fin 0, .fin 0, .fin 0⟩ [] = .ok (e', u) := by
    refine C60_total hb (by rw [hst]; decide) (fun y v _ => ⟨_, rfl⟩) ?_ rfl (by simp) ?_ ?_ ?_
    · unfold ErgodicControl.configTarget
      dsimp only [unitMapD]
      rw [hlx, demoD_size, Bool.false_and, if_neg (by decide), hd, hres, hp, Res.ok_bind]
      unfold Basis.spatialCoeff
      rw [if_neg (by simp [Target.fill]), Res.ok_bind]
      exact ⟨_, rfl⟩
    all_goals rw [Dbl.lt_fin_false]; norm_num
  obtain ⟨e', u, hc⟩ := hc
  refine ⟨e0, e', u, hb, hc, ?_⟩
  refine (C59_zero_mass (by norm_num) hb hc (Or.inl ?_) pts ?_ hne ?_).1
  · rw [hlx]; exact demoD_size
  · dsimp only [unitMapD]; rw [hd]; exact hp
  · intro p _
    simp only [Target.evaluate, ht, List.foldl_nil, Dbl.lit_eq]
    norm_num

/-- C59 is false once NaN exists: before a target is set the first commanded twist is NaN in every
component. -/
theorem C59_refuted : ¬ C59_statement Dbl := by
  intro hs
  obtain ⟨e, e', u, hb, hc, rfl⟩ := demoD_run
  have := (hs _ _ _ _ _ _ _ _ _ _ _ _ _ _ _ _ _ _ hb hc).1.1.1
  rcases this with h | h
  · simp at h
  · simp at h

/-- C59 with the two forward limits exchanged, 1 at the bottom and -1 at the top: the first call is
undefined behaviour. -/
example : ∃ e : ErgodicControl Dbl, ErgodicControl.new omniModel
      (⟨.fin 1, .fin 2, .fin 0.1, .fin 90⟩ : Collision Dbl) (.fin 1) (.fin 2) (.fin 1) (.fin 1) 2 0 0
      ⟨⟨.fin 1, .fin 0, .fin 0⟩, ⟨.fin 0, .fin 1, .fin 0⟩, ⟨.fin 0, .fin 0, .fin 1⟩⟩
      ⟨.fin 1, .fin (-1), .fin (-1)⟩ ⟨.fin (-1), .fin 1, .fin 1⟩ = .ok e ∧
    e.control unitMapD ⟨.fin 0, .fin 0, .fin 0⟩ [] = .ub := by
  have h : ∃ e0, ErgodicControl.new omniModel (⟨.fin 1, .fin 2, .fin 0.1, .fin 90⟩ : Collision Dbl)
      (.fin 1) (.fin 2) (.fin 1) (.fin 1) 2 0 0
      ⟨⟨.fin 1, .fin 0, .fin 0⟩, ⟨.fin 0, .fin 1, .fin 0⟩, ⟨.fin 0, .fin 0, .fin 1⟩⟩
      ⟨.fin 1, .fin (-1), .fin (-1)⟩ ⟨.fin (-1), .fin 1, .fin 1⟩ = .ok e0 ∧
      e0.basis.lx = lit 0 0 ∧ e0.resolution = .fin 1 ∧ e0.steps = 2 := by
    unfold ErgodicControl.new
    rw [demoD_steps, Res.ok_bind, if_neg (by decide)]
    exact ⟨_, rfl, rfl, rfl, rfl⟩
  obtain ⟨e0, h0, hlx, hres, hst⟩ := h
  obtain ⟨pts, hp, hne⟩ := phiGridD
  have hd : (Dbl.fin 1 -. .fin 0) = .fin 1 := by rw [Dbl.sub_fin, sub_zero]
  refine ⟨e0, h0, C59_inverted_ub ⟨e0, h0, .start⟩ (by rw [hst]; decide) (fun y v _ => ⟨_, rfl⟩) ?_ rfl
    (by simp) (Or.inl (by rw [Dbl.lt_fin]; norm_num))⟩
  unfold ErgodicControl.configTarget
  dsimp only [unitMapD]
  rw [hlx, demoD_size, Bool.false_and, if_neg (by decide), hd, hres, hp, Res.ok_bind]
  unfold Basis.spatialCoeff
  rw [if_neg (by simp [Target.fill]), Res.ok_bind]
  exact ⟨_, rfl⟩

/-! ## C66 fewer than two steps -/

/-- Full statement of C66. -/
def C66_statement : Prop :=
  ∀ (model : TwistModel ℝ) (collision : Collision ℝ) (dt horizon resolution weight : ℝ)
    (num_basis buffer_size batch_size : Nat) (Rinv : M3 ℝ) (umin umax : V3 ℝ),
    ⌊|horizon / dt|⌋ < 2 → ErgodicControl.new model collision dt horizon resolution weight num_basis
      buffer_size batch_size Rinv umin umax = .throw .invalidArgument

/-- C66 for one step.  Missing: horizons shorter than one step, which are accepted. -/
theorem C66_one_step_partial (model : TwistModel ℝ) (collision : Collision ℝ)
    (dt horizon resolution weight : ℝ) (num_basis buffer_size batch_size : Nat) (Rinv : M3 ℝ)
    (umin umax : V3 ℝ) (h : ⌊|horizon / dt|⌋ = 1) :
    ErgodicControl.new model collision dt horizon resolution weight num_basis buffer_size batch_size
      Rinv umin umax = .throw .invalidArgument := by
  have hn : numSteps horizon dt = .ok 1 := by
    simp only [numSteps, real_div, real_fabs]
    rw [Int.floor_eq_iff] at h
    exact castU32_real_of (n := 1) (by push_cast at h ⊢; linarith [h.1])
      (by push_cast at h ⊢; linarith [h.2]) (by norm_num)
  exact (C66_throws_iff model collision dt horizon resolution weight num_basis buffer_size batch_size
    Rinv umin umax 1 hn).1 rfl

/-- C66: a horizon shorter than one step is accepted. -/
theorem C66_zero_accepted (model : TwistModel ℝ) (collision : Collision ℝ)
    (dt horizon resolution weight : ℝ) (num_basis buffer_size batch_size : Nat) (Rinv : M3 ℝ)
    (umin umax : V3 ℝ) (h : ⌊|horizon / dt|⌋ = 0) :
    ∃ e, ErgodicControl.new model collision dt horizon resolution weight num_basis buffer_size
      batch_size Rinv umin umax = .ok e := by
  have hn : numSteps horizon dt = .ok 0 := by
    simp only [numSteps, real_div, real_fabs]
    rw [Int.floor_eq_iff] at h
    exact castU32_real_of (n := 0) (by push_cast at h ⊢; linarith [h.1])
      (by push_cast at h ⊢; linarith [h.2]) (by norm_num)
  exact (C66_throws_iff model collision dt horizon resolution weight num_basis buffer_size batch_size
    Rinv umin umax 0 hn).2 (by decide)

/-- C66: an object built with no step can never be used: every `control` fails. -/
theorem C66_zero_unusable {F : Type} [Flt F] {model : TwistModel F} {collision : Collision F}
    {dt horizon resolution weight : F} {num_basis buffer_size batch_size : Nat} {Rinv : M3 F}
    {umin umax : V3 F} {e : ErgodicControl F} (h0 : numSteps horizon dt = .ok 0)
    (hb : EcBuilt model collision dt horizon resolution weight num_basis buffer_size batch_size Rinv
      umin umax e) (g : GridMap F) (x : V3 F) (draws : List Nat) :
    ¬ ∃ e' u, e.control g x draws = .ok (e', u) := by
  rintro ⟨e', u, h⟩
  obtain ⟨n, us, traj, rhot, hn, h2, -⟩ := C60_receding hb h
  rw [h0, Res.ok.injEq] at hn
  subst hn
  simp at h2

/-- C66: more exactly, on a map that can be gridded every `control` of such an object throws. -/
theorem C66_zero_throws {F : Type} [Flt F] {model : TwistModel F} {collision : Collision F}
    {dt horizon resolution weight : F} {num_basis buffer_size batch_size : Nat} {Rinv : M3 F}
    {umin umax : V3 F} {e : ErgodicControl F} (h0 : numSteps horizon dt = .ok 0)
    (hb : EcBuilt model collision dt horizon resolution weight num_basis buffer_size batch_size Rinv
      umin umax e) (g : GridMap F) (x : V3 F) (draws : List Nat)
    (hg : ∃ ec, ErgodicControl.configTarget { e with pose := x } g = .ok ec) :
    e.control g x draws = .throw .logicError := by
  obtain ⟨ec, hc⟩ := hg
  have hs := hb.inv.steps_eq
  rw [h0, Res.ok.injEq] at hs
  have hl := hb.inv.ut_length
  rw [← hs] at hl
  obtain ⟨lx, ly, phik, hec⟩ := ErgodicControl.configTarget_frame hc
  unfold ErgodicControl.control
  rw [hc, Res.ok_bind, hec]
  unfold ErgodicControl.shift
  dsimp only
  rw [if_pos (by rw [hl]; decide)]
  rfl

/-- C66 is false. -/
theorem C66_refuted : ¬ C66_statement := by
  intro h
  have hf : ⌊|(1 / 2 : ℝ) / 1|⌋ = 0 := by
    rw [Int.floor_eq_iff]; norm_num [abs_of_pos]
  obtain ⟨e, he⟩ := C66_zero_accepted omniModel ⟨1, 2, 0.1, 90⟩ 1 (1 / 2) 1 1 2 0 0
    ⟨⟨1, 0, 0⟩, ⟨0, 1, 0⟩, ⟨0, 0, 1⟩⟩ ⟨-1, -1, -1⟩ ⟨1, 1, 1⟩ hf
  rw [h _ _ _ _ _ _ _ _ _ _ _ _ (by rw [hf]; norm_num)] at he
  simp at he

example : ⌊|(1.5 : ℝ) / 1|⌋ = 1 := by
  rw [Int.floor_eq_iff]; norm_num [abs_of_pos]

end Ergodic
