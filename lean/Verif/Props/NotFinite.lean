import Verif.Props.RoundedControl
import Verif.Props.Exploration

/-!
# Property C97: a twist that is not finite stops the node

Nothing between the ergodic controller and the collision detector looks for NaN: the first simulated
position is converted to a cell index, and that conversion is undefined.
-/

namespace Ergodic
variable {M : Machine}

/-! ## arithmetic never repairs a number -/

namespace NotNum

theorem cases_rd {a : RDbl M} (h : ¬ Num a) : a = .nan ∨ ∃ s, a = .inf s := by
  cases a with
  | fin r => exact absurd ⟨r, rfl⟩ h
  | nan => exact Or.inl rfl
  | inf s => exact Or.inr ⟨s, rfl⟩

theorem of_nan : ¬ Num (.nan : RDbl M) := by rintro ⟨r, h⟩; exact Dbl.noConfusion h
theorem of_inf (s : Bool) : ¬ Num (.inf s : RDbl M) := by rintro ⟨r, h⟩; exact Dbl.noConfusion h

theorem rd {a : Dbl} (h : ∀ r, a ≠ .fin r) : ¬ @Num M (RDbl.rd M a) := by
  cases a with
  | fin r => exact absurd rfl (h r)
  | nan => exact of_nan
  | inf s => exact of_inf s

theorem add_left {a : RDbl M} (h : ¬ Num a) (b : RDbl M) : ¬ Num (a +. b) := by
  show ¬ @Num M (RDbl.rd M (Dbl.add a b))
  rcases cases_rd h with rfl | ⟨s, rfl⟩
  · exact rd (by intro r; cases b <;> exact fun h => Dbl.noConfusion h)
  · refine rd ?_
    intro r
    cases b with
    | fin b => exact fun h => Dbl.noConfusion h
    | nan => exact fun h => Dbl.noConfusion h
    | inf t => cases s <;> cases t <;> exact fun h => Dbl.noConfusion h

theorem add_right {b : RDbl M} (h : ¬ Num b) (a : RDbl M) : ¬ Num (a +. b) := by
  show ¬ @Num M (RDbl.rd M (Dbl.add a b))
  rcases cases_rd h with rfl | ⟨s, rfl⟩
  · exact rd (by intro r; cases a <;> exact fun h => Dbl.noConfusion h)
  · refine rd ?_
    intro r
    cases a with
    | fin b => exact fun h => Dbl.noConfusion h
    | nan => exact fun h => Dbl.noConfusion h
    | inf t => cases s <;> cases t <;> exact fun h => Dbl.noConfusion h

theorem sub_left {a : RDbl M} (h : ¬ Num a) (b : RDbl M) : ¬ Num (a -. b) :=
  add_left h (Dbl.neg b)

theorem mul_left {a : RDbl M} (h : ¬ Num a) (b : RDbl M) : ¬ Num (a *. b) := by
  show ¬ @Num M (RDbl.rd M (Dbl.mul a b))
  refine rd ?_
  intro r
  rcases cases_rd h with rfl | ⟨s, rfl⟩
  · cases b <;> exact fun h => Dbl.noConfusion h
  · cases b with
    | fin b =>
      show Dbl.mul (.inf s) (.fin b) ≠ _
      simp only [Dbl.mul]
      split_ifs <;> exact fun h => Dbl.noConfusion h
    | nan => exact fun h => Dbl.noConfusion h
    | inf t => exact fun h => Dbl.noConfusion h

theorem mul_right {b : RDbl M} (h : ¬ Num b) (a : RDbl M) : ¬ Num (a *. b) := by
  show ¬ @Num M (RDbl.rd M (Dbl.mul a b))
  refine rd ?_
  intro r
  rcases cases_rd h with rfl | ⟨s, rfl⟩
  · cases a <;> exact fun h => Dbl.noConfusion h
  · cases a with
    | fin b =>
      show Dbl.mul (.fin b) (.inf s) ≠ _
      simp only [Dbl.mul]
      split_ifs <;> exact fun h => Dbl.noConfusion h
    | nan => exact fun h => Dbl.noConfusion h
    | inf t => exact fun h => Dbl.noConfusion h

theorem div_left {a : RDbl M} (h : ¬ Num a) (b : RDbl M) : ¬ Num (a /. b) := by
  show ¬ @Num M (RDbl.rd M (Dbl.div a b))
  refine rd ?_
  intro r
  rcases cases_rd h with rfl | ⟨s, rfl⟩
  · cases b <;> exact fun h => Dbl.noConfusion h
  · cases b <;> exact fun h => Dbl.noConfusion h

theorem neg {a : RDbl M} (h : ¬ Num a) : ¬ Num (~-. a) := by
  rcases cases_rd h with rfl | ⟨s, rfl⟩
  · exact of_nan
  · exact of_inf (!s)

theorem sin {a : RDbl M} (h : ¬ Num a) : ¬ Num (Flt.sin a) := by
  rcases cases_rd h with rfl | ⟨s, rfl⟩ <;> exact of_nan

theorem cos {a : RDbl M} (h : ¬ Num a) : ¬ Num (Flt.cos a) := by
  rcases cases_rd h with rfl | ⟨s, rfl⟩ <;> exact of_nan

/-- The conversion to an index is undefined. -/
theorem index {a : RDbl M} (h : ¬ Num a) : castU32 (Flt.floor a) = .ub := by
  rcases cases_rd h with rfl | ⟨s, rfl⟩ <;> rfl

end NotNum

open NotNum

theorem castU32_ok_or_ub (a : RDbl M) : (∃ n, castU32 a = .ok n) ∨ castU32 a = .ub := by
  unfold castU32
  split
  · split
    · exact Or.inl ⟨_, rfl⟩
    · exact Or.inr rfl
  · exact Or.inr rfl

/-- A collision check at a position that is not finite has undefined behaviour. -/
theorem check_not_num (c : Collision (RDbl M)) (g : GridMap (RDbl M)) {p : V3 (RDbl M)}
    (h : ¬ Num p.c0 ∨ ¬ Num p.c1) : c.collisionCheck g p = .ub := by
  have hw : g.world2Grid p.c0 p.c1 = .ub := by
    unfold GridMap.world2Grid
    rcases h with h | h
    · rw [index (div_left (sub_left h _) _)]; rfl
    · rcases castU32_ok_or_ub (Flt.floor ((p.c0 -. g.xmin) /. g.resolution)) with ⟨n, e⟩ | e
      · rw [e, Res.ok_bind, index (div_left (sub_left h _) _)]; rfl
      · rw [e]; rfl
  unfold Collision.collisionCheck Collision.config
  rw [hw]
  rfl

/-- One simulated step does not repair a pose or a twist that is not finite. -/
theorem step_not_num (x u : V3 (RDbl M)) (dt : RDbl M) (h : ¬ (V3Num x ∧ V3Num u)) :
    ¬ Num (integrateTwist x u dt).c0 ∨ ¬ Num (integrateTwist x u dt).c1 := by
  by_cases h1 : Num x.c1
  · refine Or.inl ?_
    unfold integrateTwist
    by_cases hx0 : Num x.c0
    swap
    · exact add_left hx0 _
    refine add_right ?_ _
    by_cases hx2 : Num x.c2
    swap
    · exact add_left (add_left (mul_left (cos hx2) _) _) _
    have hu : ¬ V3Num u := fun hu => h ⟨⟨hx0, h1, hx2⟩, hu⟩
    have key : ∀ d : V3 (RDbl M), ¬ V3Num d →
        ¬ Num (((transform2dAngle x.c2).mulVec d).c0) := by
      intro d hd
      by_cases d0 : Num d.c0
      · by_cases d1 : Num d.c1
        · have d2 : ¬ Num d.c2 := fun d2 => hd ⟨d0, d1, d2⟩
          exact add_right (mul_right d2 _) _
        · exact add_left (add_right (mul_right d1 _) _) _
      · exact add_left (add_left (mul_right d0 _) _) _
    refine key _ ?_
    split
    · rename_i ha
      have u2 : Num u.c2 := by
        by_contra hu2
        unfold almostEqual fabs at ha
        have hb := sub_left hu2 (lit 0 0)
        rcases cases_rd hb with e | ⟨s, e⟩
        · rw [e] at ha
          rw [lt_nan_rd] at ha
          simp [lt_nan_rd] at ha
        · rw [e] at ha
          cases s
          · exact Bool.noConfusion (show Dbl.lt (.inf false) _ = true from ha)
          · exact Bool.noConfusion (show Dbl.lt (.inf false) _ = true from ha)
      rintro ⟨a, b, -⟩
      refine hu ⟨?_, ?_, u2⟩
      · by_contra hc; exact mul_left hc _ a
      · by_contra hc; exact mul_left hc _ b
    · rintro ⟨a, b, c⟩
      refine hu ⟨?_, ?_, ?_⟩
      · by_contra hc; exact div_left (add_left (mul_left (mul_left hc _) _) _) _ a
      · by_contra hc; exact div_left (add_right (mul_left (mul_left hc _) _) _) _ a
      · by_contra hc; exact mul_left hc _ c
  · exact Or.inr (add_left h1 _)

section
variable (c : Collision (RDbl M)) (g : GridMap (RDbl M)) (x u : V3 (RDbl M))

/-- C97: the validation of a twist that is not finite, or from a pose that is not finite, has undefined
behaviour as soon as it simulates one step, whatever the map and the detector. -/
theorem C97_validate {dt horizon : RDbl M} (h : ¬ (V3Num x ∧ V3Num u)) {n : UInt32}
    (hn : numSteps horizon dt = .ok n) (hpos : 0 < n.toNat) :
    validateControl c g x u dt horizon = .ub := by
  unfold validateControl
  rw [hn, Res.ok_bind]
  obtain ⟨k, hk⟩ := Nat.exists_eq_succ_of_ne_zero hpos.ne'
  rw [hk, validateLoop]
  have hc : ∀ th, c.collisionCheck g ⟨(integrateTwist x u dt).c0, (integrateTwist x u dt).c1, th⟩ = .ub :=
    fun th => check_not_num c g (step_not_num x u dt h)
  rw [hc]
  rfl

end

/-- C97: so has the simulation of a candidate twist by the dynamic window, with either objective. -/
theorem C97_objective (d : DynamicWindow (RDbl M)) (g : GridMap (RDbl M)) (x u : V3 (RDbl M))
    (h : ¬ (V3Num x ∧ V3Num u)) (hpos : 0 < d.steps.toNat) :
    (∀ vref, d.objectiveTwist g x vref u = .ub) ∧ ∀ ref tf, d.objectiveTraj g x u ref tf = .ub := by
  obtain ⟨k, hk⟩ := Nat.exists_eq_succ_of_ne_zero hpos.ne'
  have hc : ∀ th, d.collision.collisionCheck g
      ⟨(integrateTwist x u d.dt).c0, (integrateTwist x u d.dt).c1, th⟩ = .ub :=
    fun th => check_not_num _ g (step_not_num x u d.dt h)
  constructor
  · intro vref
    unfold DynamicWindow.objectiveTwist
    rw [hk, DynamicWindow.rollout]
    dsimp only
    rw [hc]
    rfl
  · intro ref tf
    unfold DynamicWindow.objectiveTraj
    rw [hk, DynamicWindow.trajLoop]
    dsimp only
    rw [hc]
    rfl

/-- The search begins with the lower corner of the window. -/
theorem search_first_ub (d : DynamicWindow (RDbl M)) (vb : V3 (RDbl M)) (cost : V3 (RDbl M) → Res (RDbl M))
    (hx : 0 < d.vx_samples.toNat) (hy : 0 < d.vy_samples.toNat) (hw : 0 < d.vth_samples.toNat)
    (h : cost (d.velLower vb) = .ub) : d.searchWindow vb cost = .ub := by
  obtain ⟨i, hi⟩ := Nat.exists_eq_succ_of_ne_zero hx.ne'
  obtain ⟨j, hj⟩ := Nat.exists_eq_succ_of_ne_zero hy.ne'
  obtain ⟨k, hk⟩ := Nat.exists_eq_succ_of_ne_zero hw.ne'
  unfold DynamicWindow.searchWindow
  rw [hi, hj, hk]
  dsimp only
  rw [DynamicWindow.vxLoop, DynamicWindow.vyLoop, DynamicWindow.wLoop]
  have h' : cost ⟨(d.window vb).1.c0, (d.window vb).1.c1, (d.window vb).1.c2⟩ = .ub := h
  dsimp only
  rw [h']
  rfl

theorem fmax_not_num {v a lo : RDbl M} (h : v = .nan ∨ v = .inf false) (ha : Num a) (hl : Num lo) :
    ¬ Num (fmax (v -. a) lo) := by
  obtain ⟨a, rfl⟩ := ha
  obtain ⟨lo, rfl⟩ := hl
  rcases h with rfl | rfl
  · rw [nan_sub_rd]
    unfold fmax
    rw [lt_nan_rd]
    exact of_nan
  · have e : (.inf false : RDbl M) -. .fin a = .inf false := rfl
    have e2 : Flt.lt (.inf false : RDbl M) (.fin lo) = false := rfl
    unfold fmax
    rw [e, e2]
    exact of_inf false

/-- C97: odometry that is NaN or infinite (towards positive velocities) on some axis makes the dynamic
window run into undefined behaviour, whatever the map, the pose and the reference. -/
theorem C97_odometry (d : DynamicWindow (RDbl M)) (g : GridMap (RDbl M)) (x vb : V3 (RDbl M))
    (hx : 0 < d.vx_samples.toNat) (hy : 0 < d.vy_samples.toNat) (hw : 0 < d.vth_samples.toNat)
    (hst : 0 < d.steps.toNat)
    (hlim : (Num (d.acc_lim_x *. d.acc_dt) ∧ Num d.min_vel_x) ∧
      (Num (d.acc_lim_y *. d.acc_dt) ∧ Num d.min_vel_y) ∧
      Num (d.acc_lim_th *. d.acc_dt) ∧ Num d.min_rot_vel)
    (h : (vb.c0 = .nan ∨ vb.c0 = .inf false) ∨ (vb.c1 = .nan ∨ vb.c1 = .inf false) ∨
      (vb.c2 = .nan ∨ vb.c2 = .inf false)) :
    (∀ vref, d.controlTwist g x vb vref = .ub) ∧ ∀ ref dt, d.controlTraj g x vb ref dt = .ub := by
  have hb : ¬ (V3Num x ∧ V3Num (d.velLower vb)) := by
    rintro ⟨-, a, b, c⟩
    rcases h with h | h | h
    · exact fmax_not_num h hlim.1.1 hlim.1.2 a
    · exact fmax_not_num h hlim.2.1.1 hlim.2.1.2 b
    · exact fmax_not_num h hlim.2.2.1 hlim.2.2.2 c
  obtain ⟨h1, h2⟩ := C97_objective d g x _ hb hst
  exact ⟨fun vref => search_first_ub d vb _ hx hy hw (h1 vref),
    fun ref dt => search_first_ub d vb _ hx hy hw (h2 _ _)⟩

/-! ## the node -/

section
variable {model : TwistModel (RDbl M)} {collision : Collision (RDbl M)}
  {dt horizon resolution weight : RDbl M} {num_basis buffer_size batch_size : Nat}
  {Rinv : M3 (RDbl M)} {umin umax : V3 (RDbl M)}

/-- The size of the map differs from the one the controller last worked with, and on its target grid
every Gaussian of the target has the value zero. -/
def OutOfSight (e : ErgodicControl (RDbl M)) (g : GridMap (RDbl M)) : Prop :=
  (almostEqual (g.xmax -. g.xmin) e.basis.lx = false ∨ almostEqual (g.ymax -. g.ymin) e.basis.ly = false) ∧
  ∃ pts, ErgodicControl.phiGrid (g.xmax -. g.xmin) (g.ymax -. g.ymin) e.resolution = .ok pts ∧ pts ≠ [] ∧
    ∀ p ∈ pts, ∀ G ∈ e.target.gaussians, G.evalTrans p ⟨g.xmin, g.ymin⟩ = .fin 0

/-- A call of `control` with the target out of sight commands and stores NaN. -/
theorem control_blind (hb : 0 < num_basis) {e ec : ErgodicControl (RDbl M)}
    (he : EcBuilt model collision dt horizon resolution weight num_basis buffer_size batch_size Rinv
      umin umax e) {g : GridMap (RDbl M)} (ho : OutOfSight e g) {draws : List Nat} {x u : V3 (RDbl M)}
    (hc : e.control g x draws = .ok (ec, u)) :
    u = ⟨.nan, .nan, .nan⟩ ∧ ∀ v ∈ ec.ut, v = ⟨.nan, .nan, .nan⟩ := by
  obtain ⟨hs, pts, h1, h2, h3⟩ := ho
  rw [he.inv.resolution_eq] at h1
  exact C96_out_of_sight hb he hc hs pts h1 h2 h3

/-- An iteration of the omnidirectional robot in which the controller plans NaN has undefined
behaviour. -/
theorem nan_omni (s : Expl (RDbl M)) (tf : Option (TransformMsg (RDbl M)))
    (draws : List Nat)
    (he : EcBuilt omniModel collision dt horizon resolution weight num_basis buffer_size batch_size Rinv
      umin umax (s.localize tf).ec) (hm : s.map_received = true) (hp : (s.localize tf).pose_known = true)
    (hf : (s.localize tf).advanceDwa.follow_dwa = false)
    (hnan : ∀ ec u, (s.localize tf).ec.control s.grid (s.localize tf).pose draws = .ok (ec, u) →
      u = ⟨.nan, .nan, .nan⟩ ∧ ∀ v ∈ ec.ut, v = ⟨.nan, .nan, .nan⟩)
    (hc : ∃ r, (s.localize tf).ec.control s.grid (s.localize tf).pose draws = .ok r) {n : UInt32}
    (hn : numSteps s.val_horizon s.val_dt = .ok n) (hpos : 0 < n.toNat) :
    s.iteration tf draws = .ub := by
  obtain ⟨⟨ec, u⟩, hc⟩ := hc
  obtain ⟨hu, -⟩ := hnan _ _ hc
  obtain ⟨-, p, hpa⟩ := (C60_replay he hc).2.2 (fun y v _ => ⟨_, rfl⟩) s.map_frame_id
  obtain ⟨i, f, ea⟩ := (s.localize tf).advanceDwa_frame
  rw [ea] at hf
  have hfr : (s.localize tf).grid = s.grid ∧ (s.localize tf).map_received = s.map_received ∧
      (s.localize tf).val_dt = s.val_dt ∧ (s.localize tf).val_horizon = s.val_horizon ∧
      (s.localize tf).map_frame_id = s.map_frame_id := by
    cases tf <;> exact ⟨rfl, rfl, rfl, rfl, rfl⟩
  obtain ⟨f1, f2, f3, f4, f5⟩ := hfr
  unfold Expl.iteration
  dsimp only
  rw [if_pos (by rw [f2, hm, hp]; rfl), ea]
  unfold Expl.replan
  rw [if_neg (by rw [hf]; simp)]
  dsimp only
  rw [f1, hc, Res.ok_bind, f5, hpa]
  simp only [Res.ok_bind]
  have hv : ∀ t : Expl (RDbl M), t.u = u → t.val_dt = s.val_dt → t.val_horizon = s.val_horizon →
      t.avoid = .ub := by
    intro t t1 t2 t3
    have := C97_validate t.collision t.grid t.pose t.u
      (fun h => by rw [t1, hu] at h; exact of_nan h.2.1) hn hpos
    unfold Expl.avoid
    rw [t2, t3, this]
    rfl
  have hv' := hv { s.localize tf with ec, u, grid := s.grid, map_frame_id := s.map_frame_id, follow_dwa := f, i }
    rfl f3 f4
  rw [hv']
  rfl

/-- C97 for the omnidirectional robot: an iteration of the loop in which the controller plans for a map
of new size with the target out of sight has undefined behaviour. -/
theorem C97_omni (hb : 0 < num_basis) (s : Expl (RDbl M)) (tf : Option (TransformMsg (RDbl M)))
    (draws : List Nat)
    (he : EcBuilt omniModel collision dt horizon resolution weight num_basis buffer_size batch_size Rinv
      umin umax (s.localize tf).ec) (hm : s.map_received = true) (hp : (s.localize tf).pose_known = true)
    (hf : (s.localize tf).advanceDwa.follow_dwa = false) (ho : OutOfSight (s.localize tf).ec s.grid)
    (hc : ∃ r, (s.localize tf).ec.control s.grid (s.localize tf).pose draws = .ok r) {n : UInt32}
    (hn : numSteps s.val_horizon s.val_dt = .ok n) (hpos : 0 < n.toNat) :
    s.iteration tf draws = .ub := by
  exact nan_omni s tf draws he hm hp hf (fun _ _ h => control_blind hb he ho h) hc hn hpos

/-- For the cart it throws. -/
theorem nan_cart (s : Expl (RDbl M)) (tf : Option (TransformMsg (RDbl M)))
    (draws : List Nat)
    (he : EcBuilt cartModel collision dt horizon resolution weight num_basis buffer_size batch_size Rinv
      umin umax (s.localize tf).ec) (hm : s.map_received = true) (hp : (s.localize tf).pose_known = true)
    (hf : (s.localize tf).advanceDwa.follow_dwa = false)
    (hnan : ∀ ec u, (s.localize tf).ec.control s.grid (s.localize tf).pose draws = .ok (ec, u) →
      u = ⟨.nan, .nan, .nan⟩ ∧ ∀ v ∈ ec.ut, v = ⟨.nan, .nan, .nan⟩)
    (hc : ∃ r, (s.localize tf).ec.control s.grid (s.localize tf).pose draws = .ok r) :
    s.iteration tf draws = .throw .invalidArgument := by
  obtain ⟨⟨ec, u⟩, hc⟩ := hc
  obtain ⟨hu, hut⟩ := hnan _ _ hc
  have hi := (he.control hc).inv
  have h2 : 0 < ec.ut.length := by
    obtain ⟨n, us, traj, rhot, -, -, -, -, -, -, -, -, -, -, -, h, -⟩ := C60_receding he hc
    exact (List.getElem?_eq_some_iff.mp h).1
  have hpath : ec.path s.map_frame_id = .throw .invalidArgument := by
    have hl := hi.ut_length
    obtain ⟨k, hk⟩ := Nat.exists_eq_succ_of_ne_zero (show ec.steps.toNat ≠ 0 by omega)
    have h0 : ec.ut[0] = ⟨.nan, .nan, .nan⟩ := hut _ (List.getElem_mem h2)
    have hcol : col ec.ut 0 = .ok ⟨.nan, .nan, .nan⟩ := by
      unfold col; rw [List.getElem?_eq_getElem h2, h0]
    have hst : RungeKutta.step ec.dt ec.model.f ec.pose ⟨.nan, .nan, .nan⟩ =
        .throw .invalidArgument := by
      rw [hi.model_eq]
      unfold RungeKutta.step
      have : (cartModel : TwistModel (RDbl M)).f ec.pose ⟨.nan, .nan, .nan⟩ = .throw .invalidArgument := by
        show SimpleCart.f ec.pose (⟨.nan, .nan, .nan⟩ : V3 (RDbl M)) = _
        unfold SimpleCart.f
        rw [if_pos]
        unfold almostEqual fabs
        rw [nan_sub_rd, lt_nan_rd]
        simp [lt_nan_rd]
      rw [this]
      rfl
    unfold ErgodicControl.path RungeKutta.solve
    rw [hi.steps, Res.ok_bind, hk, RungeKutta.solveLoop, hcol, Res.ok_bind, hst]
    rfl
  obtain ⟨i, f, ea⟩ := (s.localize tf).advanceDwa_frame
  rw [ea] at hf
  have hfr : (s.localize tf).grid = s.grid ∧ (s.localize tf).map_received = s.map_received ∧
      (s.localize tf).map_frame_id = s.map_frame_id := by
    cases tf <;> exact ⟨rfl, rfl, rfl⟩
  obtain ⟨f1, f2, f5⟩ := hfr
  unfold Expl.iteration
  dsimp only
  rw [if_pos (by rw [f2, hm, hp]; rfl), ea]
  unfold Expl.replan
  rw [if_neg (by rw [hf]; simp)]
  dsimp only
  rw [f1, hc, Res.ok_bind, f5, hpath]
  rfl

/-- C97 for the cart: there the iteration throws `std::invalid_argument`, which nothing catches: the
motion model takes the lateral velocity NaN for a velocity that is not zero. -/
theorem C97_cart (hb : 0 < num_basis) (s : Expl (RDbl M)) (tf : Option (TransformMsg (RDbl M)))
    (draws : List Nat)
    (he : EcBuilt cartModel collision dt horizon resolution weight num_basis buffer_size batch_size Rinv
      umin umax (s.localize tf).ec) (hm : s.map_received = true) (hp : (s.localize tf).pose_known = true)
    (hf : (s.localize tf).advanceDwa.follow_dwa = false) (ho : OutOfSight (s.localize tf).ec s.grid)
    (hc : ∃ r, (s.localize tf).ec.control s.grid (s.localize tf).pose draws = .ok r) :
    s.iteration tf draws = .throw .invalidArgument := by
  exact nan_cart s tf draws he hm hp hf (fun _ _ h => control_blind hb he ho h) hc

end

/-! ## a run of each node into it -/

/-- The message with the map of one square metre. -/
noncomputable def metreMsg : OccupancyGrid (RDbl ieee) :=
  { width := 1, height := 1, resolution := .fin 1, originX := .fin 0, originY := .fin 0, data := [0] }

theorem metreMsg_map : GridMap.update GridMap.empty metreMsg = metreMap := by
  have h : (RDbl.fin 1 : RDbl ieee) *. Flt.ofInt ((1 : UInt32).toNat : Int) +. .fin 0 = .fin 1 := by
    rw [show ((1 : UInt32).toNat : Int) = 1 from rfl, RDbl.ofInt_fin, Int.cast_one, ieee.rnd_one,
      RDbl.mul_fin, mul_one, ieee.rnd_one, RDbl.add_fin, add_zero, ieee.rnd_one]
  show GridMap.mk _ _ _ _ _ _ _ _ = _
  unfold metreMap
  simp only [metreMsg]
  congr 1

/-- The robot stands still in the middle of the square metre. -/
noncomputable def middle : TransformMsg (RDbl ieee) := ⟨.fin (1 / 2), .fin (1 / 2), .fin 0, .fin 0, .fin 0, .fin 1⟩

/-- The two controllers of three steps with limits of one (the cart without lateral velocity). -/
theorem demo_blind (model : TwistModel (RDbl ieee)) (l : ℝ) (x : V3 (RDbl ieee)) :
    ∃ e0 : ErgodicControl (RDbl ieee),
      ErgodicControl.new model ⟨.fin 1, .fin 1, .fin 1, .fin 1⟩ (.fin 1) (.fin 3) (.fin 1) (.fin 1) 3
        4 2 ⟨⟨.fin 1, .fin 0, .fin 0⟩, ⟨.fin 0, .fin 1, .fin 0⟩, ⟨.fin 0, .fin 0, .fin 1⟩⟩
        ⟨.fin (-1), .fin (-l), .fin (-1)⟩ ⟨.fin 1, .fin l, .fin 1⟩ = .ok e0 ∧ e0.basis.lx = .fin 0 ∧
      e0.resolution = .fin 1 ∧ 2 ≤ e0.steps.toNat ∧ (∀ v ∈ e0.ut, v = V3.zero) ∧
      ∀ r ∈ [0, 0], r < ((e0.setTarget farTarget).addStateMemory x).buffer.memory.length := by
  have hst : numSteps (.fin 3 : RDbl ieee) (.fin 1) = .ok 3 := by
    unfold numSteps
    have h3 := ieee.int 3 (by norm_num)
    rw [RDbl.div_fin _ one_ne_zero, div_one]
    norm_num at h3
    rw [h3, fabs_rd (by norm_num)]
    exact castU32_rd (n := 3) (by norm_num) (by norm_num) (by norm_num)
  obtain ⟨e0, h0⟩ := (C66_throws_iff model ⟨.fin 1, .fin 1, .fin 1, .fin 1⟩
    (.fin 1) (.fin 3) (.fin 1) (.fin 1) 3 4 2
    ⟨⟨.fin 1, .fin 0, .fin 0⟩, ⟨.fin 0, .fin 1, .fin 0⟩, ⟨.fin 0, .fin 0, .fin 1⟩⟩
    ⟨.fin (-1), .fin (-l), .fin (-1)⟩ ⟨.fin 1, .fin l, .fin 1⟩ 3 hst).2 (by decide)
  have hm0 : e0.buffer = { buffer_size := 4, batch_size := 2 } ∧ e0.steps = 3 ∧
      e0.basis.lx = lit 0 0 ∧ e0.resolution = .fin 1 ∧ e0.ut = List.replicate 3 V3.zero := by
    have h0 := h0
    unfold ErgodicControl.new at h0
    rw [hst, Res.ok_bind, if_neg (by decide)] at h0
    rw [← Res.ok.inj h0]
    exact ⟨rfl, rfl, rfl, rfl, rfl⟩
  refine ⟨e0, h0, by rw [hm0.2.2.1]; simp, hm0.2.2.2.1, by rw [hm0.2.1]; decide, ?_, ?_⟩
  · intro v hv
    rw [hm0.2.2.2.2] at hv
    exact List.eq_of_mem_replicate hv
  · intro r hr
    have : r = 0 := by simpa using hr
    subst this
    simp [ErgodicControl.addStateMemory, ErgodicControl.setTarget, hm0.1, ReplayBuffer.append,
      ReplayBuffer.emplace]

theorem far_out_of_sight {e0 : ErgodicControl (RDbl ieee)} (hlx : e0.basis.lx = .fin 0)
    (hres : e0.resolution = .fin 1) (x : V3 (RDbl ieee)) :
    OutOfSight ((e0.setTarget farTarget).addStateMemory x) metreMap := by
  refine ⟨Or.inl ?_, _, by
    show ErgodicControl.phiGrid _ _ e0.resolution = _
    rw [metre_x, metre_y, hres]; exact metre_grid, by simp, ?_⟩
  · show almostEqual _ e0.basis.lx = false
    rw [metre_x, hlx]
    unfold almostEqual
    rw [RDbl.sub_fin, sub_zero, ieee.rnd_one, fabs_rd (by norm_num), RDbl.lit_fin, RDbl.lt_fin_false]
    have := ieee.mono (show ((1 : Int) : ℝ) / 10 ^ 12 ≤ 1 by norm_num)
    rwa [ieee.rnd_one] at this
  · intro p hp
    show ∀ G ∈ farTarget.gaussians, G.evalTrans p ⟨.fin 0, .fin 0⟩ = .fin 0
    simp only [List.mem_cons, List.not_mem_nil, or_false] at hp
    rcases hp with rfl | rfl | rfl | rfl
    · have := far_zero 0 0 (Or.inl rfl) (Or.inl rfl)
      rwa [Int.cast_zero] at this
    · have := far_zero 1 0 (Or.inr rfl) (Or.inl rfl)
      rwa [Int.cast_zero, Int.cast_one] at this
    · have := far_zero 0 1 (Or.inl rfl) (Or.inr rfl)
      rwa [Int.cast_zero, Int.cast_one] at this
    · have := far_zero 1 1 (Or.inr rfl) (Or.inr rfl)
      rwa [Int.cast_one] at this

/-- C97: a run of both nodes on binary64 numbers.  All parameters are finite; the first map has one free
square metre, the robot stands in its middle, and the only target is a hundred metres away.  The first
iteration of the omnidirectional node has undefined behaviour and that of the cart throws. -/
theorem C97_far_target (dwa : DynamicWindow (RDbl ieee)) :
    (∃ ec : ErgodicControl (RDbl ieee),
      ErgodicControl.new omniModel ⟨.fin 1, .fin 1, .fin 1, .fin 1⟩ (.fin 1) (.fin 3) (.fin 1) (.fin 1) 3
        4 2 ⟨⟨.fin 1, .fin 0, .fin 0⟩, ⟨.fin 0, .fin 1, .fin 0⟩, ⟨.fin 0, .fin 0, .fin 1⟩⟩
        ⟨.fin (-1), .fin (-1), .fin (-1)⟩ ⟨.fin 1, .fin 1, .fin 1⟩ = .ok ec ∧
      (Expl.start ec ⟨.fin 1, .fin 1, .fin 1, .fin 1⟩ dwa farTarget "map" (.fin 1) (.fin 3)).1.run
        [.map metreMsg, .tick (some middle) [0, 0]] = .ub) ∧
    ∃ ec : ErgodicControl (RDbl ieee),
      ErgodicControl.new cartModel ⟨.fin 1, .fin 1, .fin 1, .fin 1⟩ (.fin 1) (.fin 3) (.fin 1) (.fin 1) 3
        4 2 ⟨⟨.fin 1, .fin 0, .fin 0⟩, ⟨.fin 0, .fin 1, .fin 0⟩, ⟨.fin 0, .fin 0, .fin 1⟩⟩
        ⟨.fin (-1), .fin (-0), .fin (-1)⟩ ⟨.fin 1, .fin 0, .fin 1⟩ = .ok ec ∧
      (Expl.start ec ⟨.fin 1, .fin 1, .fin 1, .fin 1⟩ dwa farTarget "map" (.fin 1) (.fin 3)).1.run
        [.map metreMsg, .tick (some middle) [0, 0]] = .throw .invalidArgument := by
  have hst : numSteps (.fin 3 : RDbl ieee) (.fin 1) = .ok 3 := by
    unfold numSteps
    have h3 := ieee.int 3 (by norm_num)
    rw [RDbl.div_fin _ one_ne_zero, div_one]
    norm_num at h3
    rw [h3, fabs_rd (by norm_num)]
    exact castU32_rd (n := 3) (by norm_num) (by norm_num) (by norm_num)
  set x : V3 (RDbl ieee) := ⟨middle.x, middle.y, getYaw middle.qx middle.qy middle.qz middle.qw⟩ with hx
  constructor
  · obtain ⟨e0, h0, hlx, hres, hn, -, hr⟩ := demo_blind omniModel 1 x
    refine ⟨e0, h0, ?_⟩
    have hb : EcBuilt _ _ _ _ _ _ _ _ _ _ _ _ ((e0.setTarget farTarget).addStateMemory x) :=
      ⟨e0, h0, .addStateMemory x (.setTarget farTarget .start)⟩
    have hc := C60_total (g := metreMap) (x := x)
      (draws := [0, 0]) hb hn (fun y v _ => ⟨_, rfl⟩)
      (configTarget_total_rd hb.inv.resolution_eq metreMap_num metre_small) rfl hr
      (by rw [RDbl.lt_fin_false]; norm_num) (by rw [RDbl.lt_fin_false]; norm_num)
      (by rw [RDbl.lt_fin_false]; norm_num)
    obtain ⟨e', u, hc⟩ := hc
    have key := C97_omni (by norm_num) ((Expl.start e0 ⟨.fin 1, .fin 1, .fin 1, .fin 1⟩ dwa farTarget "map"
      (.fin 1) (.fin 3)).1.mapCallback metreMsg) (some middle) [0, 0] hb rfl rfl rfl
      (by
        show OutOfSight _ (GridMap.update GridMap.empty metreMsg)
        rw [metreMsg_map]
        exact far_out_of_sight hlx hres x)
      ⟨(e', u), by
        show ErgodicControl.control _ (GridMap.update GridMap.empty metreMsg) _ _ = _
        rw [metreMsg_map]; exact hc⟩ hst (by decide)
    simp only [Expl.run, Expl.step, Res.ok_bind, key]
    rfl
  · obtain ⟨e0, h0, hlx, hres, hn, hut, hr⟩ := demo_blind cartModel 0 x
    refine ⟨e0, h0, ?_⟩
    have hb : EcBuilt _ _ _ _ _ _ _ _ _ _ _ _ ((e0.setTarget farTarget).addStateMemory x) :=
      ⟨e0, h0, .addStateMemory x (.setTarget farTarget .start)⟩
    have hz : (lit 0 0 : RDbl ieee) = .fin 0 := by simp
    have hf : ∀ y : V3 (RDbl ieee), ∀ v ∈ V3.zero :: ((e0.setTarget farTarget).addStateMemory x).ut,
        ∃ d, (cartModel : TwistModel (RDbl ieee)).f y v = .ok d := by
      intro y v hv
      have hv0 : v = V3.zero := by
        rcases List.mem_cons.mp hv with rfl | hv
        · rfl
        · exact hut v hv
      subst hv0
      refine ⟨⟨lit 0 0 *. Flt.cos y.c2, lit 0 0 *. Flt.sin y.c2, lit 0 0⟩, ?_⟩
      show SimpleCart.f y V3.zero = _
      unfold SimpleCart.f
      rw [if_neg]
      · rfl
      · rw [not_not]
        show almostEqual (lit 0 0) (lit 0 0) = true
        rw [hz]
        unfold almostEqual
        rw [RDbl.sub_fin, sub_zero, ieee.rnd_zero, fabs_rd le_rfl, RDbl.lit_fin, RDbl.lt_fin]
        refine rnd_pos ?_
        have : (1 : ℝ) / 2 ^ 1000 ≤ 1 / 2 ^ 40 :=
          one_div_le_one_div_of_le (by positivity) (pow_le_pow_right₀ (by norm_num) (by norm_num))
        refine this.trans ?_
        norm_num
    have hc := C60_total (g := metreMap) (x := x)
      (draws := [0, 0]) hb hn hf
      (configTarget_total_rd hb.inv.resolution_eq metreMap_num metre_small) rfl hr
      (by rw [RDbl.lt_fin_false]; norm_num) (by rw [RDbl.lt_fin_false]; norm_num)
      (by rw [RDbl.lt_fin_false]; norm_num)
    obtain ⟨e', u, hc⟩ := hc
    have key := C97_cart (by norm_num) ((Expl.start e0 ⟨.fin 1, .fin 1, .fin 1, .fin 1⟩ dwa farTarget "map"
      (.fin 1) (.fin 3)).1.mapCallback metreMsg) (some middle) [0, 0] hb rfl rfl rfl
      (by
        show OutOfSight _ (GridMap.update GridMap.empty metreMsg)
        rw [metreMsg_map]
        exact far_out_of_sight hlx hres x)
      ⟨(e', u), by
        show ErgodicControl.control _ (GridMap.update GridMap.empty metreMsg) _ _ = _
        rw [metreMsg_map]; exact hc⟩
    simp only [Expl.run, Expl.step, Res.ok_bind, key]
    rfl

/-- The window of `C97_odometry` exists: that of the shipped parameters, with NaN as the measured forward
velocity. -/
example : (∀ vref, (shippedWindow ieee).controlTwist metreMap ⟨.fin 0, .fin 0, .fin 0⟩
    ⟨.nan, .fin 0, .fin 0⟩ vref = .ub) := by
  exact (C97_odometry (shippedWindow ieee) metreMap _ _ (show 0 < (3 : UInt32).toNat by decide)
    (show 0 < (8 : UInt32).toNat by decide) (show 0 < (5 : UInt32).toNat by decide)
    (show 0 < (20 : UInt32).toNat by decide)
    ⟨⟨Num.mul ⟨_, rfl⟩ ⟨_, rfl⟩, _, rfl⟩, ⟨Num.mul ⟨_, rfl⟩ ⟨_, rfl⟩, _, rfl⟩,
      Num.mul ⟨_, rfl⟩ ⟨_, rfl⟩, _, rfl⟩ (Or.inl (Or.inl rfl))).1

end Ergodic
