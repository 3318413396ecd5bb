import Verif.Lemmas.Overflow
import Verif.Props.ExplorationLimits
import Verif.Props.Shipped

/-!
# C108: overflow

The rounded arithmetic of C79 to C102 does not overflow.  Here finite results may become infinite.
Whatever overflows inside the optimiser, a twist that is published is finite, or the run had undefined
behaviour before.  With ordinary numbers nothing overflows in the simulation and its collision checks,
so the results about rounding hold with overflow as well.
-/

namespace Ergodic

open Special

/-! ## one simulated step -/

section
variable {F : Type} [Flt F] [Special F]

theorem index_fin {a : F} {n : UInt32} (h : castU32 (Flt.floor a) = .ok n) : Fin a := by
  unfold castU32 at h
  split at h
  · rename_i k hk
    exact Special.index a k hk
  · cases h

/-- Only at a finite position does a collision check have a result. -/
theorem check_fin (c : Collision F) (g : GridMap F) {p : V3 F} {b : Bool}
    (h : c.collisionCheck g p = .ok b) : Fin p.c0 ∧ Fin p.c1 := by
  unfold Collision.collisionCheck Collision.config GridMap.world2Grid at h
  simp only [Res.bind_eq_ok] at h
  obtain ⟨_, ⟨_, ⟨_, hj, _, hi, -⟩, -⟩, -⟩ := h
  exact ⟨Special.sub_l _ _ (Special.div_l _ _ (index_fin hj)),
    Special.sub_l _ _ (Special.div_l _ _ (index_fin hi))⟩

/-- A simulated step to a finite position starts at a finite pose and follows a finite twist. -/
theorem step_fin (x u : V3 F) (dt : F)
    (h : Fin (integrateTwist x u dt).c0 ∧ Fin (integrateTwist x u dt).c1) : V3Fin x ∧ V3Fin u := by
  obtain ⟨h0, h1⟩ := h
  unfold integrateTwist at h0 h1
  have hx0 := Special.add_l _ _ h0
  have hx1 := Special.add_l _ _ h1
  have hd := Special.add_r _ _ h0
  have hx2 : Fin x.c2 :=
    Special.cos_arg _ (Special.mul_l _ _ (Special.add_l _ _ (Special.add_l _ _ hd)))
  have d0 := Special.mul_r _ _ (Special.add_l _ _ (Special.add_l _ _ hd))
  have d1 := Special.mul_r _ _ (Special.add_r _ _ (Special.add_l _ _ hd))
  have d2 := Special.mul_r _ _ (Special.add_r _ _ hd)
  refine ⟨⟨hx0, hx1, hx2⟩, ?_⟩
  split at d0
  · rename_i ha
    have hu2 : Fin u.c2 := Special.sub_l _ _ (Special.below _ _ ha)
    rw [if_pos ha] at d1
    exact ⟨Special.mul_l _ _ d0, Special.mul_l _ _ d1, hu2⟩
  · rename_i ha
    rw [if_neg ha] at d2
    have e0 := Special.mul_l _ _ (Special.mul_l _ _ (Special.add_l _ _ (Special.div_l _ _ d0)))
    have e1 := Special.mul_l _ _ (Special.mul_l _ _ (Special.add_r _ _ (Special.div_l _ _ d0)))
    exact ⟨e0, e1, Special.mul_l _ _ d2⟩

/-- The increments of the step are finite too. -/
theorem step_fin_increment (x u : V3 F) (dt : F) (h : Fin (integrateTwist x u dt).c0) :
    Fin (u.c0 *. dt) ∧ Fin (u.c1 *. dt) := by
  unfold integrateTwist at h
  have hd := Special.add_r _ _ h
  have d0 := Special.mul_r _ _ (Special.add_l _ _ (Special.add_l _ _ hd))
  have d1 := Special.mul_r _ _ (Special.add_r _ _ (Special.add_l _ _ hd))
  split at d0
  · rename_i ha
    rw [if_pos ha] at d1
    exact ⟨d0, d1⟩
  · exact ⟨Special.mul_l _ _ (Special.add_l _ _ (Special.div_l _ _ d0)),
      Special.mul_l _ _ (Special.add_r _ _ (Special.div_l _ _ d0))⟩

/-- C108: a twist whose increment overflows in one step has no validation result, not even a rejection. -/
theorem C108_too_fast (c : Collision F) (g : GridMap F) (x u : V3 F) (dt horizon : F) {n : UInt32}
    (hn : numSteps horizon dt = .ok n) (hpos : 0 < n.toNat)
    (h : ¬ (Fin (u.c0 *. dt) ∧ Fin (u.c1 *. dt))) : ¬ ∃ b, validateControl c g x u dt horizon = .ok b := by
  rintro ⟨b, hb⟩
  unfold validateControl at hb
  rw [hn, Res.ok_bind] at hb
  obtain ⟨k, hk⟩ := Nat.exists_eq_succ_of_ne_zero hpos.ne'
  rw [hk, validateLoop] at hb
  obtain ⟨hit, hc, -⟩ := Res.bind_eq_ok.mp hb
  exact h (step_fin_increment x u dt (check_fin c g hc).1)

/-- So does a simulated step to a pose for which the collision check has a result. -/
theorem first_fin {c : Collision F} {g : GridMap F} {x u : V3 F} {dt : F} {b : Bool}
    (h : c.collisionCheck g (poseAfter u dt x 1) = .ok b) : V3Fin x ∧ V3Fin u :=
  step_fin x u dt (check_fin c g h)

/-! ## published twists -/

variable {ec : ErgodicControl F} {collision : Collision F} {dwa : DynamicWindow F} {target : Target F}
  {frame : String} {val_dt val_horizon : F} {es : List (Event F)} {os : List (List (Out F))} {s : Expl F}

/-- C108: a published twist is finite, whatever overflows, provided the validation and the dynamic
window simulate at least one step; unless it is the zero twist, so is the pose it was planned from. -/
theorem C108_iteration [StrictLt F]
    (h : Trace (Expl.start ec collision dwa target frame val_dt val_horizon).1 es os s) {e : Event F}
    {t : Expl F} {o : List (Out F)} (hs : s.step e = .ok (t, o)) (u : V3 F) (hu : u ∈ twists o)
    (hv : ∀ n, numSteps val_horizon val_dt = .ok n → 0 < n.toNat) (hd : 0 < dwa.steps.toNat) :
    V3Fin u ∧ ∃ p, (poses (es ++ [e])).getLast? = some p ∧
      (u = ⟨lit 0 0, lit 0 0, lit 0 0⟩ ∨ V3Fin p) := by
  have h1 := C67_one_per_iteration h hs
  have hlen : (twists o).length ≠ 0 := by
    intro hc
    rw [List.length_eq_zero_iff] at hc
    rw [hc] at hu; cases hu
  rw [h1] at hlen
  have hcond := of_not_not fun hc => hlen (if_neg hc)
  obtain ⟨m, hm⟩ : ∃ m, (maps es).getLast? = some m := by
    cases hm : (maps es).getLast? with
    | some m => exact ⟨m, rfl⟩
    | none => rw [List.getLast?_eq_none_iff] at hm; tauto
  obtain ⟨p, hp⟩ : ∃ p, (poses (es ++ [e])).getLast? = some p := by
    cases hp : (poses (es ++ [e])).getLast? with
    | some m => exact ⟨m, rfl⟩
    | none => rw [List.getLast?_eq_none_iff] at hp; tauto
  rcases C68_safe h hs u hu m p hm hp with ⟨n, hn, hk⟩ | ⟨-, hk⟩ | rfl
  · obtain ⟨a, b⟩ := first_fin (hk 0 (hv n hn))
    exact ⟨b, p, hp, Or.inr a⟩
  · obtain ⟨a, b⟩ := first_fin (hk 0 hd)
    exact ⟨b, p, hp, Or.inr a⟩
  · exact ⟨⟨Special.zero, Special.zero, Special.zero⟩, p, hp, Or.inl rfl⟩

/-- C108: no history makes the node publish a twist that is not finite. -/
theorem C108_published [StrictLt F]
    (h : Trace (Expl.start ec collision dwa target frame val_dt val_horizon).1 es os s)
    (hv : ∀ n, numSteps val_horizon val_dt = .ok n → 0 < n.toNat) (hd : 0 < dwa.steps.toNat) :
    ∀ u ∈ twists os.flatten, V3Fin u := by
  induction h with
  | nil => intro u hu; simp [twists] at hu
  | @snoc s t es os e o ht hs ih =>
    intro u hu
    rw [List.flatten_append, twists_append, List.mem_append] at hu
    rcases hu with hu | hu
    · exact ih u hu
    · exact (C108_iteration ht hs u (by simpa using hu) hv hd).1

/-- C108, the executables: with parameters for which validation and dynamic window simulate at least one
step, every twist either of them publishes is finite, whatever the messages contain. -/
theorem C108_node [StrictLt F] (p : Params F) {n n' : Node F} {o out : List (Out F)}
    (hn : Node.cart p = .ok (n, o) ∨ Node.omni p = .ok (n, o))
    (hv : ∀ n, numSteps p.val_horizon p.val_dt = .ok n → 0 < n.toNat)
    (hd : ∀ n, numSteps p.dwa_horizon p.dwa_dt = .ok n → 0 < n.toNat)
    (es : List (Event F)) (hr : n.run es = .ok (n', out)) : ∀ u ∈ twists out, V3Fin u := by
  have key : ∀ ec collision dwa target,
      (n.expl, o) = Expl.start ec collision dwa target p.map_frame_id p.val_dt p.val_horizon →
      n.up = !Flt.lt p.ec_horizon p.dwa_horizon → 0 < dwa.steps.toNat → ∀ u ∈ twists out, V3Fin u := by
    intro ec collision dwa target ho hup hst
    cases hlt : Flt.lt p.ec_horizon p.dwa_horizon with
    | true =>
      rw [hlt] at hup
      rw [node_run_down n hup es] at hr
      simp only [Res.ok.injEq, Prod.mk.injEq] at hr
      rw [← hr.2]; simp [twists]
    | false =>
      rw [hlt] at hup
      have h1 := (node_run_up n n' hup es out hr).1
      rw [show n.expl = _ from congrArg Prod.fst ho, run_iff_trace] at h1
      obtain ⟨os, ht, rfl⟩ := h1
      exact C108_published ht hv hst
  have hsteps : ∀ {c : Collision F} {a1 a2 a3 b1 b2 b3 b4 b5 b6 : F} {acc : F} {k1 k2 k3 : UInt32}
      {dwa : DynamicWindow F}, DynamicWindow.new c p.dwa_dt p.dwa_horizon acc a1 a2 a3 b1 b2 b3 b4 b5 b6
        k1 k2 k3 = .ok dwa → 0 < dwa.steps.toNat := by
    intro c a1 a2 a3 b1 b2 b3 b4 b5 b6 acc k1 k2 k3 dwa h
    simp only [DynamicWindow.new, Res.bind_eq_ok, Res.ok.injEq] at h
    obtain ⟨steps, hst, rfl⟩ := h
    exact hd _ hst
  rcases hn with hn | hn
  · obtain ⟨_, _, target, collision, ec, dwa, -, hdwa, ho, hup⟩ := cart_ok hn
    exact key ec collision dwa target ho hup (hsteps hdwa)
  · obtain ⟨_, _, _, target, collision, ec, dwa, -, hdwa, ho, hup⟩ := omni_ok hn
    exact key ec collision dwa target ho hup (hsteps hdwa)

omit [Special F] in
/-- C108: and it is zero, a sample of a dynamic window, or does not compare as outside the limits. -/
theorem C108_limits [StrictLt F] (p : Params F) {n n' : Node F} {o out : List (Out F)}
    (hn : Node.omni p = .ok (n, o)) (es : List (Event F)) (hr : n.run es = .ok (n', out)) :
    ∀ u ∈ twists out, u = V3.zero ∨
      NotOutside ⟨p.min_vel_x, p.min_vel_y, p.min_rot_vel⟩ u ⟨p.max_vel_x, p.max_vel_y, p.max_rot_vel⟩ ∨
      ∃ vb, (vb = V3.zero ∨ vb ∈ odoms es) ∧ IsSample n.expl.dwa vb u := by
  obtain ⟨_, _, _, target, collision, ec, dwa, hec, hdwa, ho, hup⟩ := omni_ok hn
  cases hlt : Flt.lt p.ec_horizon p.dwa_horizon with
  | true =>
    rw [hlt] at hup
    rw [node_run_down n hup es] at hr
    simp only [Res.ok.injEq, Prod.mk.injEq] at hr
    rw [← hr.2]; simp [twists]
  | false =>
    rw [hlt] at hup
    have h1 := (node_run_up n n' hup es out hr).1
    have he : n.expl = _ := congrArg Prod.fst ho
    rw [he, run_iff_trace] at h1
    obtain ⟨os, ht, rfl⟩ := h1
    rw [he]
    refine (published_in _ (Or.inl rfl) ?_ ?_ ht).2
    · intro e e' g x u draws hre hc
      exact Or.inr (Or.inl (C59_not_outside ⟨ec, hec, hre⟩ hc).1)
    · intro vb hvb u hu
      exact Or.inr (Or.inr ⟨vb, hvb, hu⟩)

end

/-! ## no overflow with ordinary numbers -/

section
variable {M : Machine}

/-- The heading is wrapped alike. -/
theorem normalize_same {a : ODbl M} {b : RDbl M} (h : Same 300 a b) :
    Same 600 (normalizeAnglePI a) (normalizeAnglePI b) := by
  have hpi := Same.pi (M := M)
  have h2 : Same 55 (lit 2 0 : ODbl M) (lit 2 0 : RDbl M) := Same.lit (by norm_num)
  have h2pi : ∃ s : ℝ, (lit 2 0 *. Flt.pi : ODbl M) = .fin s ∧ (lit 2 0 *. Flt.pi : RDbl M) = .fin s ∧
      1 / 2 ^ 0 ≤ |s| := by
    obtain ⟨s, e1, e2, -⟩ := h2.mul hpi (l := 70) (by norm_num) (by norm_num)
    refine ⟨s, e1, e2, ?_⟩
    have hs : s = M.rnd (2 * M.rnd Real.pi) := by
      have h2' : (lit 2 0 : RDbl M) = .fin 2 := by rw [RDbl.lit_fin]; norm_num
      rw [h2', RDbl.pi_fin, RDbl.mul_fin, RDbl.fin_inj] at e2
      exact e2.symm
    have h3 : (1 : ℝ) ≤ M.rnd Real.pi := by
      have := M.mono (show (1 : ℝ) ≤ Real.pi by linarith [Real.pi_gt_three])
      rwa [M.rnd_one] at this
    have h4 : (1 : ℝ) ≤ s := by
      rw [hs]
      have := M.mono (show (1 : ℝ) ≤ 2 * M.rnd Real.pi by linarith)
      rwa [M.rnd_one] at this
    simpa using h4.trans (le_abs_self s)
  obtain ⟨s, e1, e2, e3⟩ := h2pi
  have hs := h2.mul hpi (l := 70) (by norm_num) (by norm_num)
  have hr : Same 310 (a +. Flt.pi) (b +. Flt.pi) := h.add (hpi.mono (by norm_num)) (by norm_num) (by norm_num)
  have hq : Same 320 (Flt.floor ((a +. Flt.pi) /. (lit 2 0 *. Flt.pi)))
      (Flt.floor ((b +. Flt.pi) /. (lit 2 0 *. Flt.pi))) := by
    rw [e1, e2]
    exact (hr.div (m := 0) (l := 319) e3 (by norm_num) (by norm_num)).floor
  have hd := hr.mono (show 310 ≤ 430 by norm_num) |>.sub
    (((hq.mul h2 (l := 380) (by norm_num) (by norm_num)).mul hpi (l := 400) (by norm_num) (by norm_num)).mono
      (show 400 ≤ 430 by norm_num)) (l := 440) (by norm_num) (by norm_num)
  unfold normalizeAnglePI
  dsimp only
  rw [hd.lt (Same.lit (n := 0) (e := 0) (by norm_num))]
  refine Same.sub (k := 590) ?_ (hpi.mono (by norm_num)) (by norm_num) (by norm_num)
  split
  · exact hd.add (hs.mono (by norm_num)) (by norm_num) (by norm_num)
  · exact hd.mono (by norm_num)

/-- The same components in both arithmetics. -/
def SameV (k : ℕ) (v : V3 (ODbl M)) (w : V3 (RDbl M)) : Prop :=
  Same k v.c0 w.c0 ∧ Same k v.c1 w.c1 ∧ Same k v.c2 w.c2

/-- The step is integrated alike. -/
theorem integrate_same {x u : V3 (ODbl M)} {x' u' : V3 (RDbl M)} {dt : ℝ} (hx : SameV 60 x x')
    (hu : SameV 60 u u') (hdt : |dt| ≤ 2 ^ 6)
    (hw : almostEqual u'.c2 (lit 0 0) = false → ∀ om, u'.c2 = .fin om → 1 / 2 ^ 50 ≤ |M.rnd (om * dt)|) :
    SameV 300 (integrateTwist x u (.fin dt)) (integrateTwist x' u' (.fin dt)) := by
  obtain ⟨hx0, hx1, hx2⟩ := hx
  obtain ⟨hu0, hu1, hu2⟩ := hu
  have ht : Same 6 (.fin dt : ODbl M) (.fin dt : RDbl M) := Same.of_fin hdt
  have z : Same 55 (lit 0 0 : ODbl M) (lit 0 0 : RDbl M) := Same.lit (by norm_num)
  have one : Same 55 (lit 1 0 : ODbl M) (lit 1 0 : RDbl M) := Same.lit (by norm_num)
  have hbr : almostEqual u.c2 (lit 0 0) = almostEqual u'.c2 (lit 0 0) := by
    unfold almostEqual
    exact ((hu2.sub (z.mono (by norm_num)) (l := 70) (by norm_num) (by norm_num)).fabs).lt
      (Same.lit (by norm_num [abs_of_pos]))
  have v0 := hu0.mul ht (l := 70) (by norm_num) (by norm_num)
  have v1 := hu1.mul ht (l := 70) (by norm_num) (by norm_num)
  have v2 := hu2.mul ht (l := 70) (by norm_num) (by norm_num)
  -- the displacement
  have key : ∀ (d : V3 (ODbl M)) (d' : V3 (RDbl M)), SameV 190 d d' →
      SameV 300 (x.add ((transform2dAngle x.c2).mulVec d)) (x'.add ((transform2dAngle x'.c2).mulVec d')) := by
    rintro d d' ⟨d0, d1, d2⟩
    have c := hx2.cos
    have s := hx2.sin
    have small : ∀ {a : ODbl M} {b : RDbl M}, Same 0 a b → Same 55 a b := fun h => h.mono (by norm_num)
    have row : ∀ {p q r : ODbl M} {p' q' r' : RDbl M}, Same 55 p p' → Same 55 q q' → Same 55 r r' →
        Same 260 (p *. d.c0 +. q *. d.c1 +. r *. d.c2) (p' *. d'.c0 +. q' *. d'.c1 +. r' *. d'.c2) := by
      intro p q r p' q' r' hp hq hr
      have m0 := hp.mul d0 (l := 247) (by norm_num) (by norm_num)
      have m1 := hq.mul d1 (l := 247) (by norm_num) (by norm_num)
      have m2 := hr.mul d2 (l := 250) (by norm_num) (by norm_num)
      exact (m0.add m1 (l := 250) (by norm_num) (by norm_num)).add m2 (by norm_num) (by norm_num)
    exact ⟨(hx0.mono (by norm_num)).add (row (small c) (small s).neg z) (by norm_num) (by norm_num),
      (hx1.mono (by norm_num)).add (row (small s) (small c) z) (by norm_num) (by norm_num),
      (hx2.mono (by norm_num)).add (row z z one) (by norm_num) (by norm_num)⟩
  unfold integrateTwist
  dsimp only
  rw [hbr]
  refine key _ _ ?_
  split
  · exact ⟨v0.mono (by norm_num), v1.mono (by norm_num), z.mono (by norm_num)⟩
  · rename_i hne
    obtain ⟨om, e1, e2, -⟩ := hu2
    have hs := hw (by simpa using hne) om e2
    have w1 : u.c2 *. .fin dt = .fin (M.rnd (om * dt)) := by
      obtain ⟨r, f1, f2, -⟩ := v2
      rw [e2, RDbl.mul_fin, RDbl.fin_inj] at f2
      rw [f1, f2]
    have w2 : u'.c2 *. .fin dt = .fin (M.rnd (om * dt)) := by rw [e2, RDbl.mul_fin]
    have c := v2.cos
    have s := v2.sin
    have c1 := (c.mono (show 0 ≤ 55 by norm_num)).sub one (l := 58) (by norm_num) (by norm_num)
    have c2 := one.sub (c.mono (show 0 ≤ 55 by norm_num)) (l := 58) (by norm_num) (by norm_num)
    have p0 := ((v0.mul s (l := 130) (by norm_num) (by norm_num)).add
      (v1.mul c1 (l := 130) (by norm_num) (by norm_num)) (l := 135) (by norm_num) (by norm_num)).div'
      (m := 50) (l := 190) w1 w2 hs (by norm_num) (by norm_num)
    have p1 := ((v1.mul s (l := 130) (by norm_num) (by norm_num)).add
      (v0.mul c2 (l := 130) (by norm_num) (by norm_num)) (l := 135) (by norm_num) (by norm_num)).div'
      (m := 50) (l := 190) w1 w2 hs (by norm_num) (by norm_num)
    exact ⟨p0, p1, v2.mono (by norm_num)⟩

/-- One simulated step is the same. -/
theorem stepPose_same {x u : V3 (ODbl M)} {x' u' : V3 (RDbl M)} {dt : ℝ} (hx : SameV 60 x x')
    (hu : SameV 60 u u') (hdt : |dt| ≤ 2 ^ 6)
    (hw : almostEqual u'.c2 (lit 0 0) = false → ∀ om, u'.c2 = .fin om → 1 / 2 ^ 50 ≤ |M.rnd (om * dt)|) :
    SameV 600 (stepPose u (.fin dt) x) (stepPose u' (.fin dt) x') := by
  obtain ⟨h0, h1, h2⟩ := integrate_same hx hu hdt hw
  exact ⟨h0.mono (by norm_num), h1.mono (by norm_num), normalize_same h2⟩

/-! ## the collision check -/

/-- A detector in the arithmetic without overflow. -/
def Collision.wide (c : Collision (ODbl M)) : Collision (RDbl M) :=
  ⟨c.boundary_radius, c.search_radius, c.obstacle_threshold, c.occupied_threshold⟩

/-- A map in the arithmetic without overflow. -/
def GridMap.wide (g : GridMap (ODbl M)) : GridMap (RDbl M) :=
  ⟨g.xsize, g.ysize, g.resolution, g.xmin, g.ymin, g.xmax, g.ymax, g.data⟩

/-- Ordinary numbers in a map and a detector: at most `2^60`, and cells of at least `2^-60`. -/
structure OrdinaryMap (c : Collision (ODbl M)) (g : GridMap (ODbl M)) : Prop where
  xmin : Same 60 g.xmin g.wide.xmin
  ymin : Same 60 g.ymin g.wide.ymin
  bnd : Same 60 c.boundary_radius c.wide.boundary_radius
  obs : Same 60 c.obstacle_threshold c.wide.obstacle_threshold
  srch : Same 60 c.search_radius c.wide.search_radius
  res : ∃ r : ℝ, g.resolution = .fin r ∧ 1 / 2 ^ 60 ≤ |r|

theorem cell_same (g : GridMap (ODbl M)) (i j : UInt32) : g.getCell i j = g.wide.getCell i j := by
  unfold GridMap.getCell GridMap.getCellIdx
  have e : g.wide.grid2RowMajor i j = g.grid2RowMajor i j := rfl
  rw [e]
  have e2 : g.wide.gridBoundsIdx (g.grid2RowMajor i j) = g.gridBoundsIdx (g.grid2RowMajor i j) := rfl
  rw [e2]
  have e3 : g.wide.data = g.data := rfl
  rw [e3]
  split
  · rfl
  · split
    · rename_i v _
      have hv : |(v.toInt : ℝ)| ≤ 2 ^ 7 := by
        have h1 := v.le_toInt
        have h2 := v.toInt_lt
        rw [abs_le]
        constructor
        · have : ((-2 ^ 7 : ℤ) : ℝ) ≤ (v.toInt : ℝ) := by exact_mod_cast h1
          norm_num at this ⊢; exact this
        · have : (v.toInt : ℝ) ≤ ((2 ^ 7 : ℤ) : ℝ) := by exact_mod_cast h2.le
          norm_num at this ⊢; exact this
      have hs : Same 10 (Flt.ofInt v.toInt : ODbl M) (Flt.ofInt v.toInt : RDbl M) := by
        obtain ⟨a1, a2⟩ := rnd_pow (M := M) hv (l := 10) (by norm_num) (by norm_num)
        exact ⟨M.rnd v.toInt, ODbl.rd_small a2, rfl, a1⟩
      have h100 : (lit 100 0 : ODbl M) = .fin 100 := by
        rw [lit_ord (by norm_num)]
        have := M.int 100 (by norm_num)
        norm_num at this ⊢
        rw [this]
      have h100' : (lit 100 0 : RDbl M) = .fin 100 := by
        rw [RDbl.lit_fin]
        have := M.int 100 (by norm_num)
        norm_num at this ⊢
        rw [this]
      rw [h100, h100']
      obtain ⟨r, e1, e2, -⟩ := hs.div (s := 100) (m := 0) (l := 20) (by norm_num) (by norm_num) (by norm_num)
      rw [e1, e2]
      rfl
    · rfl

theorem config_same {c : Collision (ODbl M)} {g : GridMap (ODbl M)} (h : OrdinaryMap c g)
    {p : V3 (ODbl M)} {p' : V3 (RDbl M)} (h0 : Same 600 p.c0 p'.c0) (h1 : Same 600 p.c1 p'.c1) :
    c.config g p = c.wide.config g.wide p' := by
  obtain ⟨r, hr, hr0⟩ := h.res
  have hr' : g.wide.resolution = .fin r := hr
  have q : ∀ {k : ℕ} {a : ODbl M} {b : RDbl M}, Same k a b → k ≤ 900 →
      Same 1000 (Flt.floor (a /. g.resolution)) (Flt.floor (b /. g.wide.resolution)) := by
    intro k a b hab hk
    rw [hr, hr']
    exact (hab.div (m := 60) (l := 970) hr0 (by omega) (by norm_num)).floor.mono (by norm_num)
  unfold Collision.config GridMap.world2Grid
  rw [(q (h0.sub (h.xmin.mono (by norm_num)) (l := 610) (by norm_num) (by norm_num)) (by norm_num)).castU32,
    (q (h1.sub (h.ymin.mono (by norm_num)) (l := 610) (by norm_num) (by norm_num)) (by norm_num)).castU32,
    (q h.bnd (by norm_num)).castI32, (q (h.bnd.add h.obs (l := 70) (by norm_num) (by norm_num))
      (by norm_num)).castI32, (q h.srch (by norm_num)).castI32]
  rfl

theorem checkCell_same (c : Collision (ODbl M)) (g : GridMap (ODbl M)) (cfg : CollisionConfig) (j i : UInt32) :
    c.checkCell g cfg j i = c.wide.checkCell g.wide cfg j i := by
  unfold Collision.checkCell
  rw [cell_same]
  rfl

theorem circle_same (c : Collision (ODbl M)) (g : GridMap (ODbl M)) (n : ℕ) :
    ∀ x y err cfg, c.circleLoop g n x y err cfg = c.wide.circleLoop g.wide n x y err cfg := by
  induction n with
  | zero => intros; rfl
  | succ n ih =>
    intro x y err cfg
    unfold Collision.circleLoop
    simp only [checkCell_same, ih]

theorem search_same (c : Collision (ODbl M)) (g : GridMap (ODbl M)) (cfg : CollisionConfig) :
    c.search g cfg = c.wide.search g.wide cfg := by
  have : ∀ n r cfg, c.searchLoop g n r cfg = c.wide.searchLoop g.wide n r cfg := by
    intro n
    induction n with
    | zero => intros; rfl
    | succ n ih =>
      intro r cfg
      unfold Collision.searchLoop Collision.bresenhamCircle
      simp only [circle_same, ih]
  unfold Collision.search
  rw [this]

/-- The collision check has the same outcome with overflow and without. -/
theorem C108_check_same {c : Collision (ODbl M)} {g : GridMap (ODbl M)} (h : OrdinaryMap c g)
    {p : V3 (ODbl M)} {p' : V3 (RDbl M)} (h0 : Same 600 p.c0 p'.c0) (h1 : Same 600 p.c1 p'.c1) :
    c.collisionCheck g p = c.wide.collisionCheck g.wide p' := by
  unfold Collision.collisionCheck
  rw [config_same h h0 h1]
  simp only [search_same]

theorem poseAfter_shift {F : Type} [Flt F] (u : V3 F) (dt : F) (x : V3 F) (k : ℕ) :
    poseAfter u dt (stepPose u dt x) k = poseAfter u dt x (k + 1) := by
  unfold poseAfter
  rw [Function.iterate_succ_apply]

/-- The loop of the validation has the same outcome if the simulated poses stay below `2^60`. -/
theorem validateLoop_same {c : Collision (ODbl M)} {g : GridMap (ODbl M)} (h : OrdinaryMap c g)
    {u : V3 (ODbl M)} {u' : V3 (RDbl M)} {dt : ℝ} (hu : SameV 60 u u') (hdt : |dt| ≤ 2 ^ 6)
    (hw : almostEqual u'.c2 (lit 0 0) = false → ∀ om, u'.c2 = .fin om → 1 / 2 ^ 50 ≤ |M.rnd (om * dt)|)
    (n : ℕ) : ∀ (x : V3 (ODbl M)) (x' : V3 (RDbl M)), SameV 60 x x' →
      (∀ k ≤ n, ∃ a b t : ℝ, poseAfter u' (.fin dt) x' k = ⟨.fin a, .fin b, .fin t⟩ ∧
        |a| ≤ 2 ^ 60 ∧ |b| ≤ 2 ^ 60 ∧ |t| ≤ 2 ^ 60) →
      validateLoop c g u (.fin dt) n x = validateLoop c.wide g.wide u' (.fin dt) n x' := by
  induction n with
  | zero => intros; rfl
  | succ n ih =>
    intro x x' hx hb
    obtain ⟨s0, s1, s2⟩ := stepPose_same hx hu hdt hw
    obtain ⟨a, b, t, e, ha, hb', ht⟩ := hb 1 (by omega)
    have e' : stepPose u' (.fin dt) x' = ⟨.fin a, .fin b, .fin t⟩ := e
    have tight : ∀ {p : ODbl M} {q : RDbl M} {r : ℝ}, Same 600 p q → q = .fin r → |r| ≤ 2 ^ 60 → Same 60 p q := by
      rintro p q r ⟨r', f1, f2, -⟩ hq hr
      rw [hq, RDbl.fin_inj] at f2
      exact ⟨r, by rw [f1, f2], hq, hr⟩
    have hx1 : SameV 60 (stepPose u (.fin dt) x) (stepPose u' (.fin dt) x') :=
      ⟨tight s0 (by rw [e']) ha, tight s1 (by rw [e']) hb', tight s2 (by rw [e']) ht⟩
    have hrest := ih _ _ hx1 (fun k hk => by
      obtain ⟨a, b, t, e, h⟩ := hb (k + 1) (by omega)
      exact ⟨a, b, t, by rw [poseAfter_shift]; exact e, h⟩)
    show (c.collisionCheck g (stepPose u (.fin dt) x) >>= fun hit =>
        if hit then .ok false else validateLoop c g u (.fin dt) n (stepPose u (.fin dt) x)) =
      (c.wide.collisionCheck g.wide (stepPose u' (.fin dt) x') >>= fun hit =>
        if hit then .ok false else validateLoop c.wide g.wide u' (.fin dt) n (stepPose u' (.fin dt) x'))
    rw [C108_check_same h s0 s1, hrest]

/-- C108: with ordinary numbers the validation of a twist has the same outcome with overflow and
without, for every map and detector; what is proved about rounding holds for it. -/
theorem C108_validate_same (hM : AccurateTrig M) {c : Collision (ODbl M)} {g : GridMap (ODbl M)}
    (h : OrdinaryMap c g) {x y θ vx vy om dt V horizon : ℝ} (hN : MotionNumbers vx vy om dt V)
    (hθ : |θ| ≤ 4) (hhor : |horizon| ≤ 2 ^ 60) (n : UInt32)
    (hn : numSteps (.fin horizon : RDbl M) (.fin dt) = .ok n)
    (hx : |x| ≤ 2 ^ 57) (hy : |y| ≤ 2 ^ 57) (hV : (3 * n.toNat + 19) * V ≤ 2 ^ 57)
    (hv : |vx| ≤ 2 ^ 60 ∧ |vy| ≤ 2 ^ 60 ∧ |om| ≤ 2 ^ 60) :
    validateControl c g ⟨.fin x, .fin y, .fin θ⟩ ⟨.fin vx, .fin vy, .fin om⟩ (.fin dt) (.fin horizon) =
      validateControl c.wide g.wide ⟨.fin x, .fin y, .fin θ⟩ ⟨.fin vx, .fin vy, .fin om⟩ (.fin dt)
        (.fin horizon) := by
  have hdt0 : 0 < dt := lt_of_lt_of_le (by norm_num) hN.step_lo
  have hdt : |dt| ≤ 2 ^ 6 := by
    rw [abs_of_pos hdt0]; exact hN.step_hi.trans (by norm_num)
  have hsteps : numSteps (.fin horizon : ODbl M) (.fin dt) = numSteps (.fin horizon : RDbl M) (.fin dt) := by
    unfold numSteps
    refine Same.castU32 (k := 100) (Same.fabs ?_)
    refine (Same.of_fin hhor).div (m := 10) (l := 100) ?_ (by norm_num) (by norm_num)
    rw [abs_of_pos hdt0]
    exact le_trans (by norm_num) hN.step_lo
  unfold validateControl
  rw [hsteps, hn, Res.ok_bind, Res.ok_bind]
  have hn32 : n.toNat ≤ 2 ^ 40 := by
    have := n.toNat_lt
    omega
  refine validateLoop_same h ⟨Same.of_fin hv.1, Same.of_fin hv.2.1, Same.of_fin hv.2.2⟩ hdt ?_ _ _ _
    ⟨Same.of_fin (hx.trans (by norm_num)), Same.of_fin (hy.trans (by norm_num)),
      Same.of_fin (hθ.trans (by norm_num))⟩ ?_
  · intro hbr om' e
    rw [← (RDbl.fin_inj (M := M)).mp e]
    exact (angle_rd hN.step_lo hbr).2.2.2.2
  · intro k hk
    have hV0 : 0 < V := lt_of_lt_of_le (by positivity) hN.long
    obtain ⟨a, b, t, e, ht, -, -, ha, hb⟩ := C98_reach (M := M) hM (x := x) (y := y) (B := 2 ^ 59) hN hθ hn32
      (by norm_num at hx hV ⊢; linarith) (by norm_num at hy hV ⊢; linarith) k hk
    exact ⟨a, b, t, e, by norm_num at ha ⊢; linarith, by norm_num at hb ⊢; linarith,
      ht.trans (by norm_num)⟩

/-! ## the shipped configurations -/

theorem lit_steps {m : Int} (h0 : 5 ≤ m) (h1 : m ≤ 100) (n : UInt32)
    (h : numSteps (lit m 1 : ODbl M) (lit 1 1) = .ok n) : 0 < n.toNat := by
  have hm0 : (5 : ℝ) ≤ m := by exact_mod_cast h0
  have hm1 : (m : ℝ) ≤ 100 := by exact_mod_cast h1
  have ⟨t0, t1⟩ := tenth_at (M := M)
  norm_num at t0 t1
  have tp : 0 < M.rnd (1 / 10) := by norm_num; linarith
  have hl : |(m : ℝ) / 10 ^ 1| ≤ 2 ^ 53 := by
    rw [abs_of_nonneg (by positivity)]
    norm_num; linarith
  obtain ⟨r0, r1⟩ := rnd_at (M := M) (x := (m : ℝ) / 10 ^ 1) (B := 16) (by norm_num) (by
    rw [abs_of_nonneg (by positivity)]; norm_num; linarith)
  norm_num at r0 r1
  have hs : numSteps (lit m 1 : ODbl M) (lit 1 1) = numSteps (lit m 1 : RDbl M) (lit 1 1) := by
    unfold numSteps
    refine Same.castU32 (k := 100) (Same.fabs ?_)
    refine (Same.lit hl).div' (s := M.rnd (1 / 10)) (m := 10) (l := 100) ?_ ?_ ?_ (by norm_num) (by norm_num)
    · rw [lit_ord (by norm_num [abs_of_pos])]; norm_num
    · rw [RDbl.lit_fin]; norm_num
    · rw [abs_of_pos tp]; norm_num; linarith
  have e1 : (lit m 1 : RDbl M) = .fin (M.rnd (m / 10)) := by rw [RDbl.lit_fin]; norm_num
  have e2 : (lit 1 1 : RDbl M) = .fin (M.rnd (1 / 10)) := by rw [RDbl.lit_fin]; norm_num
  obtain ⟨k, hk, hk', -⟩ := numSteps_fin (M := M) (h := M.rnd (m / 10)) (d := M.rnd (1 / 10))
    (by linarith) tp (by norm_num; linarith)
  rw [hs, e1, e2, hk, Res.ok.injEq] at h
  rw [← h, hk']
  refine Nat.floor_pos.mpr ?_
  have hq : (1 : ℝ) ≤ M.rnd (m / 10) / M.rnd (1 / 10) := by
    rw [le_div_iff₀ tp]
    norm_num; linarith
  have := M.int_le_rnd (n := 1) (by norm_num) (x := M.rnd (m / 10) / M.rnd (1 / 10)) (by exact_mod_cast hq)
  exact_mod_cast this

/-- C108, both shipped configurations: on numbers that round and overflow, no history makes either node
publish a twist that is not finite. -/
theorem C108_shipped {n n' : Node (ODbl M)} {o out : List (Out (ODbl M))}
    (hn : (omniYaml : Launch (ODbl M)).omni = .ok (n, o) ∨ (cartYaml : Launch (ODbl M)).cart = .ok (n, o))
    (es : List (Event (ODbl M))) (hr : n.run es = .ok (n', out)) : ∀ u ∈ twists out, V3Fin u := by
  have key : ∀ (l : Launch (ODbl M)) (p : Params (ODbl M)), l.params = .ok p →
      p.val_horizon = l.base.val_horizon ∧ p.val_dt = l.base.val_dt ∧
      p.dwa_horizon = l.base.dwa_horizon ∧ p.dwa_dt = l.base.dwa_dt := by
    intro l p h
    simp only [Launch.params, Res.bind_eq_ok, Res.ok.injEq] at h
    obtain ⟨_, -, _, -, rfl⟩ := h
    exact ⟨rfl, rfl, rfl, rfl⟩
  rcases hn with hn | hn
  · unfold Launch.omni at hn
    simp only [Res.bind_eq_ok] at hn
    obtain ⟨p, hp, _, -, hn⟩ := hn
    obtain ⟨a, b, c, d⟩ := key _ p hp
    refine C108_node p (Or.inr hn) ?_ ?_ es hr
    · rw [a, b]; exact lit_steps (by norm_num) (by norm_num)
    · rw [c, d]; exact lit_steps (by norm_num) (by norm_num)
  · unfold Launch.cart at hn
    simp only [Res.bind_eq_ok] at hn
    obtain ⟨p, hp, _, -, hn⟩ := hn
    obtain ⟨a, b, c, d⟩ := key _ p hp
    refine C108_node p (Or.inl hn) ?_ ?_ es hr
    · rw [a, b]; exact lit_steps (by norm_num) (by norm_num)
    · rw [c, d]; exact lit_steps (by norm_num) (by norm_num)

/-! ## concrete cases -/

theorem rnd_two_pow (M : Machine) (k : ℕ) : M.rnd (2 ^ k) = 2 ^ k := by
  induction k with
  | zero => simp
  | succ k ih =>
    have := M.double _ ih
    rwa [← pow_succ'] at this

/-- C108: overflow makes a difference.  Driving at `2^1023` for one step of 4 the product of speed and
step is infinite, so the simulated position is; without overflow it is finite. -/
theorem C108_overflows (M : Machine) :
    ¬ Special.Fin (integrateTwist (⟨.fin 0, .fin 0, .fin 0⟩ : V3 (ODbl M)) ⟨.fin (2 ^ 1023), .fin 0, .fin 0⟩
        (.fin 4)).c0 ∧
    Special.Fin (integrateTwist (⟨.fin 0, .fin 0, .fin 0⟩ : V3 (RDbl M)) ⟨.fin (2 ^ 1023), .fin 0, .fin 0⟩
        (.fin 4)).c0 := by
  constructor
  · intro h
    obtain ⟨r, hr⟩ := (step_fin_increment _ _ _ h).1
    have e : (2 : ℝ) ^ 1023 * 4 = 2 ^ 1025 := by
      rw [show (4 : ℝ) = 2 ^ 2 by norm_num, ← pow_add]
    have hl : huge ≤ |M.rnd ((2 : ℝ) ^ 1023 * 4)| := by
      rw [e, rnd_two_pow, abs_of_pos (by positivity)]
      exact pow_le_pow_right₀ (by norm_num) (by norm_num)
    have := ODbl.rd_large hl
    have hr' : ODbl.rd M (.fin ((2 : ℝ) ^ 1023 * 4)) = .fin r := hr
    rw [this] at hr'
    cases hr'
  · have hb : almostEqual (.fin 0 : RDbl M) (lit 0 0) = true := by
      rw [almostEqual_zero_rd, decide_eq_true_iff, M.rnd_zero, abs_zero]
      have e := (M.err' minNormal_le_one (x := 1 / 10 ^ 12) (by norm_num [abs_of_pos])).1
      norm_num at e ⊢
      linarith
    rw [twist_straight hb]
    exact ⟨_, rfl⟩

/-- The hypotheses of `C108_published` and `C108_too_fast` in the arithmetic with overflow. -/
example : numSteps (.fin 1 : ODbl M) (.fin (1 / 2)) = .ok 2 := by
  unfold numSteps
  have h := (Same.of_fin (M := M) (r := 1) (k := 1) (by norm_num)).div (s := 1 / 2) (m := 1) (l := 4)
    (by norm_num [abs_of_pos]) (by norm_num) (by norm_num)
  rw [h.fabs.castU32, RDbl.div_fin _ (by norm_num)]
  norm_num
  rw [fabs_rd (by norm_num)]
  exact castU32_rd (n := 2) (by norm_num) (by norm_num) (by norm_num)

/-- A map and a detector with ordinary numbers. -/
example : OrdinaryMap (M := M) ⟨.fin (1 / 2), .fin 1, .fin 0, .fin 1⟩
    ⟨10, 10, .fin (1 / 2), .fin (-1), .fin 2, .fin 4, .fin 7, List.replicate 100 0⟩ :=
  ⟨Same.of_fin (by norm_num), Same.of_fin (by norm_num), Same.of_fin (by norm_num [abs_of_pos]),
    Same.of_fin (by norm_num), Same.of_fin (by norm_num), 1 / 2, rfl, by norm_num [abs_of_pos]⟩

end

end Ergodic
