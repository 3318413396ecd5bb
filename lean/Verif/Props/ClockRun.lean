import Verif.Props.Clock
import Verif.Props.MirrorWindow

/-!
# Property C135: validation, window searches and runs in another unit of time

Exact arithmetic.
-/

namespace Ergodic
open Real

namespace Clock
variable {s : ℝ}

/-! ## Simulated motion -/

theorem straight_clock (hs : 0 < s) {u : V3 ℝ} (h : Brisk s u) :
    almostEqual (twist s u).c2 (lit 0 0 : ℝ) = almostEqual u.c2 (lit 0 0) := by
  rw [Bool.eq_iff_iff, real_almostEqual_eps, real_almostEqual_eps]
  simp only [twist, real_lit, Int.cast_zero, zero_div, sub_zero]
  rw [abs_div, abs_of_pos hs, div_lt_iff₀ hs, show 1 / 10 ^ 12 * s = s / 10 ^ 12 by ring]
  exact h.symm

theorem integrate_clock (hs : 0 < s) (x : V3 ℝ) {u : V3 ℝ} (h : Brisk s u) (dt : ℝ) :
    integrateTwist x (twist s u) (s * dt) = integrateTwist x u dt := by
  have e (a : ℝ) : a / s * (s * dt) = a * dt := by field_simp
  unfold integrateTwist
  rw [straight_clock hs h]
  simp only [twist, real_mul, e]

theorem validateLoop_clock (hs : 0 < s) (c : Collision ℝ) (g : GridMap ℝ) {u : V3 ℝ} (h : Brisk s u) (dt : ℝ) :
    ∀ (n : Nat) (x : V3 ℝ), validateLoop c g (twist s u) (s * dt) n x = validateLoop c g u dt n x
  | 0, _ => rfl
  | n + 1, x => by
    rw [validateLoop, validateLoop, integrate_clock hs x h]
    simp only [validateLoop_clock hs c g h dt n]

theorem path_clock (hs : 0 < s) {u : V3 ℝ} (h : Brisk s u) (dt : ℝ) :
    ∀ (n : Nat) (x : V3 ℝ), constTwistLoop (twist s u) (s * dt) n x = constTwistLoop u dt n x
  | 0, _ => rfl
  | n + 1, x => by
    rw [constTwistLoop, constTwistLoop, integrate_clock hs x h]
    simp only [path_clock hs h dt n]

theorem constTwistPath_clock (hs : 0 < s) (f : String) (x : V3 ℝ) {u : V3 ℝ} (h : Brisk s u) (dt horizon : ℝ) :
    constTwistPath f x (twist s u) (s * dt) (s * horizon) = constTwistPath f x u dt horizon := by
  unfold constTwistPath
  rw [numSteps_clock hs]
  simp only [path_clock hs h]

/-! ## The window -/

theorem max_clock (hs : 0 < s) (a b : ℝ) : fmax (a / s) (b / s) = fmax a b / s := by
  unfold fmax
  have key : Flt.lt (a / s) (b / s) = Flt.lt a b := by
    rw [Bool.eq_iff_iff, real_lt, real_lt]
    exact div_lt_div_iff_of_pos_right hs
  rw [key]
  split <;> rfl

theorem min_clock (hs : 0 < s) (a b : ℝ) : fmin (a / s) (b / s) = fmin a b / s := by
  unfold fmin
  have key : Flt.lt (b / s) (a / s) = Flt.lt b a := by
    rw [Bool.eq_iff_iff, real_lt, real_lt]
    exact div_lt_div_iff_of_pos_right hs
  rw [key]
  split <;> rfl

theorem reach_clock (hs : 0 < s) (v a t : ℝ) :
    v / s -. a / s ^ 2 *. (s * t) = (v - a * t) / s ∧ v / s +. a / s ^ 2 *. (s * t) = (v + a * t) / s := by
  simp only [real_sub, real_add, real_mul]
  constructor <;> field_simp

theorem lower_clock (hs : 0 < s) (d : DynamicWindow ℝ) (vb : V3 ℝ) :
    (window s d).velLower (twist s vb) = twist s (d.velLower vb) := by
  unfold DynamicWindow.velLower
  simp only [window, twist, (reach_clock hs _ _ _).1, max_clock hs]
  rfl

theorem upper_clock (hs : 0 < s) (d : DynamicWindow ℝ) (vb : V3 ℝ) :
    (window s d).velUpper (twist s vb) = twist s (d.velUpper vb) := by
  unfold DynamicWindow.velUpper
  simp only [window, twist, (reach_clock hs _ _ _).2, min_clock hs]
  rfl

theorem delta_clock (n : UInt32) (a b : ℝ) : DynamicWindow.delta n (a / s) (b / s) = DynamicWindow.delta n a b / s := by
  unfold DynamicWindow.delta
  split
  · simp only [real_sub, real_div]
    ring
  · simp [real_lit]

theorem stride_clock (x dx : ℝ) (k : Nat) : stride (x / s) (dx / s) k = stride x dx k / s := by
  rw [stride_real, stride_real]
  ring

theorem visited_clock (hs : 0 < s) (d : DynamicWindow ℝ) (vb : V3 ℝ) :
    visited (window s d) (twist s vb) = (visited d vb).map (twist s) := by
  unfold visited sampleList DynamicWindow.window
  rw [lower_clock hs, upper_clock hs]
  dsimp only [twist]
  simp only [List.map_flatMap, List.map_map]
  simp only [delta_clock, stride_clock, window]
  rfl

/-- Corresponding costs: compared with one another and with the largest number they agree. -/
structure Costs (R : ℝ → ℝ → Prop) : Prop where
  lt : ∀ {a a' b b'}, R a a' → R b b' → Flt.lt a' b' = Flt.lt a b
  top : R Flt.maxFin Flt.maxFin
  near : ∀ {a a'}, R a a' → almostEqual a' (Flt.maxFin : ℝ) = almostEqual a (Flt.maxFin : ℝ)

theorem fold_clock {R : ℝ → ℝ → Prop} (hR : Costs R) {cost cost' : V3 ℝ → Res ℝ} : ∀ (l : List (V3 ℝ)),
    (∀ v ∈ l, Alike R (cost v) (cost' (twist s v))) → ∀ {a a' : ℝ × V3 ℝ}, R a.1 a'.1 ∧ a'.2 = twist s a.2 →
    Alike (fun r r' => R r.1 r'.1 ∧ r'.2 = twist s r.2) (l.foldlM (consider cost) a)
      ((l.map (twist s)).foldlM (consider cost') a')
  | [], _, _, _, h => h
  | v :: l, hc, a, a', h => by
    rw [List.map_cons, List.foldlM_cons, List.foldlM_cons]
    refine Alike.bind (R := fun r r' => R r.1 r'.1 ∧ r'.2 = twist s r.2) ?_ fun r r' hr =>
      fold_clock hR l (fun w hw => hc w (List.mem_cons_of_mem _ hw)) hr
    unfold consider
    refine (hc v (List.mem_cons_self ..)).bind fun c c' hcc => ?_
    show R (_ : ℝ × V3 ℝ).1 (_ : ℝ × V3 ℝ).1 ∧ _
    rw [hR.lt hcc h.1]
    split
    · exact ⟨hcc, rfl⟩
    · exact h

theorem search_clock (hs : 0 < s) (d : DynamicWindow ℝ) (vb : V3 ℝ) {R : ℝ → ℝ → Prop} (hR : Costs R)
    {cost cost' : V3 ℝ → Res ℝ} (hc : ∀ v, IsSample d vb v → Alike R (cost v) (cost' (twist s v))) :
    Alike (fun r r' => r' = (r.1, twist s r.2)) (d.searchWindow vb cost)
      ((window s d).searchWindow (twist s vb) cost') := by
  rw [searchWindow_eq, searchWindow_eq, visited_clock hs]
  refine (fold_clock hR _ (fun v hv => hc v ((mem_visited d vb v).mp hv)) ⟨hR.top, (twist_zero s).symm⟩).bind fun r r' h => ?_
  rw [hR.near h.1]
  split
  · show _ = _
    rw [h.2]
  · show _ = _
    rw [h.2]

theorem rollout_clock (hs : 0 < s) (d : DynamicWindow ℝ) (g : GridMap ℝ) {u : V3 ℝ} (h : Brisk s u) :
    ∀ (n : Nat) (x : V3 ℝ), (window s d).rollout g (twist s u) n x = d.rollout g u n x
  | 0, _ => rfl
  | n + 1, x => by
    rw [DynamicWindow.rollout, DynamicWindow.rollout]
    have e : integrateTwist x (twist s u) (window s d).dt = integrateTwist x u d.dt := integrate_clock hs x h d.dt
    rw [e]
    simp only [rollout_clock hs d g h n]
    rfl

theorem rollout_top (d : DynamicWindow ℝ) (g : GridMap ℝ) (u : V3 ℝ) : ∀ (n : Nat) (x : V3 ℝ) {c : ℝ},
    d.rollout g u n x = .ok (some c) → c = Flt.maxFin
  | 0, _, _, h => by cases h
  | n + 1, x, c, h => by
    rw [DynamicWindow.rollout] at h
    simp only [Res.bind_eq_ok] at h
    obtain ⟨b, -, h⟩ := h
    cases b with
    | true => cases h; rfl
    | false => exact rollout_top d g u n _ h

theorem trajLoop_clock (hs : 0 < s) (d : DynamicWindow ℝ) (g : GridMap ℝ) {u : V3 ℝ} (h : Brisk s u) (ref : List (V3 ℝ))
    (tf : ℝ) : ∀ (n : Nat) (x : V3 ℝ) (t c : ℝ),
    (window s d).trajLoop g (twist s u) ref (s * tf) n x (s * t) c = d.trajLoop g u ref tf n x t c
  | 0, _, _, _ => rfl
  | n + 1, x, t, c => by
    rw [DynamicWindow.trajLoop, DynamicWindow.trajLoop]
    have e : integrateTwist x (twist s u) (window s d).dt = integrateTwist x u d.dt := integrate_clock hs x h d.dt
    have e2 (k : ℝ) : k *. (s * t) /. (s * tf) = k *. t /. tf := by
      simp only [real_mul, real_div]
      rw [mul_left_comm, mul_div_mul_left _ _ hs.ne']
    have e3 : s * t +. (window s d).dt = s * (t +. d.dt) := by
      show s * t + s * d.dt = s * (t + d.dt)
      ring
    rw [e, e3]
    simp only [e2, trajLoop_clock hs d g h ref tf n]
    rfl

end Clock

/-- C135: validation does not depend on the unit of time, unless the unit decides whether the twist turns. -/
theorem C135_validate {s : ℝ} (hs : 0 < s) (c : Collision ℝ) (g : GridMap ℝ) (x : V3 ℝ) {u : V3 ℝ}
    (h : Clock.Brisk s u) (dt horizon : ℝ) :
    validateControl c g x (Clock.twist s u) (s * dt) (s * horizon) = validateControl c g x u dt horizon := by
  unfold validateControl
  rw [Clock.numSteps_clock hs]
  simp only [Clock.validateLoop_clock hs c g h]

/-- C135: the search for the twist that best follows a reference finds the same twist. -/
theorem C135_track {s : ℝ} (hs : 0 < s) (d : DynamicWindow ℝ) (g : GridMap ℝ) (x vb : V3 ℝ) (ref : List (V3 ℝ)) (dt : ℝ)
    (h : ∀ v, IsSample d vb v → Clock.Brisk s v) :
    Alike (fun r r' => r' = (r.1, Clock.twist s r.2)) (d.controlTraj g x vb ref dt)
      ((Clock.window s d).controlTraj g x (Clock.twist s vb) ref (s * dt)) := by
  unfold DynamicWindow.controlTraj
  refine Clock.search_clock hs d vb (R := fun a b => b = a) ⟨?_, rfl, ?_⟩ fun v hv => ?_
  · rintro a _ b _ rfl rfl
    rfl
  · rintro a _ rfl
    rfl
  · have e : (Clock.window s d).objectiveTraj g x (Clock.twist s v) ref (Flt.ofInt ref.length *. (s * dt)) =
        d.objectiveTraj g x v ref (Flt.ofInt ref.length *. dt) := by
      have := Clock.trajLoop_clock hs d g (h v hv) ref (Flt.ofInt ref.length *. dt) d.steps.toNat x (lit 0 0) (lit 0 0)
      rw [show s * (lit 0 0 : ℝ) = lit 0 0 by simp [real_lit],
        show s * (Flt.ofInt ref.length *. dt) = Flt.ofInt ref.length *. (s * dt) by
          simp only [real_mul]; ring] at this
      exact this
    rw [e]
    cases d.objectiveTraj g x v ref (Flt.ofInt ref.length *. dt) <;> first
      | exact rfl
      | exact trivial

/-- C135: the search for the twist nearest to a given one finds the same twist, unless the costs come near
the largest number. -/
theorem C135_window {s : ℝ} (hs : 0 < s) (d : DynamicWindow ℝ) (g : GridMap ℝ) (x vb vref : V3 ℝ)
    (h : ∀ v, IsSample d vb v → Clock.Brisk s v ∧ Clock.Modest s vref v) :
    Alike (fun r r' => r' = (r.1, Clock.twist s r.2)) (d.controlTwist g x vb vref)
      ((Clock.window s d).controlTwist g x (Clock.twist s vb) (Clock.twist s vref)) := by
  unfold DynamicWindow.controlTwist
  have hM : (2 : ℝ) ^ 1000 + 1 < Flt.maxFin := by
    rw [real_maxFin]
    exact maxFin_large
  have hq : ∀ v, IsSample d vb v → Clock.Modest s vref v := fun v hv => (h v hv).2
  unfold Clock.Modest at hq
  generalize hm : (Flt.maxFin : ℝ) = M at hM
  generalize (2 : ℝ) ^ 1000 = B at hM hq
  refine Clock.search_clock hs d vb
    (R := fun a b => (a = Flt.maxFin ∧ b = Flt.maxFin) ∨ (b = a / s ^ 2 ∧ a < B ∧ b < B)) ⟨?_, .inl ⟨rfl, rfl⟩, ?_⟩
    fun v hv => ?_
  · rintro a a' b b' (⟨rfl, rfl⟩ | ⟨rfl, h1, h2⟩) (⟨rfl, rfl⟩ | ⟨rfl, h3, h4⟩)
    · rfl
    · rw [Bool.eq_iff_iff, real_lt, real_lt, hm]
      constructor <;> intro <;> linarith
    · rw [Bool.eq_iff_iff, real_lt, real_lt, hm]
      constructor <;> intro <;> linarith
    · rw [Bool.eq_iff_iff, real_lt, real_lt]
      exact div_lt_div_iff_of_pos_right (by positivity)
  · rintro a a' (⟨rfl, rfl⟩ | ⟨rfl, h1, h2⟩)
    · rfl
    · have key : ∀ b : ℝ, b < B → almostEqual b (Flt.maxFin : ℝ) = false := by
        intro b hb
        rw [Bool.eq_false_iff, Ne, real_almostEqual_eps, hm, abs_lt]
        rintro ⟨k, -⟩
        norm_num at k
        linarith
      rw [key _ h1, key _ h2]
  · unfold DynamicWindow.objectiveTwist
    rw [Clock.rollout_clock hs d g (h v hv).1]
    show Alike _ (d.rollout g v d.steps.toNat x >>= _) (d.rollout g v d.steps.toNat x >>= _)
    refine Alike.same fun r hr => ?_
    cases r with
    | some c =>
      obtain rfl : c = Flt.maxFin := Clock.rollout_top d g v _ _ hr
      exact .inl ⟨hm.symm ▸ rfl, hm.symm ▸ rfl⟩
    | none =>
      obtain ⟨q1, q2⟩ := hq v hv
      refine .inr ⟨?_, ?_, ?_⟩
      · simp only [V3.sub, V3.dot, Clock.twist, real_add, real_sub, real_mul]
        field_simp
      · simp only [V3.sub, V3.dot, real_add, real_sub, real_mul]
        linarith
      · have : (Clock.twist s vref).sub (Clock.twist s v) = Clock.twist s (vref.sub v) := by
          ext <;> simp only [V3.sub, Clock.twist, real_sub] <;> ring
        rw [this]
        simp only [V3.sub, V3.dot, Clock.twist, real_add, real_sub, real_mul]
        rw [show (vref.c0 - v.c0) / s * ((vref.c0 - v.c0) / s) + (vref.c1 - v.c1) / s * ((vref.c1 - v.c1) / s) +
          (vref.c2 - v.c2) / s * ((vref.c2 - v.c2) / s) = ((vref.c0 - v.c0) ^ 2 + (vref.c1 - v.c1) ^ 2 +
          (vref.c2 - v.c2) ^ 2) / s ^ 2 by field_simp]
        rw [div_lt_iff₀ (by positivity)]
        linarith

namespace Clock
variable {s : ℝ}

theorem optTraj_clock (hs : 0 < s) {e : ErgodicControl ℝ} (hd : Drives e) : (controller s e).optTraj = e.optTraj := by
  obtain ⟨ok, hM, hok, -⟩ := model_of hs hd
  exact solve hs hM e.dt e.horizon hok e.pose

theorem ecPath_clock (hs : 0 < s) {e : ErgodicControl ℝ} (hd : Drives e) (f : String) :
    (controller s e).path f = e.path f := by
  obtain ⟨ok, hM, hok, -⟩ := model_of hs hd
  have h := solve hs hM e.dt e.horizon hok e.pose
  unfold ErgodicControl.path
  show (RungeKutta.solve (s * e.dt) e.model.f e.pose (e.ut.map (twist s)) (s * e.horizon) >>= _) = _
  rw [h]

/-- what a step of a node does, in the new unit -/
def Same (s : ℝ) (r r' : Expl ℝ × List (Out ℝ)) : Prop := r' = (node s r.1, r.2.map (out s)) ∧ Drives r.1.ec

theorem localize_clock (n : Expl ℝ) (tf : Option (TransformMsg ℝ)) :
    (node s n).localize tf = node s (n.localize tf) := by
  cases tf <;> rfl

theorem localize_drives {n : Expl ℝ} (h : Drives n.ec) (tf : Option (TransformMsg ℝ)) : Drives (n.localize tf).ec := by
  cases tf <;> exact h

theorem advance_clock (n : Expl ℝ) : (node s n).advanceDwa = node s n.advanceDwa := by
  unfold Expl.advanceDwa
  show (if n.follow_dwa = true then _ else _) = _
  split <;> rfl

theorem advance_drives {n : Expl ℝ} (h : Drives n.ec) : Drives n.advanceDwa.ec := by
  unfold Expl.advanceDwa
  split <;> exact h

theorem replan_clock (hs : 0 < s) {n : Expl ℝ} (hd : Drives n.ec) (draws : List Nat) :
    Alike (Same s) (n.replan draws) ((node s n).replan draws) := by
  unfold Expl.replan
  show Alike _ _ (if n.follow_dwa = true then _ else _)
  split
  · exact ⟨rfl, hd⟩
  · refine (C135_control hs hd n.grid n.pose draws).bind ?_
    rintro ⟨ec, u⟩ _ ⟨rfl, hd'⟩
    show Alike _ (ec.path n.map_frame_id >>= _) ((controller s ec).path n.map_frame_id >>= _)
    rw [ecPath_clock hs hd']
    exact Alike.same fun p _ => ⟨rfl, hd'⟩

theorem avoid_clock (hs : 0 < s) {n : Expl ℝ} (hd : Drives n.ec) (hp : Paced s n) :
    Alike (Same s) n.avoid (node s n).avoid := by
  unfold Expl.avoid
  have e : validateControl (node s n).collision (node s n).grid (node s n).pose (node s n).u (node s n).val_dt
      (node s n).val_horizon = validateControl n.collision n.grid n.pose n.u n.val_dt n.val_horizon :=
    C135_validate hs _ _ _ hp.own _ _
  rw [e]
  refine Alike.same fun b hb => ?_
  cases b with
  | true => exact ⟨rfl, hd⟩
  | false =>
    have hw := hp.window hb
    rw [if_neg Bool.false_ne_true, if_neg Bool.false_ne_true]
    by_cases hf : n.follow_dwa = true
    · rw [if_pos hf, if_pos (show (node s n).follow_dwa = true from hf)]
      refine (C135_window hs n.dwa n.grid n.pose n.vb n.u fun v hv => ⟨(hw v hv).1, (hw v hv).2 hf⟩).bind ?_
      rintro r _ rfl
      exact ⟨rfl, hd⟩
    · rw [if_neg hf, if_neg (show ¬ (node s n).follow_dwa = true from hf)]
      rw [show (node s n).ec.optTraj = n.ec.optTraj from optTraj_clock hs hd]
      refine Alike.same fun ref _ => ?_
      refine (alike_and (C135_track hs n.dwa n.grid n.pose n.vb ref n.ec.dt fun v hv => (hw v hv).1)
        (P := fun r => r.1 = true → IsSample n.dwa n.vb r.2) ?_).bind ?_
      · rintro ⟨b, u⟩ hr hb
        obtain ⟨m, -, h2, h3⟩ := searchWindow_spec n.dwa n.vb _ b u hr
        rcases h3 with ⟨rfl, -⟩ | ⟨-, h, -⟩
        · rw [StrictLt.max_close] at h2
          rw [h2.mpr rfl] at hb
          cases hb
        · exact h
      · rintro ⟨b, u⟩ _ ⟨rfl, hu⟩
        cases b with
        | false => exact ⟨rfl, hd⟩
        | true =>
          have hu := (hw u (hu rfl)).1
          show Alike _ (constTwistPath n.map_frame_id n.pose u n.dwa.dt n.dwa.horizon >>= _)
            (constTwistPath n.map_frame_id n.pose (twist s u) (s * n.dwa.dt) (s * n.dwa.horizon) >>= _)
          rw [constTwistPath_clock hs _ _ hu]
          exact Alike.same fun p _ => ⟨rfl, hd⟩

end Clock

/-- C135: one iteration of the control loop, planning, validation and takeover included. -/
theorem C135_iteration {s : ℝ} (hs : 0 < s) {n : Expl ℝ} (hd : Clock.Drives n.ec) (tf : Option (TransformMsg ℝ))
    (draws : List Nat) (hp : n.map_received = true → (n.localize tf).pose_known = true →
      ∀ t o, (n.localize tf).advanceDwa.replan draws = .ok (t, o) → Clock.Paced s t) :
    Alike (fun r r' => r' = (Clock.node s r.1, r.2.map (Clock.out s)) ∧ Clock.Drives r.1.ec)
      (n.iteration tf draws) ((Clock.node s n).iteration tf draws) := by
  unfold Expl.iteration
  rw [Clock.localize_clock]
  have hm : (n.localize tf).map_received = n.map_received := by cases tf <;> rfl
  have hd' := Clock.localize_drives hd tf
  rw [← hm] at hp
  generalize n.localize tf = t at hp hd'
  show Alike _ (if (t.map_received && t.pose_known) = true then _ else _)
    (if (t.map_received && t.pose_known) = true then _ else _)
  by_cases hk : (t.map_received && t.pose_known) = true
  · rw [if_pos hk, if_pos hk]
    rw [Bool.and_eq_true] at hk
    dsimp only
    rw [Clock.advance_clock]
    refine (Clock.alike_and (Clock.replan_clock hs (Clock.advance_drives hd') draws)
      (P := fun r => Clock.Paced s r.1) fun r hr => hp hk.1 hk.2 r.1 r.2 hr).bind ?_
    rintro ⟨t1, o1⟩ _ ⟨⟨rfl, h1⟩, hp1⟩
    refine (Clock.avoid_clock hs h1 hp1).bind ?_
    rintro ⟨t2, o2⟩ _ ⟨rfl, h2⟩
    refine ⟨?_, h2⟩
    simp only [List.map_append, List.map_cons, List.map_nil]
    rfl
  · rw [if_neg hk, if_neg hk]
    exact ⟨rfl, hd'⟩

/-- C135: a whole history.  A node all of whose settings are given in another unit of time, fed the same
history with velocities in that unit, publishes the same paths and the same twists in the new unit, and ends
in the same state, or fails in the same way. -/
theorem C135_run {s : ℝ} (hs : 0 < s) : ∀ (es : List (Event ℝ)) {n : Expl ℝ}, Clock.Drives n.ec → Clock.Steady s n es →
    Alike (fun r r' => r' = (Clock.node s r.1, r.2.map (Clock.out s))) (n.run es)
      ((Clock.node s n).run (es.map (Clock.event s))) := by
  intro es
  induction es with
  | nil => intro n _ _; exact rfl
  | cons ev es ih =>
    intro n hd hst
    rw [List.map_cons, Expl.run, Expl.run]
    have key : Alike (Clock.Same s) (n.step ev) ((Clock.node s n).step (Clock.event s ev)) := by
      cases ev with
      | map msg => exact ⟨rfl, hd⟩
      | odom v => exact ⟨rfl, hd⟩
      | tick tf draws => exact C135_iteration hs hd tf draws (hst.1 tf draws rfl)
    refine (Clock.alike_and key (P := fun r => Clock.Steady s r.1 es) fun r hr => hst.2 r.1 r.2 hr).bind ?_
    rintro ⟨t, o⟩ _ ⟨⟨rfl, h1⟩, h2⟩
    refine (ih h1 h2).bind ?_
    rintro ⟨t', o'⟩ _ rfl
    show _ = _
    simp only [List.map_append]

/-- C135, false for turns near the tolerance: simulated motion does not depend on the unit of time. -/
def C135_motion_statement : Prop := ∀ (s : ℝ) (x u : V3 ℝ) (dt : ℝ), 0 < s →
  integrateTwist x (Clock.twist s u) (s * dt) = integrateTwist x u dt

/-- Half a radian in 10¹² seconds counts as no turn, half a radian in 10³ gigaseconds as one. -/
theorem C135_motion_refuted : ¬ C135_motion_statement := by
  intro h
  have k := h (1 / 10 ^ 9) ⟨0, 0, 0⟩ ⟨0, 0, 1 / (2 * 10 ^ 12)⟩ (10 ^ 12) (by norm_num)
  unfold integrateTwist at k
  rw [if_pos (show almostEqual (1 / (2 * 10 ^ 12) : ℝ) (lit 0 0) = true by
      rw [real_almostEqual_eps, real_lit]; norm_num [abs_of_pos]),
    if_neg (show ¬ almostEqual (Clock.twist (1 / 10 ^ 9) ⟨0, 0, 1 / (2 * 10 ^ 12)⟩).c2 (lit 0 0 : ℝ) = true by
      rw [real_almostEqual_eps, real_lit]; norm_num [Clock.twist, abs_of_pos])] at k
  have k2 := congrArg V3.c2 k
  simp [V3.add, M3.mulVec, V3.dot, transform2dAngle, Clock.twist, real_lit] at k2

end Ergodic
