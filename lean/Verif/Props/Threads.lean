import Verif.Spec.Threads
import Verif.Props.Interleaving
import Verif.Props.Torn
import Verif.Props.ClosedLoop

/-!
# Property C115: closed-loop safety with callbacks at any moment

Exact arithmetic.
-/

namespace Ergodic

theorem DrivenT.trace {T : ℝ} {s t : Expl ℝ} {es : List (Event ℝ)} {os : List (List (Out ℝ))}
    {l : Option (V3 ℝ × List (V3 ℝ))} (h : DrivenT T s es os t l) : TornTrace s es os t := by
  induction h with
  | nil => exact .nil
  | first _ _ hs ih => exact .snoc ih hs
  | next _ _ _ hs ih => exact .snoc ih hs

section
variable {ec : ErgodicControl ℝ} {collision : Collision ℝ} {dwa : DynamicWindow ℝ} {target : Target ℝ}
  {frame : String} {val_dt val_horizon : ℝ} {es : List (Event ℝ)} {os : List (List (Out ℝ))} {s t : Expl ℝ}
  {o : List (Out ℝ)}

/-- where an iteration with callbacks at any moment takes a robot that is free -/
theorem next_freeT {tf : Option (TransformMsg ℝ)} {draws : List Nat} {c : Slots ℝ} {msgs : List (V3 ℝ)}
    {g : Gaps} (h : TornTrace (Expl.start ec collision dwa target frame val_dt val_horizon).1 es os s)
    (hs : s.iterationT tf draws c msgs g = .ok (t, o)) (hcol : dwa.collision = collision)
    (hsteps : numSteps dwa.horizon dwa.dt = .ok dwa.steps) (hv : 0 < val_dt) (hd : 0 < dwa.dt) {T : ℝ}
    (hTv : Instant T val_dt val_horizon) (hTd : Instant T dwa.dt dwa.horizon) (m : OccupancyGrid ℝ)
    (hmaps : ∀ m' ∈ maps (es ++ asEvents c.all), m' = m) (hw : ∀ u ∈ twists o, Measurable u) {p : V3 ℝ}
    (hp : (Event.tick tf draws).pose? = some p) (hfree : collision.collisionCheck (mapOf m) p = .ok false)
    (q : V3 ℝ) (hq : Moved T p (twists o) q) : collision.collisionCheck (mapOf m) q = .ok false := by
  rcases iterationT_twists hs with hu | hu
  · have hmem : t.u ∈ twists o := by rw [hu]; simp
    obtain ⟨q0, q1, -⟩ := hq.2 t.u hmem
    have hwu := hw t.u hmem
    have reg : ∀ dt, 0 < dt → RegularTwist t.u dt := fun dt hdt => by
      rcases hwu with hw | hw
      · exact .inl hw
      · exact .inr ⟨hw, hdt.ne'⟩
    obtain ⟨m1, m2, p', hm1, hm2, hp', hsafe⟩ := C114_safe h hs t.u hmem
    have hpp : p' = p := by
      rw [poses_snoc, hp] at hp'
      simp only [Option.toList_some, List.getLast?_append, List.getLast?_singleton, Option.some_or,
        Option.some.injEq] at hp'
      exact hp'.symm
    subst hpp
    have e1 : m1 = m := hmaps m1 (by
      have := List.mem_of_getLast? hm1
      rw [maps_append] at this
      rw [maps_append, Slots.all, asEvents_append, maps_append]
      simp only [List.mem_append] at this ⊢
      tauto)
    have e2 : m2 = m := hmaps m2 (List.mem_of_getLast? hm2)
    subst e1
    rw [e2] at hsafe
    rcases hsafe with ⟨n, hn, hk⟩ | ⟨hf, -⟩ | hz
    · obtain ⟨k, hkn, rfl⟩ := instant_index hv hTv hn
      obtain ⟨a0, a1, -⟩ := C20_poses_are_exact t.u val_dt (reg _ hv) p' k
      rw [collisionCheck_position collision (mapOf m1) (q0.trans a0.symm) (q1.trans a1.symm)]
      exact hk k hkn
    · obtain ⟨k, hkn, rfl⟩ := instant_index hd hTd hsteps
      obtain ⟨a0, a1, -⟩ := C20_poses_are_exact t.u dwa.dt (reg _ hd) p' k
      rw [collisionCheck_position collision (mapOf m1) (q0.trans a0.symm) (q1.trans a1.symm), ← hcol]
      exact hf k hkn
    · have h0 : (lit 0 0 : ℝ) = 0 := by simp
      rw [hz, h0] at q0 q1
      rw [collisionCheck_position collision (mapOf m1) (q0.trans (flow_rest p' T).1) (q1.trans (flow_rest p' T).2)]
      exact hfree
  · obtain ⟨h0, h1, -⟩ := hq.1 hu
    rw [collisionCheck_position collision _ h0 h1]
    exact hfree

theorem drivenT_safe (hcol : dwa.collision = collision)
    (hsteps : numSteps dwa.horizon dwa.dt = .ok dwa.steps) (hv : 0 < val_dt) (hd : 0 < dwa.dt) {T : ℝ}
    (hTv : Instant T val_dt val_horizon) (hTd : Instant T dwa.dt dwa.horizon) (m : OccupancyGrid ℝ)
    {l : Option (V3 ℝ × List (V3 ℝ))}
    (hdr : DrivenT T (Expl.start ec collision dwa target frame val_dt val_horizon).1 es os t l) :
    (∀ m' ∈ maps es, m' = m) → (∀ o ∈ os, ∀ u ∈ twists o, Measurable u) →
    (∀ p, (poses es).head? = some p → collision.collisionCheck (mapOf m) p = .ok false) →
    (∀ p ∈ poses es, collision.collisionCheck (mapOf m) p = .ok false) ∧
    (l = none → poses es = []) ∧
    ∀ p us, l = some (p, us) → ∀ q, Moved T p us q → collision.collisionCheck (mapOf m) q = .ok false := by
  have hposes : ∀ (es : List (Event ℝ)) (b : List (Callback ℝ)) (e : Event ℝ),
      poses (es ++ asEvents b ++ [e]) = poses es ++ e.pose?.toList := by
    intro es b e
    rw [poses_snoc, poses_append, poses_asEvents, List.append_nil]
  have hsub : ∀ (es : List (Event ℝ)) (b b' : List (Callback ℝ)) (e : Event ℝ),
      ∀ m' ∈ maps (es ++ asEvents b), m' ∈ maps (es ++ asEvents (b ++ b') ++ [e]) := by
    intro es b b' e m' h
    rw [maps_append, maps_append, asEvents_append, maps_append]
    rw [maps_append] at h
    simp only [List.mem_append] at h ⊢
    tauto
  induction hdr with
  | nil => intro _ _ _; exact ⟨by simp [poses], fun _ => rfl, by simp⟩
  | @first es os t t' tf draws c msgs g o p hd' he hs ih =>
    intro hmaps hw hfirst
    rw [hposes] at hfirst ⊢
    have hm : ∀ m' ∈ maps (es ++ asEvents c.all), m' = m := fun m' hm' => hmaps m' (hsub _ _ _ _ m' hm')
    have hp0 := (ih (fun m' hm' => hm m' (by rw [maps_append]; simp [hm']))
      (fun o ho => hw o (by simp [ho])) (by
        intro p' hp'
        apply hfirst
        rw [List.head?_append, hp']
        rfl)).2.1 rfl
    rw [hp0, he] at hfirst ⊢
    have hfree := hfirst p rfl
    refine ⟨by simpa using hfree, by simp, ?_⟩
    rintro p' us hl
    cases hl
    exact next_freeT hd'.trace hs hcol hsteps hv hd hTv hTd m hm (hw o (by simp)) he hfree
  | @next es os t t' tf draws c msgs g o p us q hd' he hmv hs ih =>
    intro hmaps hw hfirst
    rw [hposes] at hfirst ⊢
    have hm : ∀ m' ∈ maps (es ++ asEvents c.all), m' = m := fun m' hm' => hmaps m' (hsub _ _ _ _ m' hm')
    obtain ⟨h1, -, h3⟩ := ih (fun m' hm' => hm m' (by rw [maps_append]; simp [hm']))
      (fun o ho => hw o (by simp [ho])) (by
        intro p' hp'
        apply hfirst
        rw [List.head?_append, hp']
        rfl)
    have hfree := h3 p us rfl q hmv
    rw [he] at hfirst ⊢
    refine ⟨?_, by simp, ?_⟩
    · intro x hx
      rw [Option.toList_some, List.mem_append, List.mem_singleton] at hx
      rcases hx with hx | rfl
      · exact h1 x hx
      · exact hfree
    · rintro p' us' hl
      cases hl
      exact next_freeT hd'.trace hs hcol hsteps hv hd hTv hTd m hm (hw o (by simp)) he hfree

end

/-- C115: on a map that does not change, a robot that starts free and carries out every published
twist exactly for one loop period is free at every iteration, whenever the map is sent again and
wherever odometry arrives during an iteration, be it between two reads of one velocity. -/
theorem C115_closed_loop {p : Params ℝ} {n : Node ℝ} {o0 : List (Out ℝ)}
    (hn : Node.cart p = .ok (n, o0) ∨ Node.omni p = .ok (n, o0)) (hv : 0 < p.val_dt) (hd : 0 < p.dwa_dt)
    {T : ℝ} (hTv : Instant T p.val_dt p.val_horizon) (hTd : Instant T p.dwa_dt p.dwa_horizon)
    {es : List (Event ℝ)} {os : List (List (Out ℝ))} {t : Expl ℝ} {l : Option (V3 ℝ × List (V3 ℝ))}
    (hdr : DrivenT T n.expl es os t l) (m : OccupancyGrid ℝ) (hmaps : ∀ m' ∈ maps es, m' = m)
    (hw : ∀ o ∈ os, ∀ u ∈ twists o, Measurable u)
    (hfirst : ∀ x, (poses es).head? = some x → n.expl.collision.collisionCheck (mapOf m) x = .ok false) :
    ∀ x ∈ poses es, n.expl.collision.collisionCheck (mapOf m) x = .ok false := by
  have main : ∀ (ec : ErgodicControl ℝ) (collision : Collision ℝ) (dwa : DynamicWindow ℝ) (target : Target ℝ),
      (n.expl, o0) = Expl.start ec collision dwa target p.map_frame_id p.val_dt p.val_horizon →
      dwa.collision = collision → numSteps dwa.horizon dwa.dt = .ok dwa.steps → dwa.dt = p.dwa_dt →
      dwa.horizon = p.dwa_horizon →
      ∀ x ∈ poses es, n.expl.collision.collisionCheck (mapOf m) x = .ok false := by
    intro ec collision dwa target he hc hst e1 e2
    have h1 : n.expl = (Expl.start ec collision dwa target p.map_frame_id p.val_dt p.val_horizon).1 := by
      rw [← he]
    have h2 : n.expl.collision = collision := by rw [h1]; rfl
    rw [h2] at hfirst ⊢
    rw [h1] at hdr
    rw [← e1] at hd hTd
    rw [← e2] at hTd
    exact (drivenT_safe hc hst hv hd hTv hTd m hdr hmaps hw hfirst).1
  have win : ∀ {c : Collision ℝ} {ay ylo yhi : ℝ} {ny : UInt32} {dwa : DynamicWindow ℝ},
      DynamicWindow.new c p.dwa_dt p.dwa_horizon p.acc_dt p.acc_lim_x ay p.acc_lim_th
        p.max_vel_x p.min_vel_x yhi ylo p.max_rot_vel p.min_rot_vel p.vx_samples ny p.vth_samples = .ok dwa →
      dwa.collision = c ∧ numSteps dwa.horizon dwa.dt = .ok dwa.steps ∧ dwa.dt = p.dwa_dt ∧
      dwa.horizon = p.dwa_horizon := by
    intro c ay ylo yhi ny dwa h
    simp only [DynamicWindow.new, Res.bind_eq_ok, Res.ok.injEq] at h
    obtain ⟨k, hk, rfl⟩ := h
    exact ⟨rfl, hk, rfl, rfl⟩
  rcases hn with hn | hn
  · obtain ⟨_, _, target, collision, ec, dwa, -, hdw, he, -⟩ := cart_ok hn
    obtain ⟨a, b, c, d⟩ := win hdw
    exact main ec collision dwa target he a b c d
  · obtain ⟨_, _, _, target, collision, ec, dwa, -, hdw, he, -⟩ := omni_ok hn
    obtain ⟨a, b, c, d⟩ := win hdw
    exact main ec collision dwa target he a b c d

section any
variable {F : Type} [Flt F]

theorem stored_again (msg : OccupancyGrid F) (k : Nat) : stored msg (mapOf msg, true) k = (mapOf msg, true) := by
  induction k with
  | zero => rfl
  | succ k ih =>
    rw [stored, ih]
    match k with
    | 0 | 1 | 2 | 3 | 4 | 5 | 6 | 7 | 8 => rfl
    | _ + 9 => rfl

/-- C115, in every arithmetic: a collision check during which the map it uses arrives again gives the
answer for that map, wherever the assignments fall. -/
theorem C115_resend (c : Collision F) (msg : OccupancyGrid F) (gs : Nat → GridMap F) (pose : V3 F)
    (h : Execution (mapOf msg) msg gs) : c.collisionCheckI gs pose = c.collisionCheck (mapOf msg) pose := by
  obtain ⟨σ, -, h⟩ := h
  rw [show gs = fun _ => mapOf msg from funext fun t => by rw [h, stored_again], collisionCheckI_const]

/-- storing the velocity that is already stored is not noticed either -/
theorem seen_same (v : V3 F) (k : Nat) : seen v (writesOf [v]) k = v := by
  match k with
  | 0 | 1 | 2 => rfl
  | k + 3 =>
    rw [seen, List.take_of_length_le (by simp [writesOf, odomWrites])]
    rfl

/-- C115, in every arithmetic: odometry that repeats the velocity last received is not noticed,
wherever its assignments fall among the reads of the window. -/
theorem C115_repeat (s : Expl F) (tf : Option (TransformMsg F)) (draws : List Nat) (c : Slots F) (v : V3 F)
    (g : Gaps) : s.iterationT tf draws { c with search := c.search ++ [.odom v] } [v] g =
      s.iterationC tf draws { c with search := c.search ++ [.odom v] } := by
  have hvb : ∀ x : Expl F, ∀ cs, (x.deliver (cs ++ [.odom v])).vb = v := by
    intro x cs
    rw [Expl.deliver_append]
    rfl
  have hput : ∀ x : Expl F, ∀ cs, ({ x.deliver (cs ++ [.odom v]) with
      vb := (writesOf [v]).foldl Write.put (x.deliver (cs ++ [.odom v])).vb } : Expl F) =
      x.deliver (cs ++ [.odom v]) := by
    intro x cs
    rw [Expl.deliver_append]
    rfl
  have ha : ∀ x : Expl F, x.avoidT (c.search ++ [.odom v]) [v] g = x.avoidC (c.search ++ [.odom v]) := by
    intro x
    have e1 : ∀ y : Expl F, y.vb = v → readLower y.vb (writesOf [v]) g = y.vb ∧
        readUpper y.vb (writesOf [v]) g = y.vb := by
      rintro y rfl
      simp only [readLower, readUpper, seen_same, and_self]
    unfold Expl.avoidT Expl.avoidC
    dsimp only
    rw [(e1 _ (hvb x c.search)).1, (e1 _ (hvb x c.search)).2, Expl.deliver_append]
    rfl
  unfold Expl.iterationT Expl.iterationC
  dsimp only
  simp only [ha, ← List.append_assoc]
  rw [hput]

/-- an iteration without callbacks -/
theorem iterationT_plain (s : Expl F) (tf : Option (TransformMsg F)) (draws : List Nat) :
    s.iterationT tf draws {} [] {} = s.step (.tick tf draws) := by
  have h := C114_whole s tf draws {} []
  have h' : s.iterationT tf draws {} [] {} = s.iterationC tf draws {} := h
  rw [h']
  have h2 := C103_sequential s tf draws []
  rw [show ({ flag := [] } : Slots F) = {} from rfl] at h2
  rw [h2]
  show (do let (s, o) ← s.step (.tick tf draws); .ok (s, o ++ [])) = _
  cases s.step (.tick tf draws) with
  | ok r => obtain ⟨a, b⟩ := r; show Res.ok (a, b ++ []) = _; rw [List.append_nil]
  | throw e => rfl
  | ub => rfl
  | timeout => rfl

end any

/-- the robot of C89 carries out two published twists; during the first iteration odometry arrives,
its three assignments spread over the reads of the window -/
example : ∃ (n : Node ℝ) (o0 : List (Out ℝ)) (es : List (Event ℝ)) (os : List (List (Out ℝ))) (t : Expl ℝ)
    (l : Option (V3 ℝ × List (V3 ℝ))), Node.omni driveParams = .ok (n, o0) ∧
    Instant 0.1 driveParams.val_dt driveParams.val_horizon ∧
    Instant 0.1 driveParams.dwa_dt driveParams.dwa_horizon ∧ DrivenT 0.1 n.expl es os t l ∧
    (∀ m' ∈ maps es, m' = sideMsg) ∧ (∀ o ∈ os, ∀ u ∈ twists o, Measurable u) ∧
    (∀ x, (poses es).head? = some x → n.expl.collision.collisionCheck (mapOf sideMsg) x = .ok false) ∧
    (poses es).length = 2 ∧ twists os.flatten ≠ [] := by
  obtain ⟨n, o0, hn⟩ := drive_starts
  obtain ⟨os1, t1, ht1, hin1⟩ := drive_run hn [1.5] (by intro x hx; simp at hx; subst hx; norm_num)
  obtain ⟨_, _, _, target, collision, ec, dwa, -, -, he, -⟩ := omni_ok hn
  have hst : n.expl = (Expl.start ec collision dwa target driveParams.map_frame_id driveParams.val_dt
      driveParams.val_horizon).1 := by rw [← he]
  have hcoll : n.expl.collision = nearDetector := by
    obtain ⟨_, _, _, _, collision, _, _, ⟨-, -, -, -, hc⟩, -, -, he, -⟩ := omni_parts hn
    rw [drive_collision, Res.ok.injEq] at hc
    have h1 := congrArg (fun r => r.1.collision) he
    rw [hc]
    exact h1
  -- the first iteration
  obtain ⟨osa, o1, ta, rfl, hta, hs1⟩ := Trace.unsnoc (es := [.map sideMsg])
    (e := .tick (some (alongTf 1.5)) []) ht1
  obtain ⟨osb, oa, tb, rfl, htb, hsa⟩ := Trace.unsnoc (es := []) (e := .map sideMsg) hta
  obtain ⟨hosb, htb'⟩ := Trace.det htb .nil
  subst hosb htb'
  have hone : (twists o1).length = 1 := by
    rw [hst] at hta
    rw [C67_one_per_iteration hta hs1, if_pos]
    refine ⟨rfl, by simp [maps, Event.map?], ?_⟩
    rw [poses_snoc, along_pose]
    simp
  obtain ⟨u, hu⟩ := List.length_eq_one_iff.mp hone
  obtain ⟨hu0, hu1, hu2⟩ := drive_within (hin1 o1 (by simp) u (by rw [hu]; simp))
  have hu0 := abs_le.mp hu0
  have hfirst : n.expl.iterationT (some (alongTf 1.5)) []
      { flag := [.map sideMsg], search := [] ++ [.odom V3.zero] } [V3.zero] { x2 := 1, y2 := 1, w2 := 1 } =
      .ok (t1, o1) := by
    have hr := C115_repeat n.expl (some (alongTf 1.5)) [] { flag := [.map sideMsg] } V3.zero
      { x2 := 1, y2 := 1, w2 := 1 }
    rw [hr]
    refine ((C103_linear_partial n.expl (some (alongTf 1.5)) [] _ ?_ ?_).1 ⟨rfl, rfl⟩).trans ?_
    · simp [NoMap]
    · simp [NoMap]
    · have hta' : n.expl.mapCallback sideMsg = ta := by
        have : (Res.ok (n.expl.mapCallback sideMsg, []) : Res (Expl ℝ × List (Out ℝ))) = .ok (ta, oa) := hsa
        simp only [Res.ok.injEq, Prod.mk.injEq] at this
        exact this.1
      have hz : ta.odomCallback V3.zero = ta := by
        rw [← hta', hst]
        rfl
      show (do
        let (s', o') ← (do
          let (s', o') ← (do
            let (s, o) ← ((n.expl.mapCallback sideMsg).odomCallback V3.zero).step (.tick (some (alongTf 1.5)) [])
            .ok (s, o ++ []))
          .ok (s', [] ++ o'))
        .ok (s', [] ++ o') : Res (Expl ℝ × List (Out ℝ))) = _
      rw [hta', hz, hs1]
      show Res.ok (t1, [] ++ ([] ++ (o1 ++ []))) = _
      simp
  -- the second
  obtain ⟨os2, t2, ht2, hin2⟩ := drive_run hn [1.5, 1.5 + 0.1 * u.c0] (by
    intro x hx
    simp only [List.mem_cons, List.not_mem_nil, or_false] at hx
    rcases hx with rfl | rfl <;> norm_num
    constructor <;> linarith)
  obtain ⟨osc, o2, tc, rfl, htc, hs2⟩ := Trace.unsnoc
    (es := [.map sideMsg] ++ [.tick (some (alongTf 1.5)) []])
    (e := .tick (some (alongTf (1.5 + 0.1 * u.c0))) []) ht2
  obtain ⟨rfl, rfl⟩ := Trace.det htc ht1
  have hd1 := DrivenT.first (T := 0.1) (.nil (s := n.expl)) (along_pose _ _) hfirst
  have hd2 := DrivenT.next hd1 (along_pose (1.5 + 0.1 * u.c0) []) (by
    rw [hu]
    refine ⟨by simp, ?_⟩
    intro v hv
    rw [List.mem_singleton] at hv
    subst hv
    simp only [flow, hu1, hu2, if_true]
    exact ⟨by simp; ring, by simp, 0, by simp⟩) ((iterationT_plain _ _ _).trans hs2)
  refine ⟨n, o0, _, _, t2, _, hn, ⟨0, ?_, ?_⟩, ⟨0, ?_, ?_⟩, hd2, ?_, ?_, ?_, ?_, ?_⟩
  · simp only [driveParams, sideParams]; norm_num
  · simp only [driveParams, sideParams]; norm_num
  · simp only [driveParams, sideParams]; norm_num
  · simp only [driveParams, sideParams]; norm_num
  · intro m' hm'
    have : m' ∈ [sideMsg] := hm'
    simpa using this
  · intro o ho v hv
    refine .inl (drive_within (hin2 o ?_ v hv)).2.2
    simp only [List.nil_append, List.mem_append, List.mem_singleton] at ho ⊢
    tauto
  · intro x hx
    have hp : some (⟨1.5, 2.5, 0⟩ : V3 ℝ) = some x := hx ▸ (along_pose 1.5 []).symm
    rw [Option.some.injEq] at hp
    rw [hcoll, ← hp]
    exact top_clear 0
  · rfl
  · intro h
    have : u ∈ twists ([o1] ++ [o2]).flatten := by
      simp only [List.flatten_append, List.flatten_singleton, twists_append, List.mem_append]
      left
      rw [hu]; simp
    simp only [List.nil_append] at h
    rw [h] at this
    simp at this

end Ergodic
