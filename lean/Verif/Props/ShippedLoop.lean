import Verif.Props.RoundedLoop
import Verif.Props.Shipped
import Verif.Props.Threads

/-!
# Property C116 for the shipped configurations

Rounded arithmetic.
-/

namespace Ergodic
variable {M : Machine}

theorem tenth_close : |1 / 10 - M.rnd (1 / 10)| ≤ 1 / 10 ^ 12 := by
  have := M.err (B := 1) minNormal_le_one (x := 1 / 10) (by norm_num [abs_of_pos])
  rw [abs_sub_comm]
  refine this.trans ?_
  norm_num

/-- C116 for the shipped configurations, at the ten iterations a second of the files, within a thousand
kilometres of the origin and for twists as `C105` bounds them: a tenth of a micrometre for everything the
computation contributes. -/
theorem C116_shipped (hM : AccurateTrig M) {n : Node (RDbl M)} {o0 : List (Out (RDbl M))}
    (hn : cartYaml.cart = .ok (n, o0) ∨ omniYaml.omni = .ok (n, o0)) {δ η : ℝ}
    {es : List (Event (RDbl M))} {os : List (List (Out (RDbl M)))} {t : Expl (RDbl M)}
    {l : Option ((ℝ × ℝ) × V3 (RDbl M) × List (V3 (RDbl M)))} {rs : List (ℝ × ℝ)}
    (hdr : DrivenR (1 / 10) δ η n.expl es os t l rs) (m : OccupancyGrid (RDbl M)) (hmaps : ∀ m' ∈ maps es, m' = m)
    (hw : ∀ o ∈ os, ∀ u ∈ twists o, Slow 1.4143 2.001 u) (hX : ∀ q ∈ poses es, Located (10 ^ 6) q)
    (hfirst : ∀ x, (poses es).head? = some x → n.expl.collision.collisionCheck (mapOf m) x = .ok false) :
    ∀ r ∈ rs, ∃ P, Within (max δ (η + 1 / 10 ^ 7)) r P ∧ n.expl.collision.collisionCheck (mapOf m) P = .ok false := by
  obtain ⟨p, hp, h1, h2, h3, h4⟩ : ∃ p : Params (RDbl M), (Node.cart p = .ok (n, o0) ∨ Node.omni p = .ok (n, o0)) ∧
      p.val_dt = .fin (M.rnd (1 / 10)) ∧ p.val_horizon = .fin (M.rnd (1 / 2)) ∧
      p.dwa_dt = .fin (M.rnd (1 / 10)) ∧ p.dwa_horizon = .fin 2 := by
    rcases hn with hn | hn
    · obtain ⟨-, p, hp, h⟩ := ((C88_launch _ _).1).mp hn
      rw [cartYaml_params, Res.ok.injEq] at hp
      subst hp
      exact ⟨_, Or.inl h, rfl, rfl, rfl, rfl⟩
    · obtain ⟨-, p, hp, h⟩ := ((C88_launch _ _).2).mp hn
      rw [omniYaml_params, Res.ok.injEq] at hp
      subst hp
      exact ⟨_, Or.inr h, rfl, rfl, rfl, rfl⟩
  have htc := tenth_close (M := M)
  have ht := abs_le.mp htc
  have hs : StepOk (M.rnd (1 / 10)) 1.4143 2.001 := by
    norm_num at ht
    constructor <;> norm_num <;> linarith
  obtain ⟨nv, hnv, hnv0⟩ := val_steps (M := M)
  obtain ⟨nd, hnd, hnd0⟩ : ∃ n : UInt32, numSteps (.fin 2 : RDbl M) (.fin (M.rnd (1 / 10))) = .ok n ∧ 0 < n.toNat := by
    norm_num at ht
    have tp : 0 < M.rnd (1 / 10) := by norm_num; linarith
    obtain ⟨k, h3, h5, -⟩ := numSteps_fin (M := M) (h := 2) (d := M.rnd (1 / 10)) (by norm_num) tp
      (by norm_num; linarith)
    refine ⟨k, h3, ?_⟩
    rw [h5]
    refine Nat.floor_pos.mpr ?_
    have hq : (1 : ℝ) ≤ 2 / M.rnd (1 / 10) := by
      rw [le_div_iff₀ tp]
      norm_num; linarith
    have := M.int_le_rnd (n := 1) (by norm_num) (x := 2 / M.rnd (1 / 10)) (by exact_mod_cast hq)
    exact_mod_cast this
  have hnear : ∀ {h : RDbl M} {k : UInt32}, numSteps h (.fin (M.rnd (1 / 10))) = .ok k → 0 < k.toNat →
      NearInstant (1 / 10) (1 / 10 ^ 12) 1 (M.rnd (1 / 10)) h := by
    intro h k hk h0
    refine ⟨k, 0, hk, h0, Nat.one_pos, ?_⟩
    rw [Nat.cast_zero, zero_add, one_mul]
    exact htc
  have hE : η + 1.4143 * (1 / 10 ^ 12) + simError 1.4143 (max (M.rnd (1 / 10)) (M.rnd (1 / 10))) (10 ^ 6) 1 ≤
      η + 1 / 10 ^ 7 := by
    rw [max_self]
    unfold simError
    norm_num at ht ⊢
    linarith
  intro r hr
  obtain ⟨P, ⟨x, y, θ, e, a, b⟩, hf⟩ := C116_closed_loop hM hp h1 h3 hs hs (K := 1) (by norm_num)
    (by rw [h2]; exact hnear hnv hnv0) (by rw [h4]; exact hnear hnd hnd0) hdr m hmaps hw hX hfirst r hr
  exact ⟨P, ⟨x, y, θ, e, a.trans (max_le_max le_rfl hE), b.trans (max_le_max le_rfl hE)⟩, hf⟩

/-! ## such a history exists -/

/-- an iteration before which the map arrives -/
theorem iterationT_map {F : Type} [Flt F] (s : Expl F) (tf : Option (TransformMsg F)) (draws : List Nat)
    (m : OccupancyGrid F) : s.iterationT tf draws { flag := [.map m] } [] {} =
      (s.mapCallback m).step (.tick tf draws) := by
  have h := C114_whole s tf draws { flag := [.map m] } []
  have h' : s.iterationT tf draws { flag := [.map m] } [] {} = s.iterationC tf draws { flag := [.map m] } := h
  rw [h', C103_sequential]
  show (do
    let (s', o') ← (do
      let (s, o) ← (s.mapCallback m).step (.tick tf draws)
      .ok (s, o ++ []))
    .ok (s', [] ++ o') : Res (Expl F × List (Out F))) = _
  cases (s.mapCallback m).step (.tick tf draws) with
  | ok r => obtain ⟨a, b⟩ := r; show Res.ok (a, [] ++ (b ++ [])) = _; rw [List.append_nil, List.nil_append]
  | throw e => rfl
  | ub => rfl
  | timeout => rfl

/-- the robot at a place in the room, looking along the axis -/
noncomputable def placeTf (x y : ℝ) : TransformMsg (RDbl ieee) := ⟨.fin x, .fin y, .fin 0, .fin 0, .fin 0, .fin 1⟩

theorem place_pose (x y : ℝ) (draws : List Nat) :
    (Event.tick (some (placeTf x y)) draws).pose? = some ⟨.fin x, .fin y, .fin 0⟩ := by
  show some (⟨.fin x, .fin y, getYaw (.fin 0 : RDbl ieee) (.fin 0) (.fin 0) (.fin 1)⟩ : V3 (RDbl ieee)) = _
  rw [room_yaw]

/-- the events of an execution with one map and localised iterations -/
noncomputable def visits (ps : List (ℝ × ℝ)) : List (Event (RDbl ieee)) :=
  .map roomMsg :: ps.map fun r => .tick (some (placeTf r.1 r.2)) (List.replicate 100 0)

theorem visits_fed (ps : List (ℝ × ℝ)) (h : ∀ r ∈ ps, |r.1 - 5| ≤ 1 ∧ |r.2 - 5| ≤ 1) : Fed 2.83 (visits ps) := by
  intro pre tf draws post he
  -- the iteration is one of those listed and a map precedes it
  obtain ⟨a, r, b, hps, rfl, rfl, rfl⟩ : ∃ a r b, ps = a ++ r :: b ∧ pre = visits a ∧
      tf = some (placeTf r.1 r.2) ∧ draws = List.replicate 100 0 := by
    rcases pre with _ | ⟨e, pre⟩
    · simp [visits] at he
    · simp only [visits, List.cons_append, List.cons.injEq] at he
      obtain ⟨rfl, he⟩ := he
      obtain ⟨a, b, rfl, rfl, hb⟩ := List.map_eq_append_iff.mp he
      obtain ⟨r, b, rfl, hr, -⟩ := List.map_eq_cons_iff.mp hb
      cases hr
      exact ⟨a, r, b, rfl, rfl, rfl, rfl⟩
  have hmaps : maps (visits a) = [roomMsg] := by
    have : ∀ l : List (ℝ × ℝ), maps (l.map fun r => (Event.tick (some (placeTf r.1 r.2)) (List.replicate 100 0) :
        Event (RDbl ieee))) = [] := by
      intro l
      induction l with
      | nil => rfl
      | cons x l ih => exact ih
    show roomMsg :: maps _ = _
    rw [this]
  have hm : ∀ m, (maps (visits a)).getLast? = some m → m = roomMsg := by
    intro m h
    rw [hmaps] at h
    exact (Option.some.inj h).symm
  have hposes : poses (visits a ++ [.tick (some (placeTf r.1 r.2)) (List.replicate 100 0)]) =
      poses (visits a) ++ [⟨.fin r.1, .fin r.2, .fin 0⟩] := by
    rw [poses_append]
    congr 1
    simp only [poses, List.filterMap_cons, place_pose, List.filterMap_nil]
  refine ⟨List.length_replicate, ?_, ?_, ?_⟩
  · intro k hk
    rw [List.eq_of_mem_replicate hk, hposes]
    simp
  · intro m h
    rw [hm m h]
    refine ⟨0, 0, 1, 5 / 2, room_sized, Or.inl rfl, by norm_num, ?_, by norm_num, ?_⟩
    · have : (0 : ℝ) ≤ roomMsg.width.toNat := Nat.cast_nonneg _
      linarith
    · have : (0 : ℝ) ≤ roomMsg.height.toNat := Nat.cast_nonneg _
      linarith
  · intro m x hmm hx
    rw [hm m hmm]
    rw [hposes] at hx
    have hx : (⟨.fin r.1, .fin r.2, .fin 0⟩ : V3 (RDbl ieee)) = x := by simpa using hx
    subst hx
    obtain ⟨h1, h2⟩ := h r (by rw [hps]; simp)
    rw [abs_le] at h1 h2
    refine ⟨r.1, r.2, 0, 0, 0, 1, rfl, ⟨rfl, rfl, rfl, by norm_num⟩, by norm_num, ?_, ?_, ?_⟩
    · rw [abs_le]; constructor <;> linarith
    · rw [abs_le]; constructor <;> linarith
    · norm_num
      refine ⟨?_, ?_, ?_, ?_⟩ <;> linarith

theorem room_free : (shippedDetector ieee).collisionCheck (mapOf roomMsg) ⟨.fin 5, .fin 5, .fin 0⟩ = .ok false := by
  obtain ⟨ax, ay, r, b, s, o, hs⟩ := ((shipped_supplied ieee_accurate (visits_fed [(5, 5)] (by simp)))
    (visits []) (some (placeTf 5 5)) (List.replicate 100 0) [] rfl).map roomMsg rfl |>.sensible
  have e : ax = 0 ∧ ay = 0 ∧ r = 1 := by
    obtain ⟨h1, h2, h3, -⟩ := hs.placed
    have h1 : (.fin 0 : RDbl ieee) = .fin ax := h1
    have h2 : (.fin 0 : RDbl ieee) = .fin ay := h2
    have h3 : (.fin 1 : RDbl ieee) = .fin r := h3
    rw [RDbl.fin_inj] at h1 h2 h3
    exact ⟨h1.symm, h2.symm, h3.symm⟩
  obtain ⟨rfl, rfl, rfl⟩ := e
  have h10 : ((mapOf roomMsg).xsize.toNat : ℝ) = 10 ∧ ((mapOf roomMsg).ysize.toNat : ℝ) = 10 := by
    constructor <;> (show ((10 : UInt32).toNat : ℝ) = 10; rw [show (10 : UInt32).toNat = 10 from rfl]; norm_num)
  obtain ⟨i, j, -, -, cfg, hcfg, hr, -⟩ := config_rd hs (x := 5) (y := 5) (by
    refine ⟨by norm_num, ?_, by norm_num, ?_⟩
    · rw [h10.1]; norm_num
    · rw [h10.2]; norm_num) (.fin 0)
  refine (C31_nothing_reported _ _ hs.wf _ cfg hcfg hr ?_).1
  rintro i j ⟨-, -, -, -, v, hv, hlt⟩
  have hv0 : v = 0 := by
    have : v ∈ List.replicate 100 (0 : Int8) := List.mem_of_getElem? hv
    exact List.eq_of_mem_replicate this
  subst hv0
  have q := rnd_at (M := ieee) (x := 4 / 5) le_rfl (by norm_num [abs_of_pos])
  have h100 : (lit 100 0 : RDbl ieee) = .fin 100 := by rw [lit_int 100 (by norm_num) (by norm_num)]; norm_num
  have h0 : (Flt.ofInt (0 : Int8).toInt : RDbl ieee) = .fin 0 := by
    show (.fin (ieee.rnd ((0 : Int) : ℝ)) : RDbl ieee) = _
    rw [Int.cast_zero, ieee.rnd_zero]
  rw [h100, h0, RDbl.div_fin _ (by norm_num : (100 : ℝ) ≠ 0), zero_div, ieee.rnd_zero] at hlt
  have hlt : Flt.lt (.fin 0 : RDbl ieee) (.fin (ieee.rnd (4 / 5))) = false := hlt
  rw [RDbl.lt_fin_false] at hlt
  norm_num at q
  linarith

/-- the first event of a node that is up -/
theorem run_cons {F : Type} [Flt F] {n n' : Node F} (hup : n.up = true) {e : Event F} {es : List (Event F)}
    {out : List (Out F)} (h : n.run (e :: es) = .ok (n', out)) :
    ∃ x o out', n.expl.step e = .ok (x, o) ∧ ({ n with expl := x } : Node F).run es = .ok (n', out') ∧
      out = o ++ out' := by
  rw [Node.run, Node.step, if_pos hup] at h
  obtain ⟨⟨n1, o⟩, h1, h⟩ := Res.bind_eq_ok.mp h
  obtain ⟨⟨x, o1⟩, hx, h1⟩ := Res.bind_eq_ok.mp h1
  obtain ⟨⟨n2, o'⟩, h2, h⟩ := Res.bind_eq_ok.mp h
  simp only [Res.ok.injEq, Prod.mk.injEq] at h h1
  obtain ⟨h1a, h1b⟩ := h1
  obtain ⟨ha, hb⟩ := h
  subst ha h1a h1b
  exact ⟨x, o1, o', hx, h2, hb.symm⟩

/-- two iterations of the omnidirectional robot on binary64 numbers: it carries out the first twist a
millimetre off, and the second transform is a centimetre off -/
example : ∃ (n : Node (RDbl ieee)) (o0 : List (Out (RDbl ieee))) (es : List (Event (RDbl ieee)))
    (os : List (List (Out (RDbl ieee)))) (t : Expl (RDbl ieee))
    (l : Option ((ℝ × ℝ) × V3 (RDbl ieee) × List (V3 (RDbl ieee)))) (rs : List (ℝ × ℝ)),
    omniYaml.omni = .ok (n, o0) ∧ DrivenR (1 / 10) (1 / 100) (1 / 1000) n.expl es os t l rs ∧
    (∀ m' ∈ maps es, m' = roomMsg) ∧ (∀ o ∈ os, ∀ u ∈ twists o, Slow 1.4143 2.001 u) ∧
    (∀ q ∈ poses es, Located (10 ^ 6) q) ∧
    (∀ x, (poses es).head? = some x → n.expl.collision.collisionCheck (mapOf roomMsg) x = .ok false) ∧
    rs.length = 2 ∧ twists os.flatten ≠ [] := by
  obtain ⟨n, o0, hn, hup, hrun⟩ := C105_omni ieee_trig ieee_pow ieee_accurate
  have hcoll : n.expl.collision = shippedDetector ieee := by
    obtain ⟨-, p, hp, h⟩ := ((C88_launch _ _).2).mp hn
    rw [omniYaml_params, Res.ok.injEq] at hp
    subst hp
    obtain ⟨_, _, _, _, collision, _, _, ⟨-, -, -, -, hc⟩, -, -, he, -⟩ := omni_parts h
    have hc : collision = shippedDetector ieee := (Res.ok.inj (shipped_collision.symm.trans hc)).symm
    have h1 := congrArg (fun r => r.1.collision) he
    rw [← hc]
    exact h1
  -- every sequence of visits near the middle is an execution
  have go : ∀ ps : List (ℝ × ℝ), (∀ r ∈ ps, |r.1 - 5| ≤ 1 ∧ |r.2 - 5| ≤ 1) →
      ∃ n' out, n.run (visits ps) = .ok (n', out) ∧ ∀ u ∈ twists out, Slow 1.4143 2.001 u := by
    intro ps hps
    refine hrun (visits ps) ?_ ?_ (visits_fed ps hps)
    · intro u hu
      exfalso
      have : odoms (visits ps) = [] := by
        have : ∀ l : List (ℝ × ℝ), odoms (l.map fun r => (Event.tick (some (placeTf r.1 r.2))
            (List.replicate 100 0) : Event (RDbl ieee))) = [] := by
          intro l
          induction l with
          | nil => rfl
          | cons x l ih => exact ih
        exact this ps
      rw [this] at hu
      simp at hu
    · intro x hx
      have : ∀ l : List (ℝ × ℝ), ∀ x ∈ poses (l.map fun r => (Event.tick (some (placeTf r.1 r.2))
          (List.replicate 100 0) : Event (RDbl ieee))), V3Num x := by
        intro l
        induction l with
        | nil => intro x hx; simp [poses] at hx
        | cons y l ih =>
          intro x hx
          simp only [poses, List.map_cons, List.filterMap_cons, place_pose, List.mem_cons] at hx
          rcases hx with rfl | hx
          · exact ⟨⟨_, rfl⟩, ⟨_, rfl⟩, _, rfl⟩
          · exact ih x hx
      exact this ps x hx
  -- the first iteration
  obtain ⟨n1, out1, hr1, hs1⟩ := go [(5, 5)] (by simp)
  obtain ⟨x0, oa, out, hm, hr1a, rfl⟩ := run_cons hup hr1
  obtain ⟨t1, o1, out, ht1, hr1b, rfl⟩ := run_cons (n := { n with expl := x0 }) hup hr1a
  have hx0 : n.expl.mapCallback roomMsg = x0 := by
    have : (Res.ok (n.expl.mapCallback roomMsg, []) : Res (Expl (RDbl ieee) × List (Out (RDbl ieee)))) =
      .ok (x0, oa) := hm
    simp only [Res.ok.injEq, Prod.mk.injEq] at this
    exact this.1
  have htw : twists o1 = [t1.u] := by
    have := iteration_twists ht1
    rw [if_pos] at this
    · exact this
    · rw [← hx0]; rfl
  obtain ⟨a, b, c, hu, hsp, hc⟩ := hs1 t1.u (by simp [twists_append, htw])
  -- where the robot is then
  obtain ⟨r', hr', hf⟩ : ∃ r' : ℝ × ℝ, (|r'.1 - 5| ≤ 1 / 2 ∧ |r'.2 - 5| ≤ 1 / 2) ∧
      Followed (1 / 1000) (1 / 10) (5, 5) (⟨.fin 5, .fin 5, .fin 0⟩ : V3 (RDbl ieee)) [t1.u] r' := by
    by_cases h0 : t1.u = ⟨.fin 0, .fin 0, .fin 0⟩
    · refine ⟨(5, 5), by norm_num, by simp, ?_⟩
      intro u hu
      rw [List.mem_singleton] at hu
      subst hu
      exact ⟨fun _ => rfl, fun _ _ _ _ _ _ _ _ h => absurd h0 h⟩
    · have hp := planar_le (C76_flow ⟨5, 5, 0⟩ ⟨a, b, c⟩ (1 / 10))
      have hl : speed ⟨a, b, c⟩ * |(1 / 10 : ℝ)| ≤ 1 / 4 := by
        rw [abs_of_pos (by norm_num)]
        norm_num at hsp ⊢
        linarith
      have h1 := abs_le.mp (hp.1.trans hl)
      have h2 := abs_le.mp (hp.2.trans hl)
      refine ⟨((flow ⟨5, 5, 0⟩ ⟨a, b, c⟩ (1 / 10)).c0 + 1 / 1000, (flow ⟨5, 5, 0⟩ ⟨a, b, c⟩ (1 / 10)).c1),
        ⟨?_, ?_⟩, by simp, ?_⟩
      · rw [abs_le]; constructor <;> linarith
      · rw [abs_le]; constructor <;> linarith
      · intro u hu'
        rw [List.mem_singleton] at hu'
        subst hu'
        refine ⟨fun h => absurd h h0, ?_⟩
        intro x y θ a' b' c' hp' hu' _
        rw [hu] at hu'
        simp only [V3.mk.injEq, RDbl.fin_inj] at hp' hu'
        obtain ⟨rfl, rfl, rfl⟩ := hp'
        obtain ⟨rfl, rfl, rfl⟩ := hu'
        constructor <;> simp
  have g1 := abs_le.mp hr'.1
  have g2 := abs_le.mp hr'.2
  -- the second iteration
  obtain ⟨n2, out2, hr2, hs2⟩ := go [(5, 5), (r'.1 + 1 / 100, r'.2)] (by
    intro r hr
    simp only [List.mem_cons, List.not_mem_nil, or_false] at hr
    rcases hr with rfl | rfl
    · simp
    · constructor
      · rw [abs_le]; constructor <;> linarith
      · rw [abs_le]; constructor <;> linarith)
  obtain ⟨x0', ob, out', hm', hr2a, rfl⟩ := run_cons hup hr2
  have e0 := hm.symm.trans hm'
  simp only [Res.ok.injEq, Prod.mk.injEq] at e0
  obtain ⟨rfl, rfl⟩ := e0
  obtain ⟨t1', o1', out', ht1', hr2b, rfl⟩ := run_cons (n := { n with expl := x0 }) hup hr2a
  have e1 := ht1.symm.trans ht1'
  simp only [Res.ok.injEq, Prod.mk.injEq] at e1
  obtain ⟨rfl, rfl⟩ := e1
  obtain ⟨t2, o2, out', ht2, hr2c, rfl⟩ := run_cons (n := { n with expl := t1 }) hup hr2b
  have hd1 := DrivenR.first (T := 1 / 10) (δ := 1 / 100) (η := 1 / 1000) (r := ((5 : ℝ), (5 : ℝ))) (.nil (s := n.expl))
    (place_pose 5 5 (List.replicate 100 0)) ⟨5, 5, 0, rfl, by simp, by simp⟩
    ((iterationT_map n.expl _ _ roomMsg).trans (by rw [hx0]; exact ht1))
  rw [htw] at hd1
  have hd2 := DrivenR.next (r' := r') hd1 (place_pose (r'.1 + 1 / 100) r'.2 (List.replicate 100 0))
    ⟨_, _, _, rfl, by rw [add_sub_cancel_left]; norm_num [abs_of_pos], by simp⟩ hf
    ((iterationT_plain t1 _ _).trans ht2)
  refine ⟨n, o0, _, _, t2, _, _, hn, hd2, ?_, ?_, ?_, ?_, rfl, ?_⟩
  · intro m' hm'
    have : m' ∈ [roomMsg] := hm'
    simpa using this
  · intro o ho u hu
    apply hs2
    simp only [List.nil_append, List.mem_append, List.mem_singleton] at ho
    simp only [twists_append, List.mem_append]
    rcases ho with rfl | rfl
    · exact .inr (.inl hu)
    · exact .inr (.inr (.inl hu))
  · intro q hq
    rw [poses_append, poses_append, poses_append] at hq
    simp only [poses, List.filterMap_cons, place_pose, List.filterMap_nil] at hq
    have hq : q = ⟨.fin 5, .fin 5, .fin 0⟩ ∨ q = ⟨.fin (r'.1 + 1 / 100), .fin r'.2, .fin 0⟩ := by
      simpa [Slots.all, asEvents, odomCallbacks, Callback.event, Event.pose?] using hq
    rcases hq with rfl | rfl
    · exact ⟨5, 5, 0, rfl, by norm_num, by norm_num, by norm_num⟩
    · refine ⟨_, _, 0, rfl, ?_, ?_, by norm_num⟩
      · rw [abs_le]; constructor <;> norm_num <;> linarith
      · rw [abs_le]; constructor <;> norm_num <;> linarith
  · intro x hx
    have hx : some (⟨.fin 5, .fin 5, .fin 0⟩ : V3 (RDbl ieee)) = some x := by
      rw [← hx, ← place_pose 5 5 (List.replicate 100 0)]
      rfl
    rw [hcoll, ← Option.some.inj hx]
    exact room_free
  · intro h
    have : t1.u ∈ twists ([o1] ++ [o2]).flatten := by
      simp only [List.flatten_append, List.flatten_singleton, twists_append, List.mem_append]
      left
      rw [htw]; simp
    simp only [List.nil_append] at h
    rw [h] at this
    simp at this

end Ergodic
