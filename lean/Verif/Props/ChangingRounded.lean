import Verif.Spec.ChangingMaps
import Verif.Props.RoundedLoop
import Verif.Props.ShippedLoop
import Verif.Props.ChangingMaps

/-!
# Property C124 with rounding, callbacks at any moment and imperfect robots

Rounded arithmetic.
-/

namespace Ergodic
variable {M : Machine}

/-- Every finite pose within `E` of `r`, along each axis, that is free on the first map is free on the
second. -/
def NoNewWithin (c : Collision (RDbl M)) (E : ℝ) (r : ℝ × ℝ) (m m' : OccupancyGrid (RDbl M)) : Prop :=
  ∀ P, Within E r P → c.collisionCheck (mapOf m) P = .ok false → c.collisionCheck (mapOf m') P = .ok false

/-- The iteration during or before which the first map arrives finds the robot at a free pose, and no later
map shows a new obstacle within `E` of where the iteration, during or before which it arrives, finds the
robot. -/
structure ForeseenR (c : Collision (RDbl M)) (E : ℝ) (es : List (Event (RDbl M))) : Prop where
  first : ∀ pre m post p, es = pre ++ .map m :: post → maps pre = [] → (poses post).head? = some p →
    c.collisionCheck (mapOf m) p = .ok false
  later : ∀ pre m' post m x y θ, es = pre ++ .map m' :: post → (maps pre).getLast? = some m →
    (poses post).head? = some ⟨.fin x, .fin y, .fin θ⟩ → NoNewWithin c E (x, y) m m'

theorem ForeseenR.prefix {c : Collision (RDbl M)} {E : ℝ} {es es' : List (Event (RDbl M))}
    (h : ForeseenR c E (es ++ es')) : ForeseenR c E es := by
  obtain ⟨h1, h2⟩ := h
  refine ⟨?_, ?_⟩
  · intro pre m post p he h0 hp
    exact h1 pre m (post ++ es') p (by rw [he]; simp) h0 (by rw [poses_append, List.head?_append, hp]; rfl)
  · intro pre m' post m x y θ he h0 hp
    exact h2 pre m' (post ++ es') m x y θ (by rw [he]; simp) h0
      (by rw [poses_append, List.head?_append, hp]; rfl)

/-- What holds of the last map is kept by callbacks, if it is kept by every map that replaces another and
holds of the first. -/
theorem carry {F : Type} [Flt F] {Q : OccupancyGrid F → Prop} (pre : List (Event F)) (cs : List (Callback F))
    (h0 : ∀ cs1 m' cs2, cs = cs1 ++ .map m' :: cs2 → maps (pre ++ asEvents cs1) = [] → Q m')
    (h1 : ∀ cs1 m' cs2 m, cs = cs1 ++ .map m' :: cs2 → (maps (pre ++ asEvents cs1)).getLast? = some m → Q m → Q m')
    (hpre : ∀ m, (maps pre).getLast? = some m → Q m) :
    ∀ m, (maps (pre ++ asEvents cs)).getLast? = some m → Q m := by
  induction cs using List.reverseRecOn with
  | nil => simpa [asEvents] using hpre
  | append_singleton cs e ih =>
    have ih' := ih (fun cs1 m' cs2 he => h0 cs1 m' (cs2 ++ [e]) (by rw [he]; simp))
      (fun cs1 m' cs2 m he => h1 cs1 m' (cs2 ++ [e]) m (by rw [he]; simp))
    intro m hm
    rw [asEvents_append, ← List.append_assoc, maps_append] at hm
    cases e with
    | odom v =>
      rw [show maps (asEvents [Callback.odom v]) = [] from rfl, List.append_nil] at hm
      exact ih' m hm
    | map m' =>
      rw [show maps (asEvents [Callback.map m']) = [m'] from rfl, List.getLast?_append,
        List.getLast?_singleton, Option.some_or, Option.some.injEq] at hm
      subst hm
      cases hl : (maps (pre ++ asEvents cs)).getLast? with
      | none => exact h0 cs m' [] rfl (List.getLast?_eq_none_iff.mp hl)
      | some m0 => exact h1 cs m' [] m0 rfl hl (ih' m0 hl)

section
variable {ec : ErgodicControl (RDbl M)} {collision : Collision (RDbl M)} {dwa : DynamicWindow (RDbl M)}
  {target : Target (RDbl M)} {frame : String} {dv dd : ℝ} {val_horizon : RDbl M}
  {es : List (Event (RDbl M))} {os : List (List (Out (RDbl M)))} {s t : Expl (RDbl M)} {o : List (Out (RDbl M))}
  {T τ δ η v w X : ℝ} {K : ℕ}

/-- one period -/
theorem next_near_current (hM : AccurateTrig M) {tf : Option (TransformMsg (RDbl M))} {draws : List Nat}
    {c : Slots (RDbl M)} {msgs : List (V3 (RDbl M))} {g : Gaps}
    (h : TornTrace (Expl.start ec collision dwa target frame (.fin dv) val_horizon).1 es os s)
    (hs : s.iterationT tf draws c msgs g = .ok (t, o)) (hcol : dwa.collision = collision)
    (hdt : dwa.dt = .fin dd) (hsteps : numSteps dwa.horizon dwa.dt = .ok dwa.steps)
    (hv : StepOk dv v w) (hd : StepOk dd v w) (hK : K ≤ 2 ^ 40) (hT0 : 0 ≤ T)
    (hTv : NearInstant T τ K dv val_horizon) (hTd : NearInstant T τ K dd dwa.horizon)
    (hw : ∀ u ∈ twists o, Slow v w u) {x y θ : ℝ}
    (hp : (Event.tick tf draws).pose? = some ⟨.fin x, .fin y, .fin θ⟩)
    (hX : Located X (⟨.fin x, .fin y, .fin θ⟩ : V3 (RDbl M))) {ε : ℝ}
    (hε : η + v * τ + simError v (max dv dd) X K ≤ ε) {r r' : ℝ × ℝ}
    (hq : Followed η T r ⟨.fin x, .fin y, .fin θ⟩ (twists o) r') :
    r' = r ∨ (|r'.1 - x| ≤ η + v * T ∧ |r'.2 - y| ≤ η + v * T) ∧
      ∃ cs1 cs2 m, c.all = cs1 ++ cs2 ∧ (maps (es ++ asEvents cs1)).getLast? = some m ∧
        NearFree collision m ε r' := by
  rcases iterationT_twists hs with hu | hu
  · have hmem : t.u ∈ twists o := by rw [hu]; simp
    obtain ⟨hz, hf⟩ := hq.2 t.u hmem
    by_cases h0 : t.u = ⟨.fin 0, .fin 0, .fin 0⟩
    · exact .inl (hz h0)
    obtain ⟨x0, y0, θ0, e, hx, hy, hθ⟩ := hX
    simp only [V3.mk.injEq, RDbl.fin_inj] at e
    obtain ⟨rfl, rfl, rfl⟩ := e
    obtain ⟨a, b, cc, hab, hsp, hww⟩ := hw t.u hmem
    obtain ⟨g0, g1⟩ := hf x y θ a b cc rfl hab h0
    have hv0 : 0 ≤ v := (speed_nonneg _).trans hsp
    -- a pose that is simulated near the end of the period and free is as asked
    have fin : ∀ (m : OccupancyGrid (RDbl M)) (d : ℝ) (k : ℕ), StepOk d v w → d ≤ max dv dd → k < K →
        |T - (k + 1) * d| ≤ τ →
        collision.collisionCheck (mapOf m) (poseAfter t.u (.fin d) ⟨.fin x, .fin y, .fin θ⟩ (k + 1)) = .ok false →
        NearFree collision m ε r' := by
      intro m d k hd hle hk hT hfree
      obtain ⟨x', y', θ', he, h1, h2⟩ := simulated_near hM hd hx hy hθ hsp hww hK hk hT
      have hm := simError_mono (X := X) (K := K) hv0 hle
      rw [hab] at hfree
      refine ⟨_, ⟨x', y', θ', he, ?_, ?_⟩, hfree⟩
      · have a1 := abs_le.mp h1
        have a2 := abs_le.mp g0
        rw [abs_le]; constructor <;> linarith
      · have a1 := abs_le.mp h2
        have a2 := abs_le.mp g1
        rw [abs_le]; constructor <;> linarith
    have hreach := C76_flow ⟨x, y, θ⟩ ⟨a, b, cc⟩ T
    rw [abs_of_nonneg hT0] at hreach
    obtain ⟨k0, k1⟩ := planar_le (hreach.trans (mul_le_mul_of_nonneg_right hsp hT0))
    have near : |r'.1 - x| ≤ η + v * T ∧ |r'.2 - y| ≤ η + v * T := by
      have a0 := abs_le.mp g0
      have a1 := abs_le.mp g1
      have b0 := abs_le.mp k0
      have b1 := abs_le.mp k1
      dsimp only at b0 b1
      constructor <;> rw [abs_le] <;> constructor <;> linarith
    obtain ⟨m1, m2, p', hm1, hm2, hp', hsafe⟩ := C114_safe h hs t.u hmem
    have hpp : p' = ⟨.fin x, .fin y, .fin θ⟩ := by
      rw [poses_append, show poses [Event.tick tf draws] = [⟨.fin x, .fin y, .fin θ⟩] by simp [poses, hp]] at hp'
      simpa using hp'.symm
    subst hpp
    rcases hsafe with ⟨n, hn, hk⟩ | ⟨hf', -⟩ | hz'
    · obtain ⟨n', k, hn', hkn, hkK, hT⟩ := hTv
      rw [hn, Res.ok.injEq] at hn'
      subst hn'
      exact .inr ⟨near, _, c.search, m1, rfl, hm1, fin m1 dv k hv (le_max_left _ _) hkK hT (hk k hkn)⟩
    · obtain ⟨n', k, hn', hkn, hkK, hT⟩ := hTd
      rw [← hdt, hsteps, Res.ok.injEq] at hn'
      subst hn'
      refine .inr ⟨near, c.all, [], m2, by simp, hm2, fin m2 dd k hd (le_max_right _ _) hkK hT ?_⟩
      rw [← hcol, ← hdt]
      exact hf' k hkn
    · exact absurd (by rw [hz']; simp) h0
  · exact .inl (hq.1 hu)

theorem drivenR_foreseen (hM : AccurateTrig M) (hcol : dwa.collision = collision)
    (hdt : dwa.dt = .fin dd) (hsteps : numSteps dwa.horizon dwa.dt = .ok dwa.steps)
    (hv : StepOk dv v w) (hd : StepOk dd v w) (hK : K ≤ 2 ^ 40) (hT0 : 0 ≤ T)
    (hTv : NearInstant T τ K dv val_horizon) (hTd : NearInstant T τ K dd dwa.horizon)
    {l : Option ((ℝ × ℝ) × V3 (RDbl M) × List (V3 (RDbl M)))} {rs : List (ℝ × ℝ)} {ε E : ℝ} (hδ : δ ≤ ε)
    (hε : η + v * τ + simError v (max dv dd) X K ≤ ε) (hE1 : ε + δ ≤ E) (hE2 : ε + (η + v * T) ≤ E)
    (hdr : DrivenR T δ η (Expl.start ec collision dwa target frame (.fin dv) val_horizon).1 es os t l rs) :
    ForeseenR collision E es → (∀ o ∈ os, ∀ u ∈ twists o, Slow v w u) → (∀ p ∈ poses es, Located X p) →
    (l = none → maps es = []) ∧
    ∀ r p us, l = some (r, p, us) → ∀ m, (maps es).getLast? = some m → NearFree collision m ε r ∧
      ∀ r', Followed η T r p us r' → NearFree collision m ε r' := by
  -- an iteration at `r`, believed to be at `p`
  have iter : ∀ {es : List (Event (RDbl M))} {os : List (List (Out (RDbl M)))} {t t' : Expl (RDbl M)}
      {tf : Option (TransformMsg (RDbl M))} {draws : List Nat} {c : Slots (RDbl M)} {msgs : List (V3 (RDbl M))}
      {g : Gaps} {o : List (Out (RDbl M))} {r : ℝ × ℝ} {p : V3 (RDbl M)},
      TornTrace (Expl.start ec collision dwa target frame (.fin dv) val_horizon).1 es os t →
      (Event.tick tf draws).pose? = some p → Within δ r p → t.iterationT tf draws c msgs g = .ok (t', o) →
      ForeseenR collision E (es ++ asEvents (c.all ++ odomCallbacks msgs) ++ [.tick tf draws]) →
      (∀ u ∈ twists o, Slow v w u) → Located X p →
      (∀ m, (maps es).getLast? = some m → NearFree collision m ε r) →
      ∀ m, (maps (es ++ asEvents (c.all ++ odomCallbacks msgs) ++ [.tick tf draws])).getLast? = some m →
        NearFree collision m ε r ∧ ∀ r', Followed η T r p (twists o) r' → NearFree collision m ε r' := by
    intro es os t t' tf draws c msgs g o r p ht hp hwi hs hf hw hX hr m hm
    obtain ⟨x, y, θ, rfl, d0, d1⟩ := hwi
    generalize hcs : c.all ++ odomCallbacks msgs = cs at hf hm
    rw [maps_append, show maps [Event.tick tf draws] = [] from rfl, List.append_nil] at hm
    have hpost : ∀ cs2 : List (Callback (RDbl M)),
        (poses (asEvents cs2 ++ [Event.tick tf draws])).head? = some ⟨.fin x, .fin y, .fin θ⟩ := by
      intro cs2
      rw [poses_append, poses_asEvents, List.nil_append]
      simp [poses, hp]
    -- what is free at a place within reach stays free
    have keep : ∀ (pre : List (Event (RDbl M))) (cs1 cs2 : List (Callback (RDbl M))) (P : V3 (RDbl M)),
        cs = cs1 ++ cs2 → Within E (x, y) P →
        (∀ m', maps (es ++ asEvents cs1) = [] → (∃ a b, cs2 = a ++ .map m' :: b ∧ maps (es ++ asEvents cs1 ++ asEvents a) = []) →
          collision.collisionCheck (mapOf m') P = .ok false) →
        (∀ m, (maps (es ++ asEvents cs1)).getLast? = some m → collision.collisionCheck (mapOf m) P = .ok false) →
        collision.collisionCheck (mapOf m) P = .ok false := by
      intro pre cs1 cs2 P hsplit hP hfirst hnow
      subst hsplit
      refine carry (Q := fun m => collision.collisionCheck (mapOf m) P = .ok false) (es ++ asEvents cs1) cs2 ?_ ?_
        hnow m (by rw [asEvents_append, ← List.append_assoc] at hm; exact hm)
      · intro a m' b hab h0
        refine hfirst m' ?_ ⟨a, b, hab, h0⟩
        rw [maps_append] at h0
        exact (List.append_eq_nil_iff.mp h0).1
      · intro a m' b m0 hab h0 hfree
        refine hf.later (es ++ asEvents cs1 ++ asEvents a) m' (asEvents b ++ [.tick tf draws]) m0 x y θ ?_ h0
          (hpost b) P hP hfree
        rw [hab]
        simp [asEvents, Callback.event]
    have hhere : NearFree collision m ε r := by
      cases hl : (maps es).getLast? with
      | none =>
        refine ⟨_, ⟨x, y, θ, rfl, d0.trans hδ, d1.trans hδ⟩, keep [] [] cs _ rfl ⟨x, y, θ, rfl, ?_, ?_⟩ ?_ ?_⟩
        · have := abs_nonneg (x - r.1); simp; linarith
        · have := abs_nonneg (x - r.1); simp; linarith
        · rintro m' - ⟨a, b, hab, h0⟩
          refine hf.first (es ++ asEvents a) m' (asEvents b ++ [.tick tf draws]) _ ?_ (by simpa [asEvents] using h0) (hpost b)
          rw [hab]
          simp [asEvents, Callback.event]
        · intro m0 hm0
          rw [show es ++ asEvents ([] : List (Callback (RDbl M))) = es by simp [asEvents], hl] at hm0
          cases hm0
      | some m0 =>
        obtain ⟨P, ⟨px, py, pθ, rfl, e0, e1⟩, hfree⟩ := hr m0 hl
        refine ⟨_, ⟨px, py, pθ, rfl, e0, e1⟩, keep [] [] cs _ rfl ⟨px, py, pθ, rfl, ?_, ?_⟩ ?_ ?_⟩
        · have a1 := abs_le.mp d0
          have a2 := abs_le.mp e0
          rw [abs_le]; constructor <;> dsimp only <;> linarith
        · have a1 := abs_le.mp d1
          have a2 := abs_le.mp e1
          rw [abs_le]; constructor <;> dsimp only <;> linarith
        · intro m' h0
          rw [show es ++ asEvents ([] : List (Callback (RDbl M))) = es by simp [asEvents]] at h0
          rw [h0] at hl
          cases hl
        · intro m1 hm1
          rw [show es ++ asEvents ([] : List (Callback (RDbl M))) = es by simp [asEvents], hl] at hm1
          cases hm1
          exact hfree
    refine ⟨hhere, fun r' hfo => ?_⟩
    rcases next_near_current hM ht hs hcol hdt hsteps hv hd hK hT0 hTv hTd hw hp hX hε hfo with rfl |
      ⟨⟨n0, n1⟩, cs1, cs2, m1, hall, hm1, P, ⟨px, py, pθ, rfl, e0, e1⟩, hfree⟩
    · exact hhere
    · refine ⟨_, ⟨px, py, pθ, rfl, e0, e1⟩, keep [] cs1 (cs2 ++ odomCallbacks msgs) _ ?_ ⟨px, py, pθ, rfl, ?_, ?_⟩ ?_ ?_⟩
      · rw [← hcs, hall]; simp
      · have a1 := abs_le.mp n0
        have a2 := abs_le.mp e0
        rw [abs_le]; constructor <;> dsimp only <;> linarith
      · have a1 := abs_le.mp n1
        have a2 := abs_le.mp e1
        rw [abs_le]; constructor <;> dsimp only <;> linarith
      · intro m' h0
        rw [h0] at hm1
        cases hm1
      · intro m2 hm2
        rw [hm1, Option.some.injEq] at hm2
        subst hm2
        exact hfree
  have hposes : ∀ (es : List (Event (RDbl M))) (b : List (Callback (RDbl M))) (tf : Option (TransformMsg (RDbl M)))
      (draws : List Nat) (p : V3 (RDbl M)), (Event.tick tf draws).pose? = some p →
      poses (es ++ asEvents b ++ [.tick tf draws]) = poses es ++ [p] := by
    intro es b tf draws p hp
    rw [poses_append, poses_append, poses_asEvents, List.append_nil]
    simp [poses, hp]
  induction hdr with
  | nil => intro _ _ _; exact ⟨fun _ => rfl, by simp⟩
  | @first es os t t' tf draws c msgs g o rs r p hd' he hwi hs ih =>
    intro hf hw hX
    rw [hposes _ _ _ _ _ he] at hX
    obtain ⟨h1, -⟩ := ih (by rw [List.append_assoc] at hf; exact hf.prefix) (fun o ho => hw o (by simp [ho]))
      (fun p hp => hX p (by simp [hp]))
    refine ⟨by simp, ?_⟩
    rintro r' p' us hl
    cases hl
    exact iter hd'.trace he hwi hs hf (hw o (by simp)) (hX p (by simp)) (by rw [h1 rfl]; simp)
  | @next es os t t' tf draws c msgs g o rs r p us r' q hd' he hwi hfo hs ih =>
    intro hf hw hX
    rw [hposes _ _ _ _ _ he] at hX
    obtain ⟨-, h2⟩ := ih (by rw [List.append_assoc] at hf; exact hf.prefix) (fun o ho => hw o (by simp [ho]))
      (fun p hp => hX p (by simp [hp]))
    refine ⟨by simp, ?_⟩
    rintro r'' p' us' hl
    cases hl
    exact iter hd'.trace he hwi hs hf (hw o (by simp)) (hX q (by simp))
      (fun m hm => (h2 r p us rfl m hm).2 r' hfo)

end

/-- C124 in rounded arithmetic, with transforms right up to `δ`, a robot that ends up within `η` of where a
twist leads and rests when told to, and callbacks at any moment: on maps that change, at every iteration the
robot is within `ε` of a pose at which the check is free on the latest map, and it will be at the next iteration,
if no map comes in between, provided no map shows a new obstacle within `E` of where the iteration, during or
before which it arrives, finds the robot.  Here `ε` is as in `C116_closed_loop` and `E` is `ε` and what the robot
covers in a period, with its errors. -/
theorem C124_rounded (hM : AccurateTrig M) {p : Params (RDbl M)} {n : Node (RDbl M)} {o0 : List (Out (RDbl M))}
    (hn : Node.cart p = .ok (n, o0) ∨ Node.omni p = .ok (n, o0)) {dv dd T τ δ η v w X : ℝ} {K : ℕ}
    (hdv : p.val_dt = .fin dv) (hdd : p.dwa_dt = .fin dd) (hv : StepOk dv v w) (hd : StepOk dd v w)
    (hK : K ≤ 2 ^ 40) (hT0 : 0 ≤ T) (hTv : NearInstant T τ K dv p.val_horizon)
    (hTd : NearInstant T τ K dd p.dwa_horizon)
    {es : List (Event (RDbl M))} {os : List (List (Out (RDbl M)))} {t : Expl (RDbl M)}
    {l : Option ((ℝ × ℝ) × V3 (RDbl M) × List (V3 (RDbl M)))} {rs : List (ℝ × ℝ)}
    (hdr : DrivenR T δ η n.expl es os t l rs) {ε E : ℝ}
    (hδ : δ ≤ ε) (hε : η + v * τ + simError v (max dv dd) X K ≤ ε) (hE : ε + max δ (η + v * T) ≤ E)
    (hf : ForeseenR n.expl.collision E es)
    (hw : ∀ o ∈ os, ∀ u ∈ twists o, Slow v w u) (hX : ∀ q ∈ poses es, Located X q) :
    ∀ r q us m, l = some (r, q, us) → (maps es).getLast? = some m →
      (∃ P, Within ε r P ∧ n.expl.collision.collisionCheck (mapOf m) P = .ok false) ∧
      ∀ r', Followed η T r q us r' →
        ∃ P, Within ε r' P ∧ n.expl.collision.collisionCheck (mapOf m) P = .ok false := by
  have main : ∀ (ec : ErgodicControl (RDbl M)) (collision : Collision (RDbl M)) (dwa : DynamicWindow (RDbl M))
      (target : Target (RDbl M)),
      (n.expl, o0) = Expl.start ec collision dwa target p.map_frame_id p.val_dt p.val_horizon →
      dwa.collision = collision → numSteps dwa.horizon dwa.dt = .ok dwa.steps → dwa.dt = p.dwa_dt →
      dwa.horizon = p.dwa_horizon →
      ∀ r q us m, l = some (r, q, us) → (maps es).getLast? = some m → NearFree n.expl.collision m ε r ∧
        ∀ r', Followed η T r q us r' → NearFree n.expl.collision m ε r' := by
    intro ec collision dwa target he hc hst e1 e2
    have h1 : n.expl = (Expl.start ec collision dwa target p.map_frame_id p.val_dt p.val_horizon).1 := by
      rw [← he]
    have h2 : n.expl.collision = collision := by rw [h1]; rfl
    rw [h2] at hf ⊢
    rw [h1, hdv] at hdr
    rw [← e2] at hTd
    intro r q us m hl hm
    have a1 := le_max_left δ (η + v * T)
    have a2 := le_max_right δ (η + v * T)
    exact (drivenR_foreseen hM hc (e1.trans hdd) hst hv hd hK hT0 hTv hTd hδ hε (by linarith) (by linarith) hdr hf hw hX).2 r q us hl m hm
  have win : ∀ {c : Collision (RDbl M)} {ay ylo yhi : RDbl M} {ny : UInt32} {dwa : DynamicWindow (RDbl M)},
      DynamicWindow.new c p.dwa_dt p.dwa_horizon p.acc_dt p.acc_lim_x ay p.acc_lim_th
        p.max_vel_x p.min_vel_x yhi ylo p.max_rot_vel p.min_rot_vel p.vx_samples ny p.vth_samples = .ok dwa →
      dwa.collision = c ∧ numSteps dwa.horizon dwa.dt = .ok dwa.steps ∧ dwa.dt = p.dwa_dt ∧
      dwa.horizon = p.dwa_horizon := by
    intro c ay ylo yhi ny dwa h
    simp only [DynamicWindow.new, Res.bind_eq_ok, Res.ok.injEq] at h
    obtain ⟨k, hk, rfl⟩ := h
    exact ⟨rfl, hk, rfl, rfl⟩
  rcases hn with hn | hn
  · obtain ⟨_, _, target, collision, ec, dwa, -, hdw, he, -⟩ := cart_ok hn
    obtain ⟨a, b, c, d⟩ := win hdw
    exact main ec collision dwa target he a b c d
  · obtain ⟨_, _, _, target, collision, ec, dwa, -, hdw, he, -⟩ := omni_ok hn
    obtain ⟨a, b, c, d⟩ := win hdw
    exact main ec collision dwa target he a b c d

/-- C124 for the shipped configurations, at the ten iterations a second of the files, within a thousand
kilometres of the origin and for twists as `C105` bounds them. -/
theorem C124_shipped (hM : AccurateTrig M) {n : Node (RDbl M)} {o0 : List (Out (RDbl M))}
    (hn : cartYaml.cart = .ok (n, o0) ∨ omniYaml.omni = .ok (n, o0)) {δ η : ℝ}
    {es : List (Event (RDbl M))} {os : List (List (Out (RDbl M)))} {t : Expl (RDbl M)}
    {l : Option ((ℝ × ℝ) × V3 (RDbl M) × List (V3 (RDbl M)))} {rs : List (ℝ × ℝ)}
    (hdr : DrivenR (1 / 10) δ η n.expl es os t l rs)
    (hf : ForeseenR n.expl.collision (max δ (η + 1 / 10 ^ 7) + max δ (η + 0.14143)) es)
    (hw : ∀ o ∈ os, ∀ u ∈ twists o, Slow 1.4143 2.001 u) (hX : ∀ q ∈ poses es, Located (10 ^ 6) q) :
    ∀ r q us m, l = some (r, q, us) → (maps es).getLast? = some m →
      ∃ P, Within (max δ (η + 1 / 10 ^ 7)) r P ∧ n.expl.collision.collisionCheck (mapOf m) P = .ok false := by
  obtain ⟨p, hp, h1, h2, h3, h4⟩ : ∃ p : Params (RDbl M), (Node.cart p = .ok (n, o0) ∨ Node.omni p = .ok (n, o0)) ∧
      p.val_dt = .fin (M.rnd (1 / 10)) ∧ p.val_horizon = .fin (M.rnd (1 / 2)) ∧
      p.dwa_dt = .fin (M.rnd (1 / 10)) ∧ p.dwa_horizon = .fin 2 := by
    rcases hn with hn | hn
    · obtain ⟨-, p, hp, h⟩ := ((C88_launch _ _).1).mp hn
      rw [cartYaml_params, Res.ok.injEq] at hp
      subst hp
      exact ⟨_, Or.inl h, rfl, rfl, rfl, rfl⟩
    · obtain ⟨-, p, hp, h⟩ := ((C88_launch _ _).2).mp hn
      rw [omniYaml_params, Res.ok.injEq] at hp
      subst hp
      exact ⟨_, Or.inr h, rfl, rfl, rfl, rfl⟩
  have htc := tenth_close (M := M)
  have ht := abs_le.mp htc
  have hs : StepOk (M.rnd (1 / 10)) 1.4143 2.001 := by
    norm_num at ht
    constructor <;> norm_num <;> linarith
  obtain ⟨nv, hnv, hnv0⟩ := val_steps (M := M)
  obtain ⟨nd, hnd, hnd0⟩ : ∃ n : UInt32, numSteps (.fin 2 : RDbl M) (.fin (M.rnd (1 / 10))) = .ok n ∧ 0 < n.toNat := by
    norm_num at ht
    have tp : 0 < M.rnd (1 / 10) := by norm_num; linarith
    obtain ⟨k, h3, h5, -⟩ := numSteps_fin (M := M) (h := 2) (d := M.rnd (1 / 10)) (by norm_num) tp
      (by norm_num; linarith)
    refine ⟨k, h3, ?_⟩
    rw [h5]
    refine Nat.floor_pos.mpr ?_
    have hq : (1 : ℝ) ≤ 2 / M.rnd (1 / 10) := by
      rw [le_div_iff₀ tp]
      norm_num; linarith
    have := M.int_le_rnd (n := 1) (by norm_num) (x := 2 / M.rnd (1 / 10)) (by exact_mod_cast hq)
    exact_mod_cast this
  have hnear : ∀ {h : RDbl M} {k : UInt32}, numSteps h (.fin (M.rnd (1 / 10))) = .ok k → 0 < k.toNat →
      NearInstant (1 / 10) (1 / 10 ^ 12) 1 (M.rnd (1 / 10)) h := by
    intro h k hk h0
    refine ⟨k, 0, hk, h0, Nat.one_pos, ?_⟩
    rw [Nat.cast_zero, zero_add, one_mul]
    exact htc
  have hE : η + 1.4143 * (1 / 10 ^ 12) + simError 1.4143 (max (M.rnd (1 / 10)) (M.rnd (1 / 10))) (10 ^ 6) 1 ≤
      η + 1 / 10 ^ 7 := by
    rw [max_self]
    unfold simError
    norm_num at ht ⊢
    linarith
  intro r q us m hl hm
  exact (C124_rounded hM hp h1 h3 hs hs (K := 1) (by norm_num) (by norm_num) (by rw [h2]; exact hnear hnv hnv0)
    (by rw [h4]; exact hnear hnd hnd0) hdr (le_max_left _ _) (hE.trans (le_max_right _ _))
    (by norm_num) hf hw hX r q us m hl hm).1

/-! ## A history that meets the hypotheses -/

/-- the room, with an obstacle in the corner -/
noncomputable def roomMsg2 : OccupancyGrid (RDbl ieee) := { roomMsg with data := 100 :: List.replicate 99 0 }

theorem room2_sized : MapSized roomMsg2 0 0 1 := by
  obtain ⟨h1, h2, h3, h4, h5, h6, h7, h8, h9, h10, h11⟩ := room_sized
  refine ⟨h1, h2, h3, h4, h5, h6, h7, h8, h9, h10, ?_⟩
  show (100 :: List.replicate 99 (0 : Int8)).length = _
  rw [List.length_cons, List.length_replicate]
  decide

/-- a map, an iteration, another map and another iteration -/
noncomputable def revisits (r : ℝ × ℝ) : List (Event (RDbl ieee)) :=
  [.map roomMsg, .tick (some (placeTf 5 5)) (List.replicate 100 0), .map roomMsg2,
    .tick (some (placeTf r.1 r.2)) (List.replicate 100 0)]

theorem revisits_fed (r : ℝ × ℝ) (h : |r.1 - 5| ≤ 1 ∧ |r.2 - 5| ≤ 1) : Fed 2.83 (revisits r) := by
  have near : ∀ m, m = roomMsg ∨ m = roomMsg2 → MapNearTarget m := by
    rintro m (rfl | rfl)
    · refine ⟨0, 0, 1, 5 / 2, room_sized, Or.inl rfl, by norm_num, ?_, by norm_num, ?_⟩
      · have : (0 : ℝ) ≤ roomMsg.width.toNat := Nat.cast_nonneg _
        linarith
      · have : (0 : ℝ) ≤ roomMsg.height.toNat := Nat.cast_nonneg _
        linarith
    · refine ⟨0, 0, 1, 5 / 2, room2_sized, Or.inl rfl, by norm_num, ?_, by norm_num, ?_⟩
      · have : (0 : ℝ) ≤ roomMsg2.width.toNat := Nat.cast_nonneg _
        linarith
      · have : (0 : ℝ) ≤ roomMsg2.height.toNat := Nat.cast_nonneg _
        linarith
  have room : ∀ m (r : ℝ × ℝ), m = roomMsg ∨ m = roomMsg2 → |r.1 - 5| ≤ 1 ∧ |r.2 - 5| ≤ 1 →
      RoomRd (mapOf m) ⟨.fin r.1, .fin r.2, .fin 0⟩ (10 ^ 6) 2.83 := by
    rintro m r hm ⟨h1, h2⟩
    rw [abs_le] at h1 h2
    refine ⟨r.1, r.2, 0, 0, 0, 1, rfl, ?_, by norm_num, ?_, ?_, ?_⟩
    · rcases hm with rfl | rfl <;> exact ⟨rfl, rfl, rfl, by norm_num⟩
    · rw [abs_le]; constructor <;> linarith
    · rw [abs_le]; constructor <;> linarith
    · norm_num
      refine ⟨?_, ?_, ?_, ?_⟩ <;> linarith
  intro pre tf draws post he
  have hpose : ∀ (pre : List (Event (RDbl ieee))) (x y : ℝ), poses (pre ++ [.tick (some (placeTf x y)) (List.replicate 100 0)]) =
      poses pre ++ [⟨.fin x, .fin y, .fin 0⟩] := by
    intro pre x y
    rw [poses_append]
    congr 1
    simp only [poses, List.filterMap_cons, place_pose, List.filterMap_nil]
  rcases four_events he with ⟨rfl, rfl, rfl⟩ | ⟨rfl, rfl, rfl⟩
  · refine ⟨List.length_replicate, ?_, ?_, ?_⟩
    · intro k hk
      rw [List.eq_of_mem_replicate hk, hpose]
      simp
    · intro m hm
      exact near m (.inl (Option.some.inj hm).symm)
    · intro m x hm hx
      rw [hpose] at hx
      have hx : (⟨.fin 5, .fin 5, .fin 0⟩ : V3 (RDbl ieee)) = x := by simpa using hx
      subst hx
      exact room m (5, 5) (.inl (Option.some.inj hm).symm) (by simp)
  · refine ⟨List.length_replicate, ?_, ?_, ?_⟩
    · intro k hk
      rw [List.eq_of_mem_replicate hk, hpose]
      simp
    · intro m hm
      exact near m (.inr (Option.some.inj hm).symm)
    · intro m x hm hx
      rw [hpose] at hx
      have hx : (⟨.fin r.1, .fin r.2, .fin 0⟩ : V3 (RDbl ieee)) = x := by simpa using hx
      subst hx
      exact room m r (.inr (Option.some.inj hm).symm) h

theorem room2_free {px py : ℝ} (hx : |px - 5| ≤ 2) (hy : |py - 5| ≤ 2) (θ : RDbl ieee) :
    (shippedDetector ieee).collisionCheck (mapOf roomMsg2) ⟨.fin px, .fin py, θ⟩ = .ok false := by
  obtain ⟨ax, ay, r, b, s, o, hs⟩ := ((shipped_supplied ieee_accurate (revisits_fed (5, 5) (by simp)))
    [.map roomMsg, .tick (some (placeTf 5 5)) (List.replicate 100 0), .map roomMsg2] (some (placeTf 5 5))
    (List.replicate 100 0) [] rfl).map roomMsg2 rfl |>.sensible
  have e : ax = 0 ∧ ay = 0 ∧ r = 1 := by
    obtain ⟨h1, h2, h3, -⟩ := hs.placed
    have h1 : (.fin 0 : RDbl ieee) = .fin ax := h1
    have h2 : (.fin 0 : RDbl ieee) = .fin ay := h2
    have h3 : (.fin 1 : RDbl ieee) = .fin r := h3
    rw [RDbl.fin_inj] at h1 h2 h3
    exact ⟨h1.symm, h2.symm, h3.symm⟩
  obtain ⟨rfl, rfl, rfl⟩ := e
  have hb : b = ieee.rnd (7 / 10) := by
    have := hs.bnd
    have this : (.fin (ieee.rnd (7 / 10)) : RDbl ieee) = .fin b := this
    rw [RDbl.fin_inj] at this
    exact this.symm
  have ho : o = ieee.rnd (1 / 5) := by
    have := hs.obs
    have this : (.fin (ieee.rnd (1 / 5)) : RDbl ieee) = .fin o := this
    rw [RDbl.fin_inj] at this
    exact this.symm
  rw [abs_le] at hx hy
  have h10 : ((mapOf roomMsg2).xsize.toNat : ℝ) = 10 ∧ ((mapOf roomMsg2).ysize.toNat : ℝ) = 10 := by
    constructor <;> (show ((10 : UInt32).toNat : ℝ) = 10; rw [show (10 : UInt32).toNat = 10 from rfl]; norm_num)
  obtain ⟨i, j, -, hin, cfg, hcfg, hr, hcx, hcy, -, hcol, -⟩ := config_rd hs (x := px) (y := py) (by
    refine ⟨by linarith, ?_, by linarith, ?_⟩
    · rw [h10.1]; linarith
    · rw [h10.2]; linarith) θ
  obtain ⟨v, hv, -⟩ := collisionCheck_iff _ _ hs.wf _ cfg hcfg hr
  cases v with
  | false => exact hv
  | true =>
    exfalso
    obtain ⟨k, l, ⟨k0, k1, l0, l1, w, hw, hlt⟩, hd⟩ := C25_sound _ _ hs.wf _ cfg hcfg hr hv
    have k1 : k < 10 := k1
    have l1 : l < 10 := l1
    have hkl : k = 0 ∧ l = 0 := by
      by_contra hc
      have hidx : 1 ≤ k.toNat * 10 + l.toNat := by omega
      have hw0 : w = 0 := by
        have hw : (100 :: List.replicate 99 (0 : Int8))[k.toNat * 10 + l.toNat]? = some w := hw
        obtain ⟨q, hq⟩ : ∃ q, k.toNat * 10 + l.toNat = q + 1 := ⟨_, (Nat.sub_add_cancel hidx).symm⟩
        rw [hq, List.getElem?_cons_succ] at hw
        exact List.eq_of_mem_replicate (List.mem_of_getElem? hw)
      subst hw0
      have q := rnd_at (M := ieee) (x := 4 / 5) le_rfl (by norm_num [abs_of_pos])
      have h100 : (lit 100 0 : RDbl ieee) = .fin 100 := by rw [lit_int 100 (by norm_num) (by norm_num)]; norm_num
      have h0 : (Flt.ofInt (0 : Int8).toInt : RDbl ieee) = .fin 0 := by
        show (.fin (ieee.rnd ((0 : Int) : ℝ)) : RDbl ieee) = _
        rw [Int.cast_zero, ieee.rnd_zero]
      rw [h100, h0, RDbl.div_fin _ (by norm_num : (100 : ℝ) ≠ 0), zero_div, ieee.rnd_zero] at hlt
      have hlt : Flt.lt (.fin 0 : RDbl ieee) (.fin (ieee.rnd (4 / 5))) = false := hlt
      rw [RDbl.lt_fin_false] at hlt
      norm_num at q
      linarith
    obtain ⟨rfl, rfl⟩ := hkl
    obtain ⟨-, c1, -, c3⟩ := hin
    norm_num at c1 c3
    have hj : 2 ≤ j.toNat := by
      by_contra hc
      have : (j.toNat : ℝ) ≤ 1 := by exact_mod_cast (show j.toNat ≤ 1 by omega)
      linarith
    have hi : 2 ≤ i.toNat := by
      by_contra hc
      have : (i.toNat : ℝ) ≤ 1 := by exact_mod_cast (show i.toNat ≤ 1 by omega)
      linarith
    have hc1 : cfg.r_col ≤ 1 := by
      rw [hcol, cellsRd, div_one, hb, ho]
      have q1 := rnd_at (M := ieee) (x := 7 / 10) le_rfl (by norm_num [abs_of_pos])
      have q2 := rnd_at (M := ieee) (x := 1 / 5) le_rfl (by norm_num [abs_of_pos])
      norm_num at q1 q2
      have hle : ieee.rnd (ieee.rnd (ieee.rnd (7 / 10) + ieee.rnd (1 / 5))) ≤ 1 := by
        have h1 : ieee.rnd (7 / 10) + ieee.rnd (1 / 5) ≤ 1 := by linarith
        have h2 := ieee.mono h1
        have e1 : ieee.rnd 1 = 1 := by simp
        rw [e1] at h2
        have h3 := ieee.mono h2
        rwa [e1] at h3
      have : ((⌊ieee.rnd (ieee.rnd (ieee.rnd (7 / 10) + ieee.rnd (1 / 5)))⌋ : ℤ) : ℝ) ≤ 1 := (Int.floor_le _).trans hle
      exact_mod_cast this
    have hc0 : 0 ≤ cfg.r_col := by
      rw [hcol, cellsRd, div_one]
      exact Int.floor_nonneg.mpr (ieee.rnd_nonneg (ieee.rnd_nonneg (by linarith [hs.bnd0, hs.obs0])))
    rw [hcx, hcy] at hd
    have a1 : (2 : Int) ≤ j.toNat := by exact_mod_cast hj
    have a2 : (2 : Int) ≤ i.toNat := by exact_mod_cast hi
    nlinarith

/-- two iterations of the omnidirectional robot on binary64 numbers, between which a map arrives that shows an
obstacle in the corner: the robot carries out the first twist a millimetre off, and the second transform is a
centimetre off -/
example : ∃ (n : Node (RDbl ieee)) (o0 : List (Out (RDbl ieee))) (es : List (Event (RDbl ieee)))
    (os : List (List (Out (RDbl ieee)))) (t : Expl (RDbl ieee))
    (l : Option ((ℝ × ℝ) × V3 (RDbl ieee) × List (V3 (RDbl ieee)))) (rs : List (ℝ × ℝ)),
    omniYaml.omni = .ok (n, o0) ∧ DrivenR (1 / 10) (1 / 100) (1 / 1000) n.expl es os t l rs ∧
    ForeseenR n.expl.collision (max (1 / 100) (1 / 1000 + 1 / 10 ^ 7) + max (1 / 100) (1 / 1000 + 0.14143)) es ∧
    (∀ o ∈ os, ∀ u ∈ twists o, Slow 1.4143 2.001 u) ∧
    (∀ q ∈ poses es, Located (10 ^ 6) q) ∧ maps es = [roomMsg, roomMsg2] ∧
    rs.length = 2 ∧ twists os.flatten ≠ [] := by
  obtain ⟨n, o0, hn, hup, hrun⟩ := C105_omni ieee_trig ieee_pow ieee_accurate
  have hcoll : n.expl.collision = shippedDetector ieee := by
    obtain ⟨-, p, hp, h⟩ := ((C88_launch _ _).2).mp hn
    rw [omniYaml_params, Res.ok.injEq] at hp
    subst hp
    obtain ⟨_, _, _, _, collision, _, _, ⟨-, -, -, -, hc⟩, -, -, he, -⟩ := omni_parts h
    have hc : collision = shippedDetector ieee := (Res.ok.inj (shipped_collision.symm.trans hc)).symm
    have h1 := congrArg (fun r => r.1.collision) he
    rw [← hc]
    exact h1
  have hpose : ∀ (pre : List (Event (RDbl ieee))) (x y : ℝ), poses (pre ++ [.tick (some (placeTf x y)) (List.replicate 100 0)]) =
      poses pre ++ [⟨.fin x, .fin y, .fin 0⟩] := by
    intro pre x y
    rw [poses_append]
    congr 1
    simp only [poses, List.filterMap_cons, place_pose, List.filterMap_nil]
  have hps : ∀ r, poses (revisits r) = [⟨.fin 5, .fin 5, .fin 0⟩, ⟨.fin r.1, .fin r.2, .fin 0⟩] := by
    intro r
    have h1 := hpose [.map roomMsg, .tick (some (placeTf 5 5)) (List.replicate 100 0), .map roomMsg2] r.1 r.2
    have h2 := hpose [.map roomMsg] 5 5
    have h3 : poses [.map roomMsg, .tick (some (placeTf 5 5)) (List.replicate 100 0), .map roomMsg2] =
        poses ([.map roomMsg] ++ [.tick (some (placeTf 5 5)) (List.replicate 100 0)]) := by
      rw [show ([.map roomMsg, .tick (some (placeTf 5 5)) (List.replicate 100 0), .map roomMsg2] :
        List (Event (RDbl ieee))) = ([.map roomMsg] ++ [.tick (some (placeTf 5 5)) (List.replicate 100 0)]) ++
          [.map roomMsg2] from rfl, poses_append, show poses [Event.map roomMsg2] = [] from rfl, List.append_nil]
    rw [h3, h2] at h1
    exact h1
  -- every pair of places near the middle is an execution
  have go : ∀ r : ℝ × ℝ, |r.1 - 5| ≤ 1 ∧ |r.2 - 5| ≤ 1 →
      ∃ n' out, n.run (revisits r) = .ok (n', out) ∧ ∀ u ∈ twists out, Slow 1.4143 2.001 u := by
    intro r hr
    refine hrun (revisits r) ?_ ?_ (revisits_fed r hr)
    · intro u hu
      have : u ∈ ([] : List (V3 (RDbl ieee))) := hu
      simp at this
    · intro x hx
      rw [hps] at hx
      simp only [List.mem_cons, List.not_mem_nil, or_false] at hx
      rcases hx with rfl | rfl <;> exact ⟨⟨_, rfl⟩, ⟨_, rfl⟩, _, rfl⟩
  -- the first iteration
  obtain ⟨n1, out1, hr1, hs1⟩ := go (5, 5) (by simp)
  obtain ⟨x0, oa, out, hm, hr1a, rfl⟩ := run_cons hup hr1
  obtain ⟨t1, o1, out, ht1, hr1b, rfl⟩ := run_cons (n := { n with expl := x0 }) hup hr1a
  have hx0 : n.expl.mapCallback roomMsg = x0 := by
    have : (Res.ok (n.expl.mapCallback roomMsg, []) : Res (Expl (RDbl ieee) × List (Out (RDbl ieee)))) =
      .ok (x0, oa) := hm
    simp only [Res.ok.injEq, Prod.mk.injEq] at this
    exact this.1
  have htw : twists o1 = [t1.u] := by
    have := iteration_twists ht1
    rw [if_pos] at this
    · exact this
    · rw [← hx0]; rfl
  obtain ⟨a, b, c, hu, hsp, hc⟩ := hs1 t1.u (by simp [twists_append, htw])
  -- where the robot is then
  obtain ⟨r', hr', hf⟩ : ∃ r' : ℝ × ℝ, (|r'.1 - 5| ≤ 1 / 2 ∧ |r'.2 - 5| ≤ 1 / 2) ∧
      Followed (1 / 1000) (1 / 10) (5, 5) (⟨.fin 5, .fin 5, .fin 0⟩ : V3 (RDbl ieee)) [t1.u] r' := by
    by_cases h0 : t1.u = ⟨.fin 0, .fin 0, .fin 0⟩
    · refine ⟨(5, 5), by norm_num, by simp, ?_⟩
      intro u hu
      rw [List.mem_singleton] at hu
      subst hu
      exact ⟨fun _ => rfl, fun _ _ _ _ _ _ _ _ h => absurd h0 h⟩
    · have hp := planar_le (C76_flow ⟨5, 5, 0⟩ ⟨a, b, c⟩ (1 / 10))
      have hl : speed ⟨a, b, c⟩ * |(1 / 10 : ℝ)| ≤ 1 / 4 := by
        rw [abs_of_pos (by norm_num)]
        norm_num at hsp ⊢
        linarith
      have h1 := abs_le.mp (hp.1.trans hl)
      have h2 := abs_le.mp (hp.2.trans hl)
      refine ⟨((flow ⟨5, 5, 0⟩ ⟨a, b, c⟩ (1 / 10)).c0 + 1 / 1000, (flow ⟨5, 5, 0⟩ ⟨a, b, c⟩ (1 / 10)).c1),
        ⟨?_, ?_⟩, by simp, ?_⟩
      · rw [abs_le]; constructor <;> linarith
      · rw [abs_le]; constructor <;> linarith
      · intro u hu'
        rw [List.mem_singleton] at hu'
        subst hu'
        refine ⟨fun h => absurd h h0, ?_⟩
        intro x y θ a' b' c' hp' hu' _
        rw [hu] at hu'
        simp only [V3.mk.injEq, RDbl.fin_inj] at hp' hu'
        obtain ⟨rfl, rfl, rfl⟩ := hp'
        obtain ⟨rfl, rfl, rfl⟩ := hu'
        constructor <;> simp
  have g1 := abs_le.mp hr'.1
  have g2 := abs_le.mp hr'.2
  -- the second iteration
  obtain ⟨n2, out2, hr2, hs2⟩ := go (r'.1 + 1 / 100, r'.2) (by
    constructor
    · rw [abs_le]; constructor <;> dsimp only <;> linarith
    · rw [abs_le]; constructor <;> dsimp only <;> linarith)
  obtain ⟨x0', ob, out', hm', hr2a, rfl⟩ := run_cons hup hr2
  have e0 := hm.symm.trans hm'
  simp only [Res.ok.injEq, Prod.mk.injEq] at e0
  obtain ⟨rfl, rfl⟩ := e0
  obtain ⟨t1', o1', out', ht1', hr2b, rfl⟩ := run_cons (n := { n with expl := x0 }) hup hr2a
  have e1 := ht1.symm.trans ht1'
  simp only [Res.ok.injEq, Prod.mk.injEq] at e1
  obtain ⟨rfl, rfl⟩ := e1
  obtain ⟨x1, oc, out', hmm, hr2c, rfl⟩ := run_cons (n := { n with expl := t1 }) hup hr2b
  have hx1 : t1.mapCallback roomMsg2 = x1 := by
    have : (Res.ok (t1.mapCallback roomMsg2, []) : Res (Expl (RDbl ieee) × List (Out (RDbl ieee)))) =
      .ok (x1, oc) := hmm
    simp only [Res.ok.injEq, Prod.mk.injEq] at this
    exact this.1
  obtain ⟨t2, o2, out', ht2, hr2d, rfl⟩ := run_cons (n := { n with expl := x1 }) hup hr2c
  have hd1 := DrivenR.first (T := 1 / 10) (δ := 1 / 100) (η := 1 / 1000) (r := ((5 : ℝ), (5 : ℝ))) (.nil (s := n.expl))
    (place_pose 5 5 (List.replicate 100 0)) ⟨5, 5, 0, rfl, by simp, by simp⟩
    ((iterationT_map n.expl _ _ roomMsg).trans (by rw [hx0]; exact ht1))
  rw [htw] at hd1
  have hd2 := DrivenR.next (r' := r') hd1 (place_pose (r'.1 + 1 / 100) r'.2 (List.replicate 100 0))
    ⟨_, _, _, rfl, by rw [add_sub_cancel_left]; norm_num [abs_of_pos], by simp⟩ hf
    ((iterationT_map t1 _ _ roomMsg2).trans (by rw [hx1]; exact ht2))
  have hd3 : DrivenR (1 / 10) (1 / 100) (1 / 1000) n.expl (revisits (r'.1 + 1 / 100, r'.2)) ([] ++ [o1] ++ [o2]) t2
      (some (r', ⟨.fin (r'.1 + 1 / 100), .fin r'.2, .fin 0⟩, twists o2)) ([] ++ [(5, 5)] ++ [r']) := hd2
  refine ⟨n, o0, _, _, t2, _, _, hn, hd3, ?_, ?_, ?_, rfl, rfl, ?_⟩
  · rw [hcoll]
    refine ⟨?_, ?_⟩
    · intro pre m post p he h0 hp
      rcases pre with _ | ⟨e, pre⟩
      · simp only [revisits, List.nil_append, List.cons.injEq, Event.map.injEq] at he
        obtain ⟨rfl, rfl⟩ := he
        have hp : some (⟨.fin 5, .fin 5, .fin 0⟩ : V3 (RDbl ieee)) = some p := by
          rw [← hp, ← place_pose 5 5 (List.replicate 100 0)]
          rfl
        rw [← Option.some.inj hp]
        exact room_free
      · simp only [revisits, List.cons_append, List.cons.injEq] at he
        obtain ⟨rfl, -⟩ := he
        simp [maps, Event.map?] at h0
    · intro pre m' post m x y θ he h0 hp
      obtain ⟨rfl, rfl⟩ : m' = roomMsg2 ∧ post = [.tick (some (placeTf (r'.1 + 1 / 100) r'.2)) (List.replicate 100 0)] := by
        rcases pre with _ | ⟨e1, _ | ⟨e2, _ | ⟨e3, _ | ⟨e4, pre⟩⟩⟩⟩ <;> simp_all [revisits, maps]
      have hp : some (⟨.fin (r'.1 + 1 / 100), .fin r'.2, .fin 0⟩ : V3 (RDbl ieee)) = some ⟨.fin x, .fin y, .fin θ⟩ := by
        rw [← hp, ← place_pose (r'.1 + 1 / 100) r'.2 (List.replicate 100 0)]
        rfl
      simp only [Option.some.injEq, V3.mk.injEq, RDbl.fin_inj] at hp
      obtain ⟨rfl, rfl, -⟩ := hp
      rintro P ⟨px, py, pθ, rfl, hx, hy⟩ -
      norm_num at hx hy
      rw [abs_le] at hx hy
      refine room2_free ?_ ?_ _
      · rw [abs_le]; constructor <;> linarith
      · rw [abs_le]; constructor <;> linarith
  · intro o ho u hu
    apply hs2
    simp only [List.nil_append, List.mem_append, List.mem_singleton] at ho
    simp only [twists_append, List.mem_append]
    rcases ho with rfl | rfl
    · exact .inr (.inl hu)
    · exact .inr (.inr (.inr (.inl hu)))
  · intro q hq
    rw [hps] at hq
    simp only [List.mem_cons, List.not_mem_nil, or_false] at hq
    rcases hq with rfl | rfl
    · exact ⟨5, 5, 0, rfl, by norm_num, by norm_num, by norm_num⟩
    · refine ⟨_, _, 0, rfl, ?_, ?_, by norm_num⟩
      · rw [abs_le]; constructor <;> norm_num <;> linarith
      · rw [abs_le]; constructor <;> norm_num <;> linarith
  · intro h
    have : t1.u ∈ twists ([o1] ++ [o2]).flatten := by
      simp only [List.flatten_append, List.flatten_singleton, twists_append, List.mem_append]
      left
      rw [htw]; simp
    simp only [List.nil_append] at h
    rw [h] at this
    simp at this

end Ergodic
