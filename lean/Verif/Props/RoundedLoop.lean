import Verif.Spec.RoundedLoop
import Verif.Props.Torn
import Verif.Props.RoundedMotion
import Verif.Props.RoundedWindow
import Verif.Props.ClosedLoop

/-!
# Property C116: closed-loop safety with rounding and imperfect robots

Rounded arithmetic.
-/

namespace Ergodic
variable {M : Machine}

theorem DrivenR.trace {T δ η : ℝ} {s t : Expl (RDbl M)} {es : List (Event (RDbl M))}
    {os : List (List (Out (RDbl M)))} {l : Option ((ℝ × ℝ) × V3 (RDbl M) × List (V3 (RDbl M)))}
    {rs : List (ℝ × ℝ)} (h : DrivenR T δ η s es os t l rs) : TornTrace s es os t := by
  induction h with
  | nil => exact .nil
  | first _ _ _ hs ih => exact .snoc ih hs
  | next _ _ _ _ hs ih => exact .snoc ih hs

/-- the numbers of a simulation with steps of `dt` -/
structure StepOk (dt v w : ℝ) : Prop where
  step_lo : 1 / 1000 ≤ dt
  step_hi : dt ≤ 64
  long : 1 / 2 ^ 60 ≤ v * dt
  turn : w * dt ≤ 64

theorem flow_late (p u : V3 ℝ) (T T' : ℝ) :
    |(flow p u T').c0 - (flow p u T).c0| ≤ speed u * |T - T'| ∧
      |(flow p u T').c1 - (flow p u T).c1| ≤ speed u * |T - T'| := by
  have h := C76_flow (flow p u T) u (T' - T)
  rw [← flow_add, add_sub_cancel, abs_sub_comm T'] at h
  exact planar_le h

theorem simError_mono {v d D X : ℝ} {K : ℕ} (hv : 0 ≤ v) (h : d ≤ D) : simError v d X K ≤ simError v D X K := by
  have : v * d ≤ v * D := mul_le_mul_of_nonneg_left h hv
  unfold simError
  gcongr

/-- where a simulation is at an instant near `T`, compared with where the twist leads in the time `T` -/
theorem simulated_near (hM : AccurateTrig M) {x y θ a b c d v w X T τ : ℝ} {K k : ℕ} (hd : StepOk d v w)
    (hx : |x| ≤ X) (hy : |y| ≤ X) (hθ : |θ| ≤ 4) (hs : speed ⟨a, b, c⟩ ≤ v) (hw : |c| ≤ w) (hK : K ≤ 2 ^ 40)
    (hk : k < K) (hT : |T - (k + 1) * d| ≤ τ) :
    ∃ x' y' θ', poseAfter (⟨.fin a, .fin b, .fin c⟩ : V3 (RDbl M)) (.fin d) ⟨.fin x, .fin y, .fin θ⟩ (k + 1) =
        ⟨.fin x', .fin y', .fin θ'⟩ ∧
      |x' - (flow ⟨x, y, θ⟩ ⟨a, b, c⟩ T).c0| ≤ v * τ + simError v d X K ∧
      |y' - (flow ⟨x, y, θ⟩ ⟨a, b, c⟩ T).c1| ≤ v * τ + simError v d X K := by
  have hd0 : 0 < d := lt_of_lt_of_le (by norm_num) hd.step_lo
  have hv0 : 0 ≤ v := (speed_nonneg _).trans hs
  have hab : |a| ≤ v ∧ |b| ≤ v := by
    constructor
    · exact (Real.abs_le_sqrt (by nlinarith [sq_nonneg b])).trans hs
    · exact (Real.abs_le_sqrt (by nlinarith [sq_nonneg a])).trans hs
  have hN : MotionNumbers a b c d (v * d) := by
    refine ⟨hd.step_lo, hd.step_hi, hd.long, ?_, ?_, ?_⟩
    · rw [abs_mul, abs_of_pos hd0]; exact mul_le_mul_of_nonneg_right hab.1 hd0.le
    · rw [abs_mul, abs_of_pos hd0]; exact mul_le_mul_of_nonneg_right hab.2 hd0.le
    · rw [abs_mul, abs_of_pos hd0]; exact (mul_le_mul_of_nonneg_right hw hd0.le).trans hd.turn
  have hKk : ((k + 1 : ℕ) : ℝ) ≤ K := by exact_mod_cast hk
  have hV0 : 0 ≤ v * d := by positivity
  have hroom : ∀ z, |z| ≤ X →
      2 * (|z| + (3 * (k + 1 : ℕ) + 19) * (v * d)) ≤ 2 * (X + (3 * (K:ℝ) + 19) * (v * d)) := by
    intro z hz
    gcongr
  obtain ⟨x', y', θ', he, h1, h2, -⟩ := C98_trajectory hM hN hθ (by omega : k + 1 ≤ 2 ^ 40) (hroom x hx)
    (hroom y hy) (k + 1) le_rfl
  have hgap := stepGap_le c d
  have hlost := lostTurn_le (om := c) hd.step_lo hd.step_hi
  have hX0 : 0 ≤ X := (abs_nonneg x).trans hx
  have hE : ((k + 1 : ℕ) : ℝ) * (v * d * (stepGap c d + 1 / 2 ^ 43) + 2 * (X + (3 * (K:ℝ) + 19) * (v * d)) / 2 ^ 52) +
      ((k + 1 : ℕ) : ℝ) ^ 2 * (v * d) * (lostTurn c d + 1 / 2 ^ 39) ≤ simError v d X K := by
    unfold simError
    have hg : v * d * (stepGap c d + 1 / 2 ^ 43) ≤ v * d / 2 ^ 21 := by
      rw [div_eq_mul_one_div (v * d)]
      refine mul_le_mul_of_nonneg_left ?_ hV0
      norm_num at hgap ⊢
      linarith
    have hl : v * d * (lostTurn c d + 1 / 2 ^ 39) ≤ v * d / 2 ^ 32 := by
      rw [div_eq_mul_one_div (v * d)]
      refine mul_le_mul_of_nonneg_left ?_ hV0
      norm_num at hlost ⊢
      linarith
    have hl0 := lostTurn_nonneg c d
    have hg0 := stepGap_nonneg c d
    rw [mul_assoc (((k + 1 : ℕ) : ℝ) ^ 2), mul_div_assoc ((K : ℝ) ^ 2)]
    gcongr
  obtain ⟨f0, f1⟩ := flow_late ⟨x, y, θ⟩ ⟨a, b, c⟩ T ((k + 1) * d)
  have hsp : speed ⟨a, b, c⟩ * |T - (k + 1) * d| ≤ v * τ :=
    mul_le_mul hs hT (abs_nonneg _) hv0
  push_cast at h1 h2 hE
  refine ⟨x', y', θ', he, ?_, ?_⟩
  · have a1 := abs_le.mp (h1.trans hE)
    have a2 := abs_le.mp (f0.trans hsp)
    rw [abs_le]; constructor <;> linarith
  · have a1 := abs_le.mp (h2.trans hE)
    have a2 := abs_le.mp (f1.trans hsp)
    rw [abs_le]; constructor <;> linarith

/-- The robot is within `ε` of a pose at which the check is free. -/
def NearFree (c : Collision (RDbl M)) (m : OccupancyGrid (RDbl M)) (ε : ℝ) (r : ℝ × ℝ) : Prop :=
  ∃ P, Within ε r P ∧ c.collisionCheck (mapOf m) P = .ok false

section
variable {ec : ErgodicControl (RDbl M)} {collision : Collision (RDbl M)} {dwa : DynamicWindow (RDbl M)}
  {target : Target (RDbl M)} {frame : String} {dv dd : ℝ} {val_horizon : RDbl M}
  {es : List (Event (RDbl M))} {os : List (List (Out (RDbl M)))} {s t : Expl (RDbl M)} {o : List (Out (RDbl M))}
  {T τ δ η v w X : ℝ} {K : ℕ}

/-- one period -/
theorem next_near (hM : AccurateTrig M) {tf : Option (TransformMsg (RDbl M))} {draws : List Nat}
    {c : Slots (RDbl M)} {msgs : List (V3 (RDbl M))} {g : Gaps}
    (h : TornTrace (Expl.start ec collision dwa target frame (.fin dv) val_horizon).1 es os s)
    (hs : s.iterationT tf draws c msgs g = .ok (t, o)) (hcol : dwa.collision = collision)
    (hdt : dwa.dt = .fin dd) (hsteps : numSteps dwa.horizon dwa.dt = .ok dwa.steps)
    (hv : StepOk dv v w) (hd : StepOk dd v w) (hK : K ≤ 2 ^ 40)
    (hTv : NearInstant T τ K dv val_horizon) (hTd : NearInstant T τ K dd dwa.horizon) (m : OccupancyGrid (RDbl M))
    (hmaps : ∀ m' ∈ maps (es ++ asEvents c.all), m' = m) (hw : ∀ u ∈ twists o, Slow v w u) {p : V3 (RDbl M)}
    (hp : (Event.tick tf draws).pose? = some p) (hX : Located X p) {ε : ℝ}
    (hε : η + v * τ + simError v (max dv dd) X K ≤ ε) {r r' : ℝ × ℝ} (hr : NearFree collision m ε r)
    (hq : Followed η T r p (twists o) r') : NearFree collision m ε r' := by
  rcases iterationT_twists hs with hu | hu
  · have hmem : t.u ∈ twists o := by rw [hu]; simp
    obtain ⟨hz, hf⟩ := hq.2 t.u hmem
    by_cases h0 : t.u = ⟨.fin 0, .fin 0, .fin 0⟩
    · rw [hz h0]; exact hr
    obtain ⟨x, y, θ, rfl, hx, hy, hθ⟩ := hX
    obtain ⟨a, b, cc, hab, hsp, hww⟩ := hw t.u hmem
    obtain ⟨g0, g1⟩ := hf x y θ a b cc rfl hab h0
    have hv0 : 0 ≤ v := (speed_nonneg _).trans hsp
    -- a pose that is simulated near the end of the period and free is as asked
    have fin : ∀ (d : ℝ) (k : ℕ), StepOk d v w → d ≤ max dv dd → k < K → |T - (k + 1) * d| ≤ τ →
        collision.collisionCheck (mapOf m) (poseAfter t.u (.fin d) ⟨.fin x, .fin y, .fin θ⟩ (k + 1)) = .ok false →
        NearFree collision m ε r' := by
      intro d k hd hle hk hT hfree
      obtain ⟨x', y', θ', he, h1, h2⟩ := simulated_near hM hd hx hy hθ hsp hww hK hk hT
      have hm := simError_mono (X := X) (K := K) hv0 hle
      rw [hab] at hfree
      refine ⟨_, ⟨x', y', θ', he, ?_, ?_⟩, hfree⟩
      · have a1 := abs_le.mp h1
        have a2 := abs_le.mp g0
        rw [abs_le]; constructor <;> linarith
      · have a1 := abs_le.mp h2
        have a2 := abs_le.mp g1
        rw [abs_le]; constructor <;> linarith
    obtain ⟨m1, m2, p', hm1, hm2, hp', hsafe⟩ := C114_safe h hs t.u hmem
    have hpp : p' = ⟨.fin x, .fin y, .fin θ⟩ := by
      rw [poses_append, show poses [Event.tick tf draws] = [⟨.fin x, .fin y, .fin θ⟩] by simp [poses, hp]] at hp'
      simpa using hp'.symm
    subst hpp
    have e1 : m1 = m := hmaps m1 (by
      have := List.mem_of_getLast? hm1
      rw [maps_append] at this
      rw [maps_append, Slots.all, asEvents_append, maps_append]
      simp only [List.mem_append] at this ⊢
      tauto)
    have e2 : m2 = m := hmaps m2 (List.mem_of_getLast? hm2)
    subst e1
    rw [e2] at hsafe
    rcases hsafe with ⟨n, hn, hk⟩ | ⟨hf', -⟩ | hz'
    · obtain ⟨n', k, hn', hkn, hkK, hT⟩ := hTv
      rw [hn, Res.ok.injEq] at hn'
      subst hn'
      exact fin dv k hv (le_max_left _ _) hkK hT (hk k hkn)
    · obtain ⟨n', k, hn', hkn, hkK, hT⟩ := hTd
      rw [← hdt, hsteps, Res.ok.injEq] at hn'
      subst hn'
      refine fin dd k hd (le_max_right _ _) hkK hT ?_
      rw [← hcol, ← hdt]
      exact hf' k hkn
    · exact absurd (by rw [hz']; simp) h0
  · rw [hq.1 hu]; exact hr

theorem drivenR_safe (hM : AccurateTrig M) (hcol : dwa.collision = collision)
    (hdt : dwa.dt = .fin dd) (hsteps : numSteps dwa.horizon dwa.dt = .ok dwa.steps)
    (hv : StepOk dv v w) (hd : StepOk dd v w) (hK : K ≤ 2 ^ 40)
    (hTv : NearInstant T τ K dv val_horizon) (hTd : NearInstant T τ K dd dwa.horizon) (m : OccupancyGrid (RDbl M))
    {l : Option ((ℝ × ℝ) × V3 (RDbl M) × List (V3 (RDbl M)))} {rs : List (ℝ × ℝ)} {ε : ℝ} (hδ : δ ≤ ε)
    (hε : η + v * τ + simError v (max dv dd) X K ≤ ε)
    (hdr : DrivenR T δ η (Expl.start ec collision dwa target frame (.fin dv) val_horizon).1 es os t l rs) :
    (∀ m' ∈ maps es, m' = m) → (∀ o ∈ os, ∀ u ∈ twists o, Slow v w u) → (∀ p ∈ poses es, Located X p) →
    (∀ p, (poses es).head? = some p → collision.collisionCheck (mapOf m) p = .ok false) →
    (∀ r ∈ rs, NearFree collision m ε r) ∧ (l = none → poses es = []) ∧
    ∀ r p us, l = some (r, p, us) → ∀ r', Followed η T r p us r' → NearFree collision m ε r' := by
  have hposes : ∀ (es : List (Event (RDbl M))) (b : List (Callback (RDbl M))) (tf : Option (TransformMsg (RDbl M)))
      (draws : List Nat) (p : V3 (RDbl M)), (Event.tick tf draws).pose? = some p →
      poses (es ++ asEvents b ++ [.tick tf draws]) = poses es ++ [p] := by
    intro es b tf draws p hp
    rw [poses_append, poses_append, poses_asEvents, List.append_nil]
    simp [poses, hp]
  have hsub : ∀ (es : List (Event (RDbl M))) (b b' : List (Callback (RDbl M))) (e : Event (RDbl M)),
      ∀ m' ∈ maps (es ++ asEvents b), m' ∈ maps (es ++ asEvents (b ++ b') ++ [e]) := by
    intro es b b' e m' h
    rw [maps_append, maps_append, asEvents_append, maps_append]
    rw [maps_append] at h
    simp only [List.mem_append] at h ⊢
    tauto
  induction hdr with
  | nil => intro _ _ _ _; exact ⟨by simp, fun _ => rfl, by simp⟩
  | @first es os t t' tf draws c msgs g o rs r p hd' he hwi hs ih =>
    intro hmaps hw hX hfirst
    rw [hposes _ _ _ _ _ he] at hfirst hX
    have hm : ∀ m' ∈ maps (es ++ asEvents c.all), m' = m := fun m' hm' => hmaps m' (hsub _ _ _ _ m' hm')
    obtain ⟨h1, h2, -⟩ := ih (fun m' hm' => hm m' (by rw [maps_append]; simp [hm']))
      (fun o ho => hw o (by simp [ho])) (fun p hp => hX p (by simp [hp])) (by
        intro p' hp'
        apply hfirst
        rw [List.head?_append, hp']
        rfl)
    rw [h2 rfl] at hfirst
    have hfree : NearFree collision m ε r := by
      obtain ⟨x, y, θ, rfl, a, b⟩ := hwi
      exact ⟨_, ⟨x, y, θ, rfl, a.trans hδ, b.trans hδ⟩, hfirst _ rfl⟩
    refine ⟨?_, by simp, ?_⟩
    · intro r' hr'
      rw [List.mem_append, List.mem_singleton] at hr'
      rcases hr' with hr' | rfl
      · exact h1 r' hr'
      · exact hfree
    · rintro r' p' us hl
      cases hl
      intro r'' hf
      exact next_near hM hd'.trace hs hcol hdt hsteps hv hd hK hTv hTd m hm (hw o (by simp)) he (hX p (by simp)) hε
        hfree hf
  | @next es os t t' tf draws c msgs g o rs r p us r' q hd' he hwi hfo hs ih =>
    intro hmaps hw hX hfirst
    rw [hposes _ _ _ _ _ he] at hfirst hX
    have hm : ∀ m' ∈ maps (es ++ asEvents c.all), m' = m := fun m' hm' => hmaps m' (hsub _ _ _ _ m' hm')
    obtain ⟨h1, -, h3⟩ := ih (fun m' hm' => hm m' (by rw [maps_append]; simp [hm']))
      (fun o ho => hw o (by simp [ho])) (fun p hp => hX p (by simp [hp])) (by
        intro p' hp'
        apply hfirst
        rw [List.head?_append, hp']
        rfl)
    have hfree := h3 r p us rfl r' hfo
    refine ⟨?_, by simp, ?_⟩
    · intro r'' hr''
      rw [List.mem_append, List.mem_singleton] at hr''
      rcases hr'' with hr'' | rfl
      · exact h1 r'' hr''
      · exact hfree
    · rintro r'' p' us' hl
      cases hl
      intro r3 hf
      exact next_near hM hd'.trace hs hcol hdt hsteps hv hd hK hTv hTd m hm (hw o (by simp)) he (hX q (by simp)) hε
        hfree hf

end

/-- C116: in rounded arithmetic, on a map that does not change, with transforms right up to `δ` and a
robot that ends up within `η` of where a twist leads, which rests when told to, and callbacks at any
moment: at every iteration the robot is within `ε` of a pose at which the check is free, where `ε` is the
larger of `δ` and `η` plus what the robot covers in the time by which the period misses a checked instant
plus the error of the simulation.  Nothing accumulates. -/
theorem C116_closed_loop (hM : AccurateTrig M) {p : Params (RDbl M)} {n : Node (RDbl M)} {o0 : List (Out (RDbl M))}
    (hn : Node.cart p = .ok (n, o0) ∨ Node.omni p = .ok (n, o0)) {dv dd T τ δ η v w X : ℝ} {K : ℕ}
    (hdv : p.val_dt = .fin dv) (hdd : p.dwa_dt = .fin dd) (hv : StepOk dv v w) (hd : StepOk dd v w)
    (hK : K ≤ 2 ^ 40) (hTv : NearInstant T τ K dv p.val_horizon) (hTd : NearInstant T τ K dd p.dwa_horizon)
    {es : List (Event (RDbl M))} {os : List (List (Out (RDbl M)))} {t : Expl (RDbl M)}
    {l : Option ((ℝ × ℝ) × V3 (RDbl M) × List (V3 (RDbl M)))} {rs : List (ℝ × ℝ)}
    (hdr : DrivenR T δ η n.expl es os t l rs) (m : OccupancyGrid (RDbl M)) (hmaps : ∀ m' ∈ maps es, m' = m)
    (hw : ∀ o ∈ os, ∀ u ∈ twists o, Slow v w u) (hX : ∀ q ∈ poses es, Located X q)
    (hfirst : ∀ x, (poses es).head? = some x → n.expl.collision.collisionCheck (mapOf m) x = .ok false) :
    ∀ r ∈ rs, ∃ P, Within (max δ (η + v * τ + simError v (max dv dd) X K)) r P ∧
      n.expl.collision.collisionCheck (mapOf m) P = .ok false := by
  have main : ∀ (ec : ErgodicControl (RDbl M)) (collision : Collision (RDbl M)) (dwa : DynamicWindow (RDbl M))
      (target : Target (RDbl M)),
      (n.expl, o0) = Expl.start ec collision dwa target p.map_frame_id p.val_dt p.val_horizon →
      dwa.collision = collision → numSteps dwa.horizon dwa.dt = .ok dwa.steps → dwa.dt = p.dwa_dt →
      dwa.horizon = p.dwa_horizon →
      ∀ r ∈ rs, NearFree n.expl.collision m (max δ (η + v * τ + simError v (max dv dd) X K)) r := by
    intro ec collision dwa target he hc hst e1 e2
    have h1 : n.expl = (Expl.start ec collision dwa target p.map_frame_id p.val_dt p.val_horizon).1 := by
      rw [← he]
    have h2 : n.expl.collision = collision := by rw [h1]; rfl
    rw [h2] at hfirst ⊢
    rw [h1, hdv] at hdr
    rw [← e2] at hTd
    exact (drivenR_safe hM hc (e1.trans hdd) hst hv hd hK hTv hTd m (le_max_left _ _) (le_max_right _ _) hdr hmaps
      hw hX hfirst).1
  have win : ∀ {c : Collision (RDbl M)} {ay ylo yhi : RDbl M} {ny : UInt32} {dwa : DynamicWindow (RDbl M)},
      DynamicWindow.new c p.dwa_dt p.dwa_horizon p.acc_dt p.acc_lim_x ay p.acc_lim_th
        p.max_vel_x p.min_vel_x yhi ylo p.max_rot_vel p.min_rot_vel p.vx_samples ny p.vth_samples = .ok dwa →
      dwa.collision = c ∧ numSteps dwa.horizon dwa.dt = .ok dwa.steps ∧ dwa.dt = p.dwa_dt ∧
      dwa.horizon = p.dwa_horizon := by
    intro c ay ylo yhi ny dwa h
    simp only [DynamicWindow.new, Res.bind_eq_ok, Res.ok.injEq] at h
    obtain ⟨k, hk, rfl⟩ := h
    exact ⟨rfl, hk, rfl, rfl⟩
  rcases hn with hn | hn
  · obtain ⟨_, _, target, collision, ec, dwa, -, hdw, he, -⟩ := cart_ok hn
    obtain ⟨a, b, c, d⟩ := win hdw
    exact main ec collision dwa target he a b c d
  · obtain ⟨_, _, _, target, collision, ec, dwa, -, hdw, he, -⟩ := omni_ok hn
    obtain ⟨a, b, c, d⟩ := win hdw
    exact main ec collision dwa target he a b c d

end Ergodic
