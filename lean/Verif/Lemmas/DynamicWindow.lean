import Verif.Spec.DynamicWindow
import Verif.Lemmas.Validate
import Verif.Lemmas.Dbl
import Verif.Props.Integrator

/-! # Helper lemmas about the dynamic window search -/

namespace Ergodic
variable {F : Type} [Flt F]

noncomputable instance : StrictLt ℝ where
  irrefl a := by rw [real_lt_false]
  trans a b c h1 h2 := by rw [real_lt] at *; exact h1.trans h2
  max_close := by simp [almostEqual, fabs]

instance : StrictLt Dbl where
  irrefl a := by
    rcases a with _ | b | r
    · rfl
    · cases b <;> rfl
    · rw [Dbl.lt_fin_false]
  trans a b c h1 h2 := by
    rcases a with _ | a | a <;> rcases b with _ | b | b <;> rcases c with _ | c | c <;>
      simp_all [Flt.lt, Dbl.lt]
    linarith
  max_close := by
    show Flt.lt (fabs (Flt.sub (Dbl.fin _) (Dbl.fin _))) _ = true
    rw [Dbl.sub_fin, Dbl.fabs_fin, Dbl.lit_eq, Dbl.lt_fin]
    norm_num

/-- One evaluation of the search: `(min_cost, u_opt)` after looking at `u`. -/
def consider (cost : V3 F → Res F) (s : F × V3 F) (u : V3 F) : Res (F × V3 F) := do
  let c ← cost u
  .ok (if Flt.lt c s.1 then (c, u) else s)

theorem stride_succ (x dx : F) (k : Nat) : stride x dx (k + 1) = stride (x +. dx) dx k := rfl

theorem stride_real (x dx : ℝ) (k : Nat) : stride x dx k = x + k * dx := by
  induction k generalizing x with
  | zero => simp [stride]
  | succ k ih => rw [stride_succ, ih]; simp only [real_add]; push_cast; ring

theorem wLoop_eq (cost : V3 F → Res F) (vx vy dw : F) (n : Nat) (w : F) (s : F × V3 F) :
    DynamicWindow.wLoop cost vx vy dw n w s =
      ((List.range n).map fun k : Nat => (⟨vx, vy, stride w dw k⟩ : V3 F)).foldlM
        (consider cost) s := by
  induction n generalizing w s with
  | zero => rfl
  | succ n ih =>
    rw [List.range_succ_eq_map, List.map_cons, List.foldlM_cons, List.map_map]
    simp only [DynamicWindow.wLoop, consider]
    have h0 : stride w dw 0 = w := rfl
    rw [h0]
    cases hc : cost ⟨vx, vy, w⟩ <;> simp only [Res.ok_bind, Res.throw_bind, Res.ub_bind,
      Res.timeout_bind]
    rw [ih]
    rfl

theorem vyLoop_eq (cost : V3 F → Res F) (vx w0 dvy dw : F) (nw n : Nat) (vy : F)
    (s : F × V3 F) :
    DynamicWindow.vyLoop cost vx w0 dvy dw nw n vy s =
      ((List.range n).flatMap fun j : Nat => (List.range nw).map fun k : Nat =>
        (⟨vx, stride vy dvy j, stride w0 dw k⟩ : V3 F)).foldlM (consider cost) s := by
  induction n generalizing vy s with
  | zero => rfl
  | succ n ih =>
    rw [List.range_succ_eq_map, List.flatMap_cons, List.foldlM_append, List.flatMap_map]
    simp only [DynamicWindow.vyLoop]
    rw [wLoop_eq]
    have h0 : stride vy dvy 0 = vy := rfl
    rw [h0]
    congr 1
    funext s'
    rw [ih]
    rfl

theorem vxLoop_eq (cost : V3 F → Res F) (vy0 w0 dvx dvy dw : F) (ny nw n : Nat) (vx : F)
    (s : F × V3 F) :
    DynamicWindow.vxLoop cost vy0 w0 dvx dvy dw ny nw n vx s =
      (sampleList ⟨vx, vy0, w0⟩ ⟨dvx, dvy, dw⟩ n ny nw).foldlM (consider cost) s := by
  unfold sampleList
  induction n generalizing vx s with
  | zero => rfl
  | succ n ih =>
    rw [List.range_succ_eq_map, List.flatMap_cons, List.foldlM_append, List.flatMap_map]
    simp only [DynamicWindow.vxLoop]
    rw [vyLoop_eq]
    have h0 : stride vx dvx 0 = vx := rfl
    simp only [h0]
    congr 1
    funext s'
    rw [ih]
    rfl

theorem mem_visited (d : DynamicWindow F) (vb u : V3 F) :
    u ∈ visited d vb ↔ IsSample d vb u := by
  simp only [visited, sampleList, List.mem_flatMap, List.mem_map, List.mem_range, IsSample]
  constructor
  · rintro ⟨i, hi, j, hj, k, hk, rfl⟩; exact ⟨i, hi, j, hj, k, hk, rfl⟩
  · rintro ⟨i, hi, j, hj, k, hk, rfl⟩; exact ⟨i, hi, j, hj, k, hk, rfl⟩

theorem searchWindow_eq (d : DynamicWindow F) (vb : V3 F) (cost : V3 F → Res F) :
    d.searchWindow vb cost =
      ((visited d vb).foldlM (consider cost) (Flt.maxFin, V3.zero) >>= fun s =>
        if almostEqual s.1 Flt.maxFin then .ok (false, s.2) else .ok (true, s.2)) := by
  simp only [DynamicWindow.searchWindow, vxLoop_eq]
  rfl

theorem foldlM_consider_congr {c1 c2 : V3 F → Res F} (l : List (V3 F))
    (h : ∀ u ∈ l, c1 u = c2 u) (s : F × V3 F) :
    l.foldlM (consider c1) s = l.foldlM (consider c2) s := by
  induction l generalizing s with
  | nil => rfl
  | cons a l ih =>
    simp only [List.foldlM_cons, consider, h a (by simp)]
    congr 1
    funext s'
    exact ih (fun u hu => h u (by simp [hu])) s'

/-- The state after looking at a list of twists, in any arithmetic with a strict `<`:
either nothing beat the initial cost, or the state is the first twist of least cost. -/
theorem foldlM_consider [StrictLt F] {cost : V3 F → Res F} (l : List (V3 F))
    (s r : F × V3 F) (h : l.foldlM (consider cost) s = .ok r) :
    (∀ v ∈ l, ∃ c, cost v = .ok c ∧ Flt.lt c r.1 = false) ∧
    (r = s ∨ (Flt.lt r.1 s.1 = true ∧ ∃ l1 l2, l = l1 ++ r.2 :: l2 ∧ cost r.2 = .ok r.1 ∧
      ∀ v ∈ l1, cost v ≠ .ok r.1)) := by
  induction l generalizing s with
  | nil =>
    simp only [List.foldlM_nil, Res.pure_eq, Res.ok.injEq] at h
    subst h
    exact ⟨by simp, Or.inl rfl⟩
  | cons a l ih =>
    rw [List.foldlM_cons] at h
    obtain ⟨s', hs', h⟩ := Res.bind_eq_ok.mp h
    obtain ⟨c, hc, hs'⟩ := Res.bind_eq_ok.mp hs'
    simp only [Res.ok.injEq] at hs'
    obtain ⟨i1, i2⟩ := ih s' h
    by_cases hlt : Flt.lt c s.1 = true
    · rw [if_pos hlt] at hs'
      subst hs'
      rcases i2 with rfl | ⟨h1, l1, l2, rfl, h3, h4⟩
      · refine ⟨?_, Or.inr ⟨hlt, [], l, rfl, hc, by simp⟩⟩
        intro v hv
        rcases List.mem_cons.mp hv with rfl | hv
        · exact ⟨c, hc, StrictLt.irrefl c⟩
        · exact i1 v hv
      · refine ⟨?_, Or.inr ⟨StrictLt.trans _ _ _ h1 hlt, a :: l1, l2, rfl, h3, ?_⟩⟩
        · intro v hv
          rcases List.mem_cons.mp hv with rfl | hv
          · refine ⟨c, hc, ?_⟩
            by_contra hcon
            have := StrictLt.trans _ _ _ (by simpa using hcon) h1
            rw [StrictLt.irrefl] at this
            cases this
          · exact i1 v hv
        · intro v hv
          rcases List.mem_cons.mp hv with rfl | hv
          · rw [hc]
            intro hcon
            simp only [Res.ok.injEq] at hcon
            rw [← hcon, StrictLt.irrefl] at h1
            cases h1
          · exact h4 v hv
    · rw [if_neg hlt] at hs'
      subst hs'
      have hlt' : Flt.lt c s.1 = false := by simpa using hlt
      rcases i2 with rfl | ⟨h1, l1, l2, rfl, h3, h4⟩
      · refine ⟨?_, Or.inl rfl⟩
        intro v hv
        rcases List.mem_cons.mp hv with rfl | hv
        · exact ⟨c, hc, hlt'⟩
        · exact i1 v hv
      · refine ⟨?_, Or.inr ⟨h1, a :: l1, l2, rfl, h3, ?_⟩⟩
        · intro v hv
          rcases List.mem_cons.mp hv with rfl | hv
          · refine ⟨c, hc, ?_⟩
            by_contra hcon
            have := StrictLt.trans _ _ _ (by simpa using hcon) h1
            rw [hlt'] at this
            cases this
          · exact i1 v hv
        · intro v hv
          rcases List.mem_cons.mp hv with rfl | hv
          · rw [hc]
            intro hcon
            simp only [Res.ok.injEq] at hcon
            rw [hcon, h1] at hlt'
            cases hlt'
          · exact h4 v hv

/-- A total cost makes the search total. -/
theorem foldlM_consider_total {cost : V3 F → Res F} (l : List (V3 F))
    (h : ∀ v ∈ l, ∃ c, cost v = .ok c) (s : F × V3 F) :
    ∃ r, l.foldlM (consider cost) s = .ok r := by
  induction l generalizing s with
  | nil => exact ⟨s, rfl⟩
  | cons a l ih =>
    obtain ⟨c, hc⟩ := h a (by simp)
    rw [List.foldlM_cons]
    simp only [consider, hc, Res.ok_bind]
    exact ih (fun v hv => h v (by simp [hv])) _

theorem rollout_none (d : DynamicWindow F) (g : GridMap F) (u : V3 F) (n : Nat) (x : V3 F) :
    d.rollout g u n x = .ok none ↔
      ∀ k < n, d.collision.collisionCheck g (poseAfter u d.dt x (k + 1)) = .ok false := by
  induction n generalizing x with
  | zero => simp [DynamicWindow.rollout]
  | succ n ih =>
    have hs : d.rollout g u (n + 1) x =
        (d.collision.collisionCheck g (stepPose u d.dt x) >>= fun hit =>
          if hit then .ok (some Flt.maxFin) else d.rollout g u n (stepPose u d.dt x)) := rfl
    rw [hs, Res.bind_eq_ok]
    constructor
    · rintro ⟨b, hb, h⟩
      cases b
      · simp only [Bool.false_eq_true, if_false] at h
        intro k hk
        cases k with
        | zero => exact hb
        | succ k => exact (ih _).mp h k (by omega)
      · simp at h
    · intro h
      refine ⟨false, h 0 (by omega), ?_⟩
      simp only [Bool.false_eq_true, if_false]
      exact (ih _).mpr fun k hk => h (k + 1) (by omega)

theorem rollout_some (d : DynamicWindow F) (g : GridMap F) (u : V3 F) (n : Nat) (x : V3 F)
    (c : F) :
    d.rollout g u n x = .ok (some c) ↔ c = Flt.maxFin ∧
      ∃ k < n, d.collision.collisionCheck g (poseAfter u d.dt x (k + 1)) = .ok true ∧
        ∀ l < k, d.collision.collisionCheck g (poseAfter u d.dt x (l + 1)) = .ok false := by
  induction n generalizing x with
  | zero => simp [DynamicWindow.rollout]
  | succ n ih =>
    have hs : d.rollout g u (n + 1) x =
        (d.collision.collisionCheck g (stepPose u d.dt x) >>= fun hit =>
          if hit then .ok (some Flt.maxFin) else d.rollout g u n (stepPose u d.dt x)) := rfl
    rw [hs, Res.bind_eq_ok]
    constructor
    · rintro ⟨b, hb, h⟩
      cases b
      · simp only [Bool.false_eq_true, if_false] at h
        obtain ⟨hc, k, hk, hit, hl⟩ := (ih _).mp h
        refine ⟨hc, k + 1, by omega, hit, fun l hlk => ?_⟩
        cases l with
        | zero => exact hb
        | succ l => exact hl l (by omega)
      · simp only [if_true, Res.ok.injEq, Option.some.injEq] at h
        exact ⟨h.symm, 0, by omega, hb, by omega⟩
    · rintro ⟨rfl, k, hk, hit, hl⟩
      cases k with
      | zero => exact ⟨true, hit, rfl⟩
      | succ k =>
        refine ⟨false, hl 0 (by omega), ?_⟩
        simp only [Bool.false_eq_true, if_false]
        exact (ih _).mpr ⟨rfl, k, by omega, hit, fun l hlk => hl (l + 1) (by omega)⟩

theorem not_free_of_hit {d : DynamicWindow F} {g : GridMap F} {x0 u : V3 F}
    (h : HitRollout d g x0 u) : ¬ FreeRollout d g x0 u := by
  intro hf
  obtain ⟨k, hk, hit, -⟩ := h
  rw [hf k hk] at hit
  simp at hit

/-- The twist objective: the sentinel on a collision, otherwise the squared error. -/
theorem objectiveTwist_ok (d : DynamicWindow F) (g : GridMap F) (x0 vref u : V3 F) (c : F) :
    d.objectiveTwist g x0 vref u = .ok c ↔
      (FreeRollout d g x0 u ∧ c = (vref.sub u).dot (vref.sub u)) ∨
      (HitRollout d g x0 u ∧ c = Flt.maxFin) := by
  simp only [DynamicWindow.objectiveTwist, Res.bind_eq_ok]
  constructor
  · rintro ⟨o, ho, h⟩
    cases o with
    | none =>
      simp only [Res.ok.injEq] at h
      exact Or.inl ⟨(rollout_none d g u _ x0).mp ho, h.symm⟩
    | some c' =>
      simp only [Res.ok.injEq] at h
      obtain ⟨h1, h2⟩ := (rollout_some d g u _ x0 c').mp ho
      exact Or.inr ⟨h2, by rw [← h, h1]⟩
  · rintro (⟨h1, rfl⟩ | ⟨h1, rfl⟩)
    · exact ⟨none, (rollout_none d g u _ x0).mpr h1, rfl⟩
    · exact ⟨some Flt.maxFin, (rollout_some d g u _ x0 _).mpr ⟨rfl, h1⟩, rfl⟩

/-! ## The trajectory objective over the reals -/

theorem abs_toReal_of_range {x : ℝ} (h0 : -Real.pi ≤ x) (h1 : x < Real.pi) :
    |(x : Real.Angle).toReal| = |x| := by
  rcases eq_or_lt_of_le h0 with h | h
  · rw [← h, Real.Angle.coe_neg, Real.Angle.neg_coe_pi, Real.Angle.toReal_pi, abs_neg]
  · rw [Real.Angle.toReal_coe_eq_self_iff.mpr ⟨h, h1.le⟩]

theorem angle_coe_of_same {a b : ℝ} (h : SameHeading a b) : (a : Real.Angle) = b := by
  obtain ⟨k, hk⟩ := h
  rw [Real.Angle.angle_eq_iff_two_pi_dvd_sub]
  exact ⟨k, by linarith⟩

theorem headingGap_eq (a b : ℝ) :
    |normalizeAnglePI (normalizeAnglePI a - b)| = |((a - b : ℝ) : Real.Angle).toReal| := by
  obtain ⟨h0, h1⟩ := C13_range (normalizeAnglePI a - b)
  rw [← abs_toReal_of_range h0 h1, angle_coe_of_same (C13_same_direction _),
    Real.Angle.coe_sub, angle_coe_of_same (C13_same_direction a), ← Real.Angle.coe_sub]

theorem lastCol_real (n : Nat) (hn : 1 ≤ n) :
    (Flt.ofInt (DynamicWindow.lastCol n) : ℝ) = (n : ℝ) - 1 := by
  simp only [DynamicWindow.lastCol, real_ofInt]
  rw [if_neg (by omega)]
  push_cast
  ring

theorem round_refIndex (n : Nat) (hn : 1 ≤ n) {t tf : ℝ} (ht : 0 ≤ t) (htf : 0 < tf) :
    Flt.round (Flt.ofInt (DynamicWindow.lastCol n) *. t /. tf : ℝ) = (refIndex n t tf : ℝ) := by
  rw [lastCol_real n hn]
  simp only [real_mul, real_div, real_round]
  have hn' : (1:ℝ) ≤ n := by exact_mod_cast hn
  have h0 : 0 ≤ ((n:ℝ) - 1) * t / tf := by
    apply div_nonneg (mul_nonneg (by linarith) ht) htf.le
  rw [realRound, if_pos h0, refIndex]
  exact (natCast_floor_eq_intCast_floor (by linarith)).symm

/-- Looking up the reference at time `t`: the nearest column when it exists, and never a
value when it does not. -/
theorem refCol_ok (ref : List (V3 ℝ)) (hn : 1 ≤ ref.length) (hN : ref.length ≤ 2 ^ 32)
    {t tf : ℝ} (ht : 0 ≤ t) (htf : 0 < tf) (xr : V3 ℝ) :
    (castU32 (Flt.round (Flt.ofInt (DynamicWindow.lastCol ref.length) *. t /. tf : ℝ)) >>=
      fun j => col ref j.toNat) = .ok xr ↔
    refIndex ref.length t tf < ref.length ∧
      xr = ref.getD (refIndex ref.length t tf) V3.zero := by
  rw [round_refIndex _ hn ht htf]
  generalize refIndex ref.length t tf = j
  by_cases hj : j < 2 ^ 32
  · rw [castU32_natCast hj, Res.ok_bind, UInt32.toNat_ofNat_of_lt' (by simpa [UInt32.size] using hj)]
    simp only [col]
    by_cases h : j < ref.length
    · rw [List.getElem?_eq_getElem h]
      simp [h, eq_comm]
    · rw [List.getElem?_eq_none (by omega)]
      simp [h]
  · have hc : castU32 (j : ℝ) = .ub := by
      simp only [castU32, real_trunc]
      rw [realTrunc_of_nonneg (Nat.cast_nonneg j), Int.floor_natCast]
      rw [if_neg (by omega)]
    rw [hc, Res.ub_bind]
    constructor
    · intro h; cases h
    · rintro ⟨h, -⟩; omega

/-- One pass of the trajectory objective, in words of the specification. -/
theorem trajLoop_succ (d : DynamicWindow ℝ) (g : GridMap ℝ) (u : V3 ℝ) (ref : List (V3 ℝ))
    (tf : ℝ) (n : Nat) (x : V3 ℝ) (t cost : ℝ) :
    d.trajLoop g u ref tf (n + 1) x t cost =
      (d.collision.collisionCheck g (stepPose u d.dt x) >>= fun hit =>
        if hit then .ok Flt.maxFin else
          (castU32 (Flt.round (Flt.ofInt (DynamicWindow.lastCol ref.length) *. t /. tf : ℝ)) >>=
            fun j => col ref j.toNat) >>= fun xr =>
            d.trajLoop g u ref tf n (stepPose u d.dt x) (t + d.dt)
              (cost + poseGap xr (stepPose u d.dt x))) := by
  simp only [DynamicWindow.trajLoop]
  congr 1
  funext hit
  cases hit
  · simp only [Bool.false_eq_true, if_false]
    cases castU32 (Flt.round (Flt.ofInt (DynamicWindow.lastCol ref.length) *. t /. tf : ℝ)) with
    | ok j =>
      simp only [Res.ok_bind]
      congr 1
      funext xr
      congr 1
      simp only [real_add, real_sqrt, real_fabs, real_sub, poseGap, ← headingGap_eq, V2.dot,
        V2.sub, V3.xy, real_mul, stepPose, sq, ← add_assoc]
    | throw e => rfl
    | ub => rfl
    | timeout => rfl
  · rfl

theorem trajLoop_ok (d : DynamicWindow ℝ) (hdt : 0 ≤ d.dt) (g : GridMap ℝ) (u : V3 ℝ)
    (ref : List (V3 ℝ)) (hn : 1 ≤ ref.length) (hN : ref.length ≤ 2 ^ 32) {tf : ℝ} (htf : 0 < tf)
    (n : Nat) (x : V3 ℝ) {t : ℝ} (ht : 0 ≤ t) (cost c : ℝ) :
    d.trajLoop g u ref tf n x t cost = .ok c ↔
      ((∀ k < n, d.collision.collisionCheck g (poseAfter u d.dt x (k + 1)) = .ok false) ∧
        (∀ k < n, refIndex ref.length (t + k * d.dt) tf < ref.length) ∧
        c = cost + ∑ k ∈ Finset.range n,
          poseGap (ref.getD (refIndex ref.length (t + k * d.dt) tf) V3.zero)
            (poseAfter u d.dt x (k + 1))) ∨
      (c = Flt.maxFin ∧ ∃ k < n,
        d.collision.collisionCheck g (poseAfter u d.dt x (k + 1)) = .ok true ∧
        ∀ l < k, d.collision.collisionCheck g (poseAfter u d.dt x (l + 1)) = .ok false ∧
          refIndex ref.length (t + l * d.dt) tf < ref.length) := by
  induction n generalizing x t cost with
  | zero => simp [DynamicWindow.trajLoop, eq_comm]
  | succ n ih =>
    have hshift : ∀ k : Nat, t + ((k + 1 : Nat) : ℝ) * d.dt = t + d.dt + k * d.dt := by
      intro k; push_cast; ring
    have h1 : poseAfter u d.dt x 1 = stepPose u d.dt x := rfl
    rw [trajLoop_succ, Res.bind_eq_ok]
    constructor
    · rintro ⟨b, hb, h⟩
      cases b
      · simp only [Bool.false_eq_true, if_false] at h
        obtain ⟨xr, hxr, h⟩ := Res.bind_eq_ok.mp h
        obtain ⟨hj, rfl⟩ := (refCol_ok ref hn hN ht htf xr).mp hxr
        rcases (ih _ (by linarith) _).mp h with ⟨i1, i2, i3⟩ | ⟨rfl, k, hk, hit, hl⟩
        · refine Or.inl ⟨?_, ?_, ?_⟩
          · intro k hk
            cases k with
            | zero => exact hb
            | succ k => exact i1 k (by omega)
          · intro k hk
            cases k with
            | zero => simpa using hj
            | succ k => rw [hshift]; exact i2 k (by omega)
          · rw [i3, Finset.sum_range_succ', add_assoc, add_comm (Finset.sum _ _)]
            simp only [hshift, Nat.cast_zero, zero_mul, add_zero, Nat.zero_add, h1]
            rfl
        · refine Or.inr ⟨rfl, k + 1, by omega, hit, ?_⟩
          intro l hlk
          cases l with
          | zero => exact ⟨hb, by simpa using hj⟩
          | succ l => rw [hshift]; exact hl l (by omega)
      · simp only [if_true, Res.ok.injEq] at h
        exact Or.inr ⟨h.symm, 0, by omega, hb, by omega⟩
    · rintro (⟨i1, i2, i3⟩ | ⟨rfl, k, hk, hit, hl⟩)
      · refine ⟨false, i1 0 (by omega), ?_⟩
        simp only [Bool.false_eq_true, if_false]
        rw [Res.bind_eq_ok]
        refine ⟨_, (refCol_ok ref hn hN ht htf _).mpr ⟨by simpa using i2 0 (by omega), rfl⟩, ?_⟩
        refine (ih _ (by linarith) _).mpr (Or.inl ⟨fun k hk => i1 (k + 1) (by omega), ?_, ?_⟩)
        · intro k hk
          rw [← hshift]; exact i2 (k + 1) (by omega)
        · rw [i3, Finset.sum_range_succ', add_assoc, add_comm (Finset.sum _ _)]
          simp only [hshift, Nat.cast_zero, zero_mul, add_zero, Nat.zero_add, h1]
          rfl
      · cases k with
        | zero => exact ⟨true, hit, rfl⟩
        | succ k =>
          obtain ⟨hb, hj⟩ := hl 0 (by omega)
          refine ⟨false, hb, ?_⟩
          simp only [Bool.false_eq_true, if_false]
          rw [Res.bind_eq_ok]
          refine ⟨_, (refCol_ok ref hn hN ht htf _).mpr ⟨by simpa using hj, rfl⟩, ?_⟩
          refine (ih _ (by linarith) _).mpr (Or.inr ⟨rfl, k, by omega, hit, ?_⟩)
          intro l hlk
          rw [← hshift]; exact hl (l + 1) (by omega)

end Ergodic
