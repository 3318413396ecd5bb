import Verif.Model.Interleaving
import Verif.Props.Collision

/-! # The interleaved collision search as a scan with a changing map -/

namespace Ergodic
variable {F : Type} [Flt F]

/-- `scan` with the map changing between the cells; every cell takes two accesses, the second one
reads the value. -/
def scanI (occ : Nat → Int → Int → Bool) :
    List (Int × Int) → CollisionConfig → Nat → Bool × CollisionConfig × Nat
  | [], cfg, t => (false, cfg, t)
  | p :: l, cfg, t =>
    if occ (t + 1) (cfg.cy + p.2) (cfg.cx + p.1) then
      if p.1 * p.1 + p.2 * p.2 ≤ cfg.r_col * cfg.r_col then (true, note cfg p.1 p.2, t + 2)
      else scanI occ l (note cfg p.1 p.2) (t + 2)
    else scanI occ l cfg (t + 2)

theorem scanI_same (occ : Nat → Int → Int → Bool) (l : List (Int × Int)) :
    ∀ cfg t, SameSearch (scanI occ l cfg t).2.1 cfg := by
  induction l with
  | nil => intro cfg t; exact SameSearch.refl _
  | cons p l ih =>
    intro cfg t
    rw [scanI]
    split_ifs
    · exact note_same _ _ _
    · exact (ih _ _).trans (note_same _ _ _)
    · exact ih _ _

theorem scanI_append (occ : Nat → Int → Int → Bool) (l m : List (Int × Int)) :
    ∀ cfg t, scanI occ (l ++ m) cfg t =
      if (scanI occ l cfg t).1 then scanI occ l cfg t
      else scanI occ m (scanI occ l cfg t).2.1 (scanI occ l cfg t).2.2 := by
  induction l with
  | nil => intro cfg t; simp [scanI]
  | cons p l ih =>
    intro cfg t
    rw [List.cons_append, scanI, scanI]
    split_ifs <;> simp_all

theorem scanI_single_time (occ : Nat → Int → Int → Bool) (p : Int × Int) (cfg : CollisionConfig) (t : Nat) :
    (scanI occ [p] cfg t).2.2 = t + 2 := by
  simp only [scanI]
  split_ifs <;> rfl

/-- a hit was seen at some access -/
theorem scanI_hit (occ : Nat → Int → Int → Bool) (l : List (Int × Int)) :
    ∀ cfg t, (scanI occ l cfg t).1 = true → ∃ p ∈ l, ∃ s, occ s (cfg.cy + p.2) (cfg.cx + p.1) = true ∧
      p.1 * p.1 + p.2 * p.2 ≤ cfg.r_col * cfg.r_col := by
  induction l with
  | nil => intro cfg t h; simp [scanI] at h
  | cons p l ih =>
    intro cfg t h
    have hn := note_same cfg p.1 p.2
    rw [scanI] at h
    split_ifs at h with h1 h2
    · exact ⟨p, by simp, _, h1, h2⟩
    · obtain ⟨q, hq, s, ho, hd⟩ := ih _ _ h
      rw [hn.2.2.2.1, hn.2.2.2.2] at ho
      rw [hn.2.1] at hd
      exact ⟨q, by simp [hq], s, ho, hd⟩
    · obtain ⟨q, hq, s, ho, hd⟩ := ih _ _ h
      exact ⟨q, by simp [hq], s, ho, hd⟩

/-- a cell that is occupied all the time is hit -/
theorem scanI_constant (occ : Nat → Int → Int → Bool) (l : List (Int × Int)) (p : Int × Int) :
    ∀ cfg t, p ∈ l → (∀ s, occ s (cfg.cy + p.2) (cfg.cx + p.1) = true) →
      p.1 * p.1 + p.2 * p.2 ≤ cfg.r_col * cfg.r_col → (scanI occ l cfg t).1 = true := by
  induction l with
  | nil => intro cfg t h; simp at h
  | cons q l ih =>
    intro cfg t hp ho hd
    have hn := note_same cfg q.1 q.2
    rw [scanI]
    rw [List.mem_cons] at hp
    rcases hp with rfl | hp
    · rw [if_pos (ho _), if_pos hd]
    · split_ifs
      · rfl
      · exact ih _ _ hp (by rw [hn.2.2.2.1, hn.2.2.2.2]; exact ho) (by rw [hn.2.1]; exact hd)
      · exact ih _ _ hp ho hd

/-- Two maps that differ at most in the cell values, and store a value for every cell. -/
structure SameFrame (g h : GridMap F) : Prop where
  geom : h = { g with data := h.data }
  wf : WellFormed h

theorem checkCellI_eq (c : Collision F) {g : GridMap F} {gs : Nat → GridMap F}
    (hg : ∀ t, SameFrame g (gs t)) (t : Nat) (cfg : CollisionConfig) (cj ci : UInt32) :
    c.checkCellI gs t cfg cj ci = c.checkCell (gs (t + 1)) cfg cj ci := by
  unfold Collision.checkCellI Collision.checkCell
  have h : (gs t).gridBounds ci cj = (gs (t + 1)).gridBounds ci cj := by
    rw [(hg t).geom, (hg (t + 1)).geom]
    rfl
  rw [h]

omit [Flt F] in
theorem InRange.frame {g h : GridMap F} (hs : SameFrame g h) {cfg : CollisionConfig}
    (hr : InRange g cfg) : InRange h cfg := by
  rw [hs.geom]
  exact ⟨hr.1, hr.2, hr.3, hr.4, hr.5, hr.6, hr.7, hr.8, hr.9⟩

theorem checkCellI_scan (c : Collision F) {g : GridMap F} {gs : Nat → GridMap F}
    (hg : ∀ t, SameFrame g (gs t)) (t : Nat)
    (cfg cfg' : CollisionConfig) (hs : SameSearch cfg' cfg) (hr : InRange g cfg) (dx dy : Int)
    (hdx : |dx| ≤ 32767) (hdy : |dy| ≤ 32767) (hd : dx * dx + dy * dy < 2147483648) :
    c.checkCellI gs t cfg' (i2u (cfg.cx + dx)) (i2u (cfg.cy + dy)) =
      .ok ((scanI (fun s => occB c.occupied_threshold (gs s)) [(dx, dy)] cfg' t).1,
        (scanI (fun s => occB c.occupied_threshold (gs s)) [(dx, dy)] cfg' t).2.1) := by
  rw [checkCellI_eq c hg, checkCell_scan c _ (hg (t + 1)).wf cfg cfg' hs (hr.frame (hg (t + 1))) dx dy
    hdx hdy hd]
  simp only [scan, scanI]
  split_ifs <;> rfl

theorem circleLoopI_eq (c : Collision F) {g : GridMap F} {gs : Nat → GridMap F}
    (hg : ∀ t, SameFrame g (gs t)) (r : Int) (hrm : r ≤ 32767) :
    ∀ (fuel : Nat) (x y err : Int) (cfg : CollisionConfig) (t : Nat), InRange g cfg →
      CircleInv r x y err → (-x) + (r - y) < fuel →
      c.circleLoopI gs fuel x y err cfg t =
        .ok (scanI (fun s => occB c.occupied_threshold (gs s)) ((walk fuel x y err).flatMap quad) cfg t) := by
  intro fuel
  induction fuel with
  | zero =>
    intro x y err cfg t _ h hf
    have := h.bounds; have := h.x0
    push_cast at hf; omega
  | succ n ih =>
    intro x y err cfg t hr h hf
    rw [Collision.circleLoopI, walk]
    by_cases hx : x < 0
    · rw [if_pos hx, if_pos hx]
      have hbd := h.bounds
      have hy0 := h.y0
      have hr0 := h.r0
      have hring : OnRing r (-x) y := (arc_iff_onRing (by omega) h.y0).mp h.arc
      have hdist := hring.dist (by omega)
      have habsx : |x| ≤ 32767 := abs_le.mpr ⟨by omega, by omega⟩
      have habsy : |y| ≤ 32767 := abs_le.mpr ⟨by omega, by omega⟩
      have habsx' : |-x| ≤ 32767 := by rwa [abs_neg]
      have habsy' : |-y| ≤ 32767 := by rwa [abs_neg]
      have hsq : x * x + y * y < 2147483648 := by nlinarith
      have hsq1 : -x * -x + y * y < 2147483648 := by nlinarith
      have hsq2 : -y * -y + -x * -x < 2147483648 := by nlinarith
      have hsq3 : x * x + -y * -y < 2147483648 := by nlinarith
      have hsq4 : y * y + x * x < 2147483648 := by nlinarith
      have hprog := circleStep_progress h
      have hinv := circleInv_step h hx
      have hlist : quad (x, y) ++ (walk n (circleStep x y err).1 (circleStep x y err).2.1
            (circleStep x y err).2.2).flatMap quad =
          [(-x, y)] ++ ([(-y, -x)] ++ ([(x, -y)] ++ ([(y, x)] ++
            (walk n (circleStep x y err).1 (circleStep x y err).2.1
              (circleStep x y err).2.2).flatMap quad))) := rfl
      rw [List.flatMap_cons, hlist, scanI_append, scanI_append, scanI_append, scanI_append]
      generalize hocc : (fun s => occB c.occupied_threshold (gs s)) = occ
      have q1 := checkCellI_scan c hg t cfg cfg (SameSearch.refl _) hr (-x) y habsx' habsy hsq1
      rw [← sub_eq_add_neg, hocc] at q1
      rw [q1, Res.ok_bind]
      have s1 := scanI_same occ [(-x, y)] cfg t
      have t1 := scanI_single_time occ (-x, y) cfg t
      generalize scanI occ [(-x, y)] cfg t = r1 at s1 t1 ⊢
      obtain ⟨hit1, cfg1, _⟩ := r1
      simp only at s1 t1
      subst t1
      cases hit1
      · have q2 := checkCellI_scan c hg (t + 2) cfg cfg1 s1 hr (-y) (-x) habsy' habsx' hsq2
        rw [← sub_eq_add_neg, ← sub_eq_add_neg, hocc] at q2
        simp only [Bool.false_eq_true, if_false, q2, Res.ok_bind]
        have s2 := (scanI_same occ [(-y, -x)] cfg1 (t + 2)).trans s1
        have t2 := scanI_single_time occ (-y, -x) cfg1 (t + 2)
        generalize scanI occ [(-y, -x)] cfg1 (t + 2) = r2 at s2 t2 ⊢
        obtain ⟨hit2, cfg2, _⟩ := r2
        simp only at s2 t2
        subst t2
        cases hit2
        · have q3 := checkCellI_scan c hg (t + 2 + 2) cfg cfg2 s2 hr x (-y) habsx habsy' hsq3
          rw [← sub_eq_add_neg, hocc] at q3
          rw [show t + 4 = t + 2 + 2 by omega]
          simp only [Bool.false_eq_true, if_false, q3, Res.ok_bind]
          have s3 := (scanI_same occ [(x, -y)] cfg2 (t + 2 + 2)).trans s2
          have t3 := scanI_single_time occ (x, -y) cfg2 (t + 2 + 2)
          generalize scanI occ [(x, -y)] cfg2 (t + 2 + 2) = r3 at s3 t3 ⊢
          obtain ⟨hit3, cfg3, _⟩ := r3
          simp only at s3 t3
          subst t3
          cases hit3
          · have q4 := checkCellI_scan c hg (t + 2 + 2 + 2) cfg cfg3 s3 hr y x habsy habsx hsq4
            rw [hocc] at q4
            rw [show t + 6 = t + 2 + 2 + 2 by omega]
            simp only [Bool.false_eq_true, if_false, q4, Res.ok_bind]
            have s4 := (scanI_same occ [(y, x)] cfg3 (t + 2 + 2 + 2)).trans s3
            have t4 := scanI_single_time occ (y, x) cfg3 (t + 2 + 2 + 2)
            generalize scanI occ [(y, x)] cfg3 (t + 2 + 2 + 2) = r4 at s4 t4 ⊢
            obtain ⟨hit4, cfg4, _⟩ := r4
            simp only at s4 t4
            subst t4
            rw [show t + 8 = t + 2 + 2 + 2 + 2 by omega]
            cases hit4
            · simp only [Bool.false_eq_true, if_false]
              rw [← hocc, ← ih _ _ _ cfg4 _ (hr.same s4) hinv (by push_cast at hf; omega)]
              rfl
            · rfl
          · rfl
        · rfl
      · rfl
    · rw [if_neg hx, if_neg hx]
      rfl

theorem circleI_eq (c : Collision F) {g : GridMap F} {gs : Nat → GridMap F}
    (hg : ∀ t, SameFrame g (gs t)) (r : Int)
    (hrm : r ≤ 32767) (cfg : CollisionConfig) (t : Nat) (hr : InRange g cfg) :
    c.circleLoopI gs (2 * r.toNat + 2) (-r) 0 (2 - 2 * r) cfg t =
      .ok (scanI (fun s => occB c.occupied_threshold (gs s)) (ring r) cfg t) := by
  rcases le_or_gt 1 r with h | h
  · exact circleLoopI_eq c hg r hrm _ _ _ _ cfg t hr (circleInv_start h) (by push_cast; omega)
  · rw [ring_nonpos (by omega), Collision.circleLoopI, if_neg (by omega)]
    rfl

theorem searchLoopI_eq (c : Collision F) {g : GridMap F} {gs : Nat → GridMap F}
    (hg : ∀ t, SameFrame g (gs t)) :
    ∀ (n : Nat) (r : Int) (cfg : CollisionConfig) (t : Nat), InRange g cfg →
      (cfg.r_max - r + 1).toNat = n →
      c.searchLoopI gs (n + 1) r cfg t =
        .ok (scanI (fun s => occB c.occupied_threshold (gs s)) (sweep n r) cfg t) := by
  intro n
  induction n with
  | zero =>
    intro r cfg t hr hn
    rw [Collision.searchLoopI, if_neg (by omega)]
    rfl
  | succ n ih =>
    intro r cfg t hr hn
    rw [Collision.searchLoopI, if_pos (by omega),
      circleI_eq c hg r (by have := hr.r_max; omega) cfg t hr, Res.ok_bind, sweep, scanI_append]
    have s1 := scanI_same (fun s => occB c.occupied_threshold (gs s)) (ring r) cfg t
    generalize scanI (fun s => occB c.occupied_threshold (gs s)) (ring r) cfg t = t1 at s1 ⊢
    obtain ⟨hit1, cfg1, t1⟩ := t1
    cases hit1
    · simp only [Bool.false_eq_true, if_false]
      exact ih (r + 1) cfg1 t1 (hr.same s1) (by have := s1.2.2.1; simp only at this; omega)
    · rfl

/-- The whole check is a scan when only cell values change. -/
theorem collisionCheckI_eq (c : Collision F) {g : GridMap F} {gs : Nat → GridMap F}
    (hg : ∀ t, SameFrame g (gs t)) (pose : V3 F) (cfg : CollisionConfig)
    (hcfg : c.config g pose = .ok cfg) (hr : InRange g cfg) :
    c.collisionCheckI gs pose = .ok (scanI (fun s => occB c.occupied_threshold (gs s))
      (sweep (cfg.r_max - cfg.r_bnd + 1).toNat cfg.r_bnd) cfg 4).1 := by
  have hres : ∀ t, (gs t).resolution = g.resolution := fun t => by rw [(hg t).geom]
  have hw2 : (gs 0).world2Grid pose.c0 pose.c1 = g.world2Grid pose.c0 pose.c1 := by
    rw [(hg 0).geom]; rfl
  unfold Collision.config at hcfg
  unfold Collision.collisionCheckI
  rw [hres, hres, hres, hw2]
  simp only [Res.bind_eq_ok] at hcfg
  obtain ⟨psg, h1, rb, h2, rc, h3, rm, h4, h5⟩ := hcfg
  rw [Res.ok.injEq] at h5
  subst h5
  simp only [h1, h2, h3, h4, Res.ok_bind]
  rw [searchLoopI_eq c hg _ _ _ _ hr rfl, Res.ok_bind]

/-! ## Reading the same map all the time -/

theorem circleLoopI_const (c : Collision F) (g : GridMap F) :
    ∀ (fuel : Nat) (x y err : Int) (cfg : CollisionConfig) (t : Nat),
      (c.circleLoopI (fun _ => g) fuel x y err cfg t >>= fun r => .ok (r.1, r.2.1)) =
        c.circleLoop g fuel x y err cfg := by
  intro fuel
  induction fuel with
  | zero => intro x y err cfg t; rfl
  | succ n ih =>
    intro x y err cfg t
    have hcell : ∀ t cfg cj ci, c.checkCellI (fun _ => g) t cfg cj ci = c.checkCell g cfg cj ci :=
      fun _ _ _ _ => rfl
    rw [Collision.circleLoopI, Collision.circleLoop]
    simp only [hcell]
    by_cases hx : x < 0
    · rw [if_pos hx, if_pos hx]
      cases c.checkCell g cfg (i2u (cfg.cx - x)) (i2u (cfg.cy + y)) with
      | ok r1 =>
        obtain ⟨hit1, cfg1⟩ := r1
        cases hit1
        · simp only [Res.ok_bind, Bool.false_eq_true, if_false]
          cases c.checkCell g cfg1 (i2u (cfg.cx - y)) (i2u (cfg.cy - x)) with
          | ok r2 =>
            obtain ⟨hit2, cfg2⟩ := r2
            cases hit2
            · simp only [Res.ok_bind, Bool.false_eq_true, if_false]
              cases c.checkCell g cfg2 (i2u (cfg.cx + x)) (i2u (cfg.cy - y)) with
              | ok r3 =>
                obtain ⟨hit3, cfg3⟩ := r3
                cases hit3
                · simp only [Res.ok_bind, Bool.false_eq_true, if_false]
                  cases c.checkCell g cfg3 (i2u (cfg.cx + y)) (i2u (cfg.cy + x)) with
                  | ok r4 =>
                    obtain ⟨hit4, cfg4⟩ := r4
                    cases hit4
                    · simp only [Res.ok_bind, Bool.false_eq_true, if_false]
                      exact ih _ _ _ _ _
                    · rfl
                  | _ => rfl
                · rfl
              | _ => rfl
            · rfl
          | _ => rfl
        · rfl
      | _ => rfl
    · rw [if_neg hx, if_neg hx]
      rfl

theorem searchLoopI_const (c : Collision F) (g : GridMap F) :
    ∀ (n : Nat) (r : Int) (cfg : CollisionConfig) (t : Nat),
      (c.searchLoopI (fun _ => g) n r cfg t >>= fun r => .ok (r.1, r.2.1)) = c.searchLoop g n r cfg := by
  intro n
  induction n with
  | zero => intro r cfg t; rfl
  | succ n ih =>
    intro r cfg t
    rw [Collision.searchLoopI, Collision.searchLoop, Collision.bresenhamCircle,
      ← circleLoopI_const c g _ _ _ _ _ t]
    split
    · cases c.circleLoopI (fun _ => g) (2 * r.toNat + 2) (-r) 0 (2 - 2 * r) cfg t with
      | ok q =>
        obtain ⟨hit, cfg', t'⟩ := q
        cases hit
        · simp only [Res.ok_bind, Bool.false_eq_true, if_false]
          exact ih _ _ _
        · rfl
      | _ => rfl
    · rfl

theorem collisionCheckI_const (c : Collision F) (g : GridMap F) (pose : V3 F) :
    c.collisionCheckI (fun _ => g) pose = c.collisionCheck g pose := by
  unfold Collision.collisionCheckI Collision.collisionCheck Collision.config Collision.search
  cases g.world2Grid pose.c0 pose.c1 with
  | ok psg =>
    simp only [Res.ok_bind]
    cases castI32 (Flt.floor (c.boundary_radius /. g.resolution)) with
    | ok rb =>
      simp only [Res.ok_bind]
      cases castI32 (Flt.floor ((c.boundary_radius +. c.obstacle_threshold) /. g.resolution)) with
      | ok rc =>
        simp only [Res.ok_bind]
        cases castI32 (Flt.floor (c.search_radius /. g.resolution)) with
        | ok rm =>
          simp only [Res.ok_bind, ← searchLoopI_const c g _ _ _ 4]
          cases c.searchLoopI (fun _ => g) ((rm - rb + 1).toNat + 1) rb
            { r_bnd := rb, r_col := rc, r_max := rm, cx := u2i psg.2, cy := u2i psg.1 } 4 <;> rfl
        | _ => rfl
      | _ => rfl
    | _ => rfl
  | _ => rfl

end Ergodic
