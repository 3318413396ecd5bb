import Verif.Lemmas.Circle
import Verif.Lemmas.Grid
import Verif.Props.Grid

/-!
# The collision search as a scan over a list of offsets
-/

namespace Ergodic
variable {F : Type} [Flt F]

open Classical in
/-- `Occupied` as a Boolean. -/
noncomputable def occB (thr : F) (g : GridMap F) (i j : Int) : Bool := decide (Occupied thr g i j)

/-- Record an obstacle cell at offset `(dx, dy)` if it is nearer than the recorded one. -/
def note (cfg : CollisionConfig) (dx dy : Int) : CollisionConfig :=
  if dx * dx + dy * dy < cfg.sqrd_obs ∨ cfg.sqrd_obs = -1 then
    { cfg with sqrd_obs := dx * dx + dy * dy, dx := dx, dy := dy }
  else cfg

/-- Go through the offsets, recording the nearest obstacle, until one collides. -/
def scan (occ : Int → Int → Bool) :
    List (Int × Int) → CollisionConfig → Bool × CollisionConfig
  | [], cfg => (false, cfg)
  | p :: t, cfg =>
    if occ (cfg.cy + p.2) (cfg.cx + p.1) then
      if p.1 * p.1 + p.2 * p.2 ≤ cfg.r_col * cfg.r_col then (true, note cfg p.1 p.2)
      else scan occ t (note cfg p.1 p.2)
    else scan occ t cfg

/-- All offsets tested by `search`, in order: `n` circles starting at radius `r`. -/
def sweep : Nat → Int → List (Int × Int)
  | 0, _ => []
  | n + 1, r => ring r ++ sweep n (r + 1)

/-! ### Fixed part of the configuration -/

/-- Two configurations that differ at most in the recorded obstacle. -/
def SameSearch (a b : CollisionConfig) : Prop :=
  a.r_bnd = b.r_bnd ∧ a.r_col = b.r_col ∧ a.r_max = b.r_max ∧ a.cx = b.cx ∧ a.cy = b.cy

theorem SameSearch.refl (a : CollisionConfig) : SameSearch a a := ⟨rfl, rfl, rfl, rfl, rfl⟩

theorem SameSearch.trans {a b c : CollisionConfig} (h : SameSearch a b) (h' : SameSearch b c) :
    SameSearch a c :=
  ⟨h.1.trans h'.1, h.2.1.trans h'.2.1, h.2.2.1.trans h'.2.2.1, h.2.2.2.1.trans h'.2.2.2.1,
    h.2.2.2.2.trans h'.2.2.2.2⟩

theorem note_same (cfg : CollisionConfig) (dx dy : Int) : SameSearch (note cfg dx dy) cfg := by
  unfold note; split_ifs <;> exact ⟨rfl, rfl, rfl, rfl, rfl⟩

theorem scan_same (occ : Int → Int → Bool) (l : List (Int × Int)) :
    ∀ cfg, SameSearch (scan occ l cfg).2 cfg := by
  induction l with
  | nil => intro cfg; exact SameSearch.refl _
  | cons p t ih =>
    intro cfg
    rw [scan]
    split_ifs
    · exact note_same _ _ _
    · exact (ih _).trans (note_same _ _ _)
    · exact ih _

omit [Flt F] in
theorem InRange.same {g : GridMap F} {a b : CollisionConfig} (h : InRange g b)
    (hs : SameSearch a b) : InRange g a := by
  obtain ⟨_, _, h3, h4, h5⟩ := hs
  obtain ⟨a1, a2, a3, a4, a5, a6, a7, a8, a9⟩ := h
  exact ⟨by rw [h4]; exact a1, by rw [h5]; exact a2, by rw [h4]; exact a3, by rw [h5]; exact a4,
    a5, a6, a7, a8, by rw [h3]; exact a9⟩

/-! ### One cell -/

theorem i2u_toNat {n : Int} (h0 : 0 ≤ n) (h1 : n < 4294967296) : ((i2u n).toNat : Int) = n := by
  unfold i2u
  rw [ofNat_toNat (by omega)]
  omega

theorem i2u_toNat_neg {n : Int} (h0 : n < 0) (h1 : -4294967296 ≤ n) :
    ((i2u n).toNat : Int) = n + 4294967296 := by
  unfold i2u
  rw [ofNat_toNat (by omega)]
  omega

theorem i2u_sub (a b : Int) : i2u a - i2u b = i2u (a - b) := by
  apply UInt32.toNat_inj.mp
  rw [UInt32.toNat_sub]
  unfold i2u
  rw [ofNat_toNat (by omega), ofNat_toNat (by omega), ofNat_toNat (by omega)]
  omega

theorem i2u_add (a b : Int) : i2u a + i2u b = i2u (a + b) := by
  apply UInt32.toNat_inj.mp
  rw [UInt32.toNat_add]
  unfold i2u
  rw [ofNat_toNat (by omega), ofNat_toNat (by omega), ofNat_toNat (by omega)]
  omega

theorem i2u_mul (a b : Int) : i2u a * i2u b = i2u (a * b) := by
  apply UInt32.toNat_inj.mp
  rw [UInt32.toNat_mul]
  unfold i2u
  rw [ofNat_toNat (by omega), ofNat_toNat (by omega), ofNat_toNat (by omega)]
  zify
  rw [Int.toNat_of_nonneg (by omega), Int.toNat_of_nonneg (by omega),
    Int.toNat_of_nonneg (by omega)]
  exact (Int.mul_emod a b _).symm

theorem u2i_i2u {n : Int} (h0 : -2147483648 ≤ n) (h1 : n < 2147483648) : u2i (i2u n) = n := by
  unfold u2i
  rcases lt_or_ge n 0 with h | h
  · have := i2u_toNat_neg h (by omega)
    rw [if_neg (by omega)]; omega
  · have := i2u_toNat h (by omega)
    rw [if_pos (by omega)]; omega

theorem i2u_u2i (u : UInt32) : i2u (u2i u) = u := by
  apply UInt32.toNat_inj.mp
  have := u.toNat_lt
  unfold i2u u2i
  rw [ofNat_toNat (by omega)]
  split_ifs <;> omega

/-- The bounds test and the read of one offset agree with `Occupied`. -/
theorem checkCell_eq (c : Collision F) (g : GridMap F) (hw : WellFormed g)
    (cfg : CollisionConfig) (hr : InRange g cfg) (dx dy : Int) (hdx : |dx| ≤ 32767)
    (hdy : |dy| ≤ 32767) (hd : dx * dx + dy * dy < 2147483648) :
    c.checkCell g cfg (i2u (cfg.cx + dx)) (i2u (cfg.cy + dy)) =
      .ok (if occB c.occupied_threshold g (cfg.cy + dy) (cfg.cx + dx) then
             (decide (dx * dx + dy * dy ≤ cfg.r_col * cfg.r_col), note cfg dx dy)
           else (false, cfg)) := by
  obtain ⟨cx0, cy0, cx1, cy1, x0, y0, hxs, hys, -⟩ := hr
  rw [abs_le] at hdx hdy
  have hx0 : g.xsize ≠ 0 := uint32_pos_iff.mpr (by omega)
  have hy0 : g.ysize ≠ 0 := uint32_pos_iff.mpr (by omega)
  unfold Collision.checkCell
  have hb := C02_gridBounds_exact_partial g hx0 hy0 (i2u (cfg.cy + dy)) (i2u (cfg.cx + dx))
  by_cases hin : 0 ≤ cfg.cy + dy ∧ cfg.cy + dy < g.ysize.toNat ∧ 0 ≤ cfg.cx + dx ∧
      cfg.cx + dx < g.xsize.toNat
  · obtain ⟨i0, i1, j0, j1⟩ := hin
    have hi := i2u_toNat i0 (by omega)
    have hj := i2u_toNat j0 (by omega)
    have hcell : IsCell g (i2u (cfg.cy + dy)) (i2u (cfg.cx + dx)) := ⟨by omega, by omega⟩
    obtain ⟨v, hv, hget⟩ := C11_getCell_exists g hw _ _ hcell
    rw [if_pos (hb.mpr hcell), hget]
    have hv' : cellAt g (cfg.cy + dy).toNat (cfg.cx + dx).toNat = some v := by
      rw [← hv]; congr <;> omega
    have hocc : occB c.occupied_threshold g (cfg.cy + dy) (cfg.cx + dx) =
        !(Flt.lt (Flt.ofInt v.toInt /. lit 100 0 : F) c.occupied_threshold) := by
      unfold occB Occupied
      rw [hv']
      cases hlt : Flt.lt (Flt.ofInt v.toInt /. lit 100 0 : F) c.occupied_threshold <;>
        simp_all
    rw [hocc]
    simp only [Res.ok_bind]
    cases hlt : Flt.lt (Flt.ofInt v.toInt /. lit 100 0 : F) c.occupied_threshold
    · simp only [Bool.false_eq_true, not_false_eq_true, if_true, Bool.not_false]
      have e1 : i2u cfg.cx - i2u (cfg.cx + dx) = i2u (-dx) := by rw [i2u_sub]; congr 1; ring
      have e2 : i2u cfg.cy - i2u (cfg.cy + dy) = i2u (-dy) := by rw [i2u_sub]; congr 1; ring
      have e3 : i2u (cfg.cx + dx) - i2u cfg.cx = i2u dx := by rw [i2u_sub]; congr 1; ring
      have e4 : i2u (cfg.cy + dy) - i2u cfg.cy = i2u dy := by rw [i2u_sub]; congr 1; ring
      have e5 : u2i (i2u (-dx) * i2u (-dx) + i2u (-dy) * i2u (-dy)) = dx * dx + dy * dy := by
        rw [i2u_mul, i2u_mul, i2u_add, neg_mul_neg, neg_mul_neg]
        exact u2i_i2u (by nlinarith [mul_self_nonneg dx, mul_self_nonneg dy]) hd
      rw [e1, e2, e3, e4, e5, u2i_i2u (n := dx) (by omega) (by omega),
        u2i_i2u (n := dy) (by omega) (by omega)]
      rfl
    · simp
  · have hnc : ¬ IsCell g (i2u (cfg.cy + dy)) (i2u (cfg.cx + dx)) := by
      rintro ⟨h1, h2⟩
      apply hin
      refine ⟨?_, ?_, ?_, ?_⟩
      · by_contra hc
        have := i2u_toNat_neg (n := cfg.cy + dy) (by omega) (by omega); omega
      · by_contra hc
        have := i2u_toNat (n := cfg.cy + dy) (by omega) (by omega); omega
      · by_contra hc
        have := i2u_toNat_neg (n := cfg.cx + dx) (by omega) (by omega); omega
      · by_contra hc
        have := i2u_toNat (n := cfg.cx + dx) (by omega) (by omega); omega
    rw [if_neg (fun h => hnc (hb.mp h))]
    have : occB c.occupied_threshold g (cfg.cy + dy) (cfg.cx + dx) = false := by
      unfold occB Occupied
      rw [decide_eq_false_iff_not]
      rintro ⟨h1, h2, h3, h4, -⟩
      exact hin ⟨h1, h2, h3, h4⟩
    rw [this]; rfl

theorem scan_append (occ : Int → Int → Bool) (l m : List (Int × Int)) :
    ∀ cfg, scan occ (l ++ m) cfg =
      if (scan occ l cfg).1 then scan occ l cfg else scan occ m (scan occ l cfg).2 := by
  induction l with
  | nil => intro cfg; simp [scan]
  | cons p t ih =>
    intro cfg
    rw [List.cons_append, scan, scan]
    split_ifs <;> simp_all

/-- One test of the circle sweep is one step of the scan. -/
theorem checkCell_scan (c : Collision F) (g : GridMap F) (hw : WellFormed g)
    (cfg cfg' : CollisionConfig) (hs : SameSearch cfg' cfg) (hr : InRange g cfg) (dx dy : Int)
    (hdx : |dx| ≤ 32767) (hdy : |dy| ≤ 32767) (hd : dx * dx + dy * dy < 2147483648) :
    c.checkCell g cfg' (i2u (cfg.cx + dx)) (i2u (cfg.cy + dy)) =
      .ok (scan (occB c.occupied_threshold g) [(dx, dy)] cfg') := by
  rw [← hs.2.2.2.1, ← hs.2.2.2.2, checkCell_eq c g hw cfg' (hr.same hs) dx dy hdx hdy hd]
  simp only [scan]
  split_ifs with h1 h2
  · simp [h2]
  · simp [h2]
  · rfl

theorem circleLoop_eq (c : Collision F) (g : GridMap F) (hw : WellFormed g) (r : Int)
    (hrm : r ≤ 32767) :
    ∀ (fuel : Nat) (x y err : Int) (cfg : CollisionConfig), InRange g cfg →
      CircleInv r x y err → (-x) + (r - y) < fuel →
      c.circleLoop g fuel x y err cfg =
        .ok (scan (occB c.occupied_threshold g) ((walk fuel x y err).flatMap quad) cfg) := by
  intro fuel
  induction fuel with
  | zero =>
    intro x y err cfg _ h hf
    have := h.bounds; have := h.x0
    push_cast at hf; omega
  | succ n ih =>
    intro x y err cfg hr h hf
    rw [Collision.circleLoop, walk]
    by_cases hx : x < 0
    · rw [if_pos hx, if_pos hx]
      have hbd := h.bounds
      have hy0 := h.y0
      have hr0 := h.r0
      have hring : OnRing r (-x) y := (arc_iff_onRing (by omega) h.y0).mp h.arc
      have hdist := hring.dist (by omega)
      have habsx : |x| ≤ 32767 := abs_le.mpr ⟨by omega, by omega⟩
      have habsy : |y| ≤ 32767 := abs_le.mpr ⟨by omega, by omega⟩
      have habsx' : |-x| ≤ 32767 := by rwa [abs_neg]
      have habsy' : |-y| ≤ 32767 := by rwa [abs_neg]
      have hsq : x * x + y * y < 2147483648 := by nlinarith
      have hsq1 : -x * -x + y * y < 2147483648 := by nlinarith
      have hsq2 : -y * -y + -x * -x < 2147483648 := by nlinarith
      have hsq3 : x * x + -y * -y < 2147483648 := by nlinarith
      have hsq4 : y * y + x * x < 2147483648 := by nlinarith
      have hprog := circleStep_progress h
      have hinv := circleInv_step h hx
      have hlist : quad (x, y) ++ (walk n (circleStep x y err).1 (circleStep x y err).2.1
            (circleStep x y err).2.2).flatMap quad =
          [(-x, y)] ++ ([(-y, -x)] ++ ([(x, -y)] ++ ([(y, x)] ++
            (walk n (circleStep x y err).1 (circleStep x y err).2.1
              (circleStep x y err).2.2).flatMap quad))) := rfl
      rw [List.flatMap_cons, hlist, scan_append, scan_append, scan_append, scan_append]
      have q1 := checkCell_scan c g hw cfg cfg (SameSearch.refl _) hr (-x) y habsx' habsy hsq1
      rw [← sub_eq_add_neg] at q1
      rw [q1, Res.ok_bind]
      have s1 := scan_same (occB c.occupied_threshold g) [(-x, y)] cfg
      generalize scan (occB c.occupied_threshold g) [(-x, y)] cfg = t1 at s1 ⊢
      obtain ⟨hit1, cfg1⟩ := t1
      cases hit1
      · have q2 := checkCell_scan c g hw cfg cfg1 s1 hr (-y) (-x) habsy' habsx' hsq2
        rw [← sub_eq_add_neg, ← sub_eq_add_neg] at q2
        simp only [Bool.false_eq_true, if_false, q2, Res.ok_bind]
        have s2 := (scan_same (occB c.occupied_threshold g) [(-y, -x)] cfg1).trans s1
        generalize scan (occB c.occupied_threshold g) [(-y, -x)] cfg1 = t2 at s2 ⊢
        obtain ⟨hit2, cfg2⟩ := t2
        cases hit2
        · have q3 := checkCell_scan c g hw cfg cfg2 s2 hr x (-y) habsx habsy' hsq3
          rw [← sub_eq_add_neg] at q3
          simp only [Bool.false_eq_true, if_false, q3, Res.ok_bind]
          have s3 := (scan_same (occB c.occupied_threshold g) [(x, -y)] cfg2).trans s2
          generalize scan (occB c.occupied_threshold g) [(x, -y)] cfg2 = t3 at s3 ⊢
          obtain ⟨hit3, cfg3⟩ := t3
          cases hit3
          · have q4 := checkCell_scan c g hw cfg cfg3 s3 hr y x habsy habsx hsq4
            simp only [Bool.false_eq_true, if_false, q4, Res.ok_bind]
            have s4 := (scan_same (occB c.occupied_threshold g) [(y, x)] cfg3).trans s3
            generalize scan (occB c.occupied_threshold g) [(y, x)] cfg3 = t4 at s4 ⊢
            obtain ⟨hit4, cfg4⟩ := t4
            cases hit4
            · simp only [Bool.false_eq_true, if_false]
              rw [← ih _ _ _ cfg4 (hr.same s4) hinv (by push_cast at hf; omega)]
              rfl
            · rfl
          · rfl
        · rfl
      · rfl
    · rw [if_neg hx, if_neg hx]
      rfl


theorem bresenhamCircle_eq (c : Collision F) (g : GridMap F) (hw : WellFormed g) (r : Int)
    (hrm : r ≤ 32767) (cfg : CollisionConfig) (hr : InRange g cfg) :
    c.bresenhamCircle g cfg r = .ok (scan (occB c.occupied_threshold g) (ring r) cfg) := by
  unfold Collision.bresenhamCircle
  rcases le_or_gt 1 r with h | h
  · exact circleLoop_eq c g hw r hrm _ _ _ _ cfg hr (circleInv_start h) (by push_cast; omega)
  · rw [ring_nonpos (by omega), Collision.circleLoop, if_neg (by omega)]
    rfl

theorem searchLoop_eq (c : Collision F) (g : GridMap F) (hw : WellFormed g) :
    ∀ (n : Nat) (r : Int) (cfg : CollisionConfig), InRange g cfg →
      (cfg.r_max - r + 1).toNat = n →
      c.searchLoop g (n + 1) r cfg = .ok (scan (occB c.occupied_threshold g) (sweep n r) cfg) := by
  intro n
  induction n with
  | zero =>
    intro r cfg hr hn
    rw [Collision.searchLoop, if_neg (by omega)]
    rfl
  | succ n ih =>
    intro r cfg hr hn
    rw [Collision.searchLoop, if_pos (by omega),
      bresenhamCircle_eq c g hw r (by have := hr.r_max; omega) cfg hr, Res.ok_bind, sweep,
      scan_append]
    have s1 := scan_same (occB c.occupied_threshold g) (ring r) cfg
    generalize scan (occB c.occupied_threshold g) (ring r) cfg = t1 at s1 ⊢
    obtain ⟨hit1, cfg1⟩ := t1
    cases hit1
    · simp only [Bool.false_eq_true, if_false]
      exact ih (r + 1) cfg1 (hr.same s1) (by have := s1.2.2.1; simp only at this; omega)
    · rfl

/-- The whole search is a scan. -/
theorem search_eq (c : Collision F) (g : GridMap F) (hw : WellFormed g) (cfg : CollisionConfig)
    (hr : InRange g cfg) :
    c.search g cfg = .ok (scan (occB c.occupied_threshold g)
      (sweep (cfg.r_max - cfg.r_bnd + 1).toNat cfg.r_bnd) cfg) :=
  searchLoop_eq c g hw _ _ cfg hr rfl

theorem mem_sweep {n : Nat} {r dx dy : Int} :
    (dx, dy) ∈ sweep n r ↔ ∃ k, 1 ≤ k ∧ r ≤ k ∧ k < r + n ∧ OnRing k dx dy := by
  induction n generalizing r with
  | zero =>
    simp only [sweep, List.not_mem_nil, false_iff]
    rintro ⟨k, h1, h2, h3, -⟩
    omega
  | succ n ih =>
    rw [sweep, List.mem_append, ih]
    constructor
    · rintro (h | ⟨k, h1, h2, h3, h4⟩)
      · rcases le_or_gt 1 r with hr | hr
        · exact ⟨r, hr, le_refl _, by push_cast; omega, (mem_ring_iff hr).mp h⟩
        · rw [ring_nonpos (by omega)] at h; simp at h
      · exact ⟨k, h1, by omega, by push_cast; omega, h4⟩
    · rintro ⟨k, h1, h2, h3, h4⟩
      rcases eq_or_lt_of_le h2 with rfl | h
      · exact Or.inl ((mem_ring_iff h1).mpr h4)
      · exact Or.inr ⟨k, h1, by omega, by push_cast at h3; omega, h4⟩

/-- Offsets a search with this configuration looks at. -/
def Visited (cfg : CollisionConfig) (dx dy : Int) : Prop :=
  ∃ r, 1 ≤ r ∧ cfg.r_bnd ≤ r ∧ r ≤ cfg.r_max ∧ OnRing r dx dy

theorem mem_sweep_cfg {cfg : CollisionConfig} {dx dy : Int} :
    (dx, dy) ∈ sweep (cfg.r_max - cfg.r_bnd + 1).toNat cfg.r_bnd ↔ Visited cfg dx dy := by
  rw [mem_sweep]
  unfold Visited
  constructor <;> rintro ⟨k, h1, h2, h3, h4⟩ <;> exact ⟨k, h1, h2, by omega, h4⟩

/-! ### Result of a scan -/

theorem scan_fst (occ : Int → Int → Bool) (l : List (Int × Int)) :
    ∀ cfg, (scan occ l cfg).1 = true ↔
      ∃ p ∈ l, occ (cfg.cy + p.2) (cfg.cx + p.1) = true ∧
        p.1 * p.1 + p.2 * p.2 ≤ cfg.r_col * cfg.r_col := by
  induction l with
  | nil => intro cfg; simp [scan]
  | cons p t ih =>
    intro cfg
    have hn := note_same cfg p.1 p.2
    rw [scan]
    split_ifs with h1 h2
    · simp [h1, h2]
    · rw [ih, hn.2.1, hn.2.2.2.1, hn.2.2.2.2]
      simp [h1, h2]
    · rw [ih]
      simp [h1]

/-- The recorded obstacle is either nothing, or an obstacle at that offset; nothing in `S`
is nearer. -/
structure Record (occ : Int → Int → Bool) (S : Int → Int → Prop) (cfg : CollisionConfig) : Prop where
  witness : cfg.sqrd_obs = -1 ∨ (S cfg.dx cfg.dy ∧ occ (cfg.cy + cfg.dy) (cfg.cx + cfg.dx) = true ∧
    cfg.sqrd_obs = cfg.dx * cfg.dx + cfg.dy * cfg.dy)
  least : ∀ dx dy, S dx dy → occ (cfg.cy + dy) (cfg.cx + dx) = true →
    cfg.sqrd_obs ≠ -1 ∧ cfg.sqrd_obs ≤ dx * dx + dy * dy

theorem note_record {occ : Int → Int → Bool} {S : Int → Int → Prop} {cfg : CollisionConfig}
    (h : Record occ S cfg) {dx dy : Int} (ho : occ (cfg.cy + dy) (cfg.cx + dx) = true) :
    Record occ (fun a b => S a b ∨ (a = dx ∧ b = dy)) (note cfg dx dy) := by
  have h0 : 0 ≤ dx * dx + dy * dy := add_nonneg (mul_self_nonneg _) (mul_self_nonneg _)
  unfold note
  split_ifs with hc
  · refine ⟨Or.inr ⟨Or.inr ⟨rfl, rfl⟩, ho, rfl⟩, ?_⟩
    rintro a b (hs | ⟨rfl, rfl⟩) hocc
    · have := h.least a b hs hocc
      simp only at *
      omega
    · simp only; omega
  · rw [not_or] at hc
    refine ⟨?_, ?_⟩
    · rcases h.witness with h1 | ⟨h1, h2, h3⟩
      · exact absurd h1 hc.2
      · exact Or.inr ⟨Or.inl h1, h2, h3⟩
    · rintro a b (hs | ⟨rfl, rfl⟩) hocc
      · exact h.least a b hs hocc
      · exact ⟨hc.2, by omega⟩

theorem scan_record (occ : Int → Int → Bool) (l : List (Int × Int)) :
    ∀ (S : Int → Int → Prop) cfg, Record occ S cfg → (scan occ l cfg).1 = false →
      Record occ (fun a b => S a b ∨ (a, b) ∈ l) (scan occ l cfg).2 := by
  induction l with
  | nil =>
    intro S cfg h _
    simpa [scan] using h
  | cons p t ih =>
    intro S cfg h hf
    rw [scan] at hf ⊢
    split_ifs at hf ⊢ with h1 h2
    · have := ih _ _ (note_record h h1) hf
      refine ⟨?_, ?_⟩
      · rcases this.witness with w | ⟨w1, w2⟩
        · exact Or.inl w
        · refine Or.inr ⟨?_, w2⟩
          rcases w1 with (w1 | ⟨w1, w3⟩) | w1
          · exact Or.inl w1
          · right; rw [w1, w3]; simp
          · exact Or.inr (List.mem_cons_of_mem _ w1)
      · rintro a b (hs | hs) hocc
        · exact this.least a b (Or.inl (Or.inl hs)) hocc
        · rcases List.mem_cons.mp hs with rfl | hs
          · exact this.least a b (Or.inl (Or.inr ⟨rfl, rfl⟩)) hocc
          · exact this.least a b (Or.inr hs) hocc
    · have := ih _ _ h hf
      refine ⟨?_, ?_⟩
      · rcases this.witness with w | ⟨w1, w2⟩
        · exact Or.inl w
        · refine Or.inr ⟨?_, w2⟩
          rcases w1 with w1 | w1
          · exact Or.inl w1
          · exact Or.inr (List.mem_cons_of_mem _ w1)
      · rintro a b (hs | hs) hocc
        · exact this.least a b (Or.inl hs) hocc
        · rcases List.mem_cons.mp hs with rfl | hs
          · have s := scan_same occ t cfg
            rw [s.2.2.2.1, s.2.2.2.2] at hocc
            exact absurd hocc h1
          · exact this.least a b (Or.inr hs) hocc

/-- Scanning again changes nothing when nothing nearer is left to find. -/
theorem scan_again (occ : Int → Int → Bool) (l : List (Int × Int)) (cfg : CollisionConfig)
    (h : ∀ p ∈ l, occ (cfg.cy + p.2) (cfg.cx + p.1) = true →
      cfg.sqrd_obs ≠ -1 ∧ cfg.sqrd_obs ≤ p.1 * p.1 + p.2 * p.2) :
    (scan occ l cfg).2 = cfg := by
  induction l with
  | nil => rfl
  | cons p t ih =>
    have hnote : occ (cfg.cy + p.2) (cfg.cx + p.1) = true → note cfg p.1 p.2 = cfg := by
      intro ho
      have := h p (by simp) ho
      unfold note
      rw [if_neg (by omega)]
    have iht := ih (fun q hq => h q (List.mem_cons_of_mem _ hq))
    rw [scan]
    split_ifs with h1 h2
    · exact hnote h1
    · rw [hnote h1]; exact iht
    · exact iht

end Ergodic
