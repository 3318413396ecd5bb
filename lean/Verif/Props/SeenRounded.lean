import Verif.Spec.SeenRounded
import Verif.Props.Seen
import Verif.Props.RoundedBayes
import Verif.Props.Shipped

/-!
# C128: C36 and C118 with rounding

With a library whose `log` and `exp` are right to forty bits, a scan makes of every cell what Bayes' rule makes of it,
beam by beam, up to one per cent at each beam; and what the scans show is an obstacle and is avoided.
-/

namespace Ergodic
variable {M : Machine}

/-! ## One beam -/

theorem learns_of_roundsDown {s : ℝ} {c v : Int} (h : RoundsDown (100 * posterior ((c : ℝ) / 100) s) v) (h0 : 0 ≤ v)
    (he : c = 0 ∨ c = 100 → v = c) : Learns s c v := by
  have f0 := Int.floor_le (100 * posterior ((c : ℝ) / 100) s)
  have f1 := Int.lt_floor_add_one (100 * posterior ((c : ℝ) / 100) s)
  rcases h with h | ⟨h1, h⟩
  · refine ⟨?_, ?_, h0, he⟩ <;> rw [h] <;> linarith
  · refine ⟨?_, ?_, h0, he⟩ <;> rw [h] <;> push_cast <;> linarith

theorem learns_occ {c c' : Int} (h0 : 0 ≤ c) :
    Learns 0.9 c c' → 900 * c ≤ (c' + 1) * (100 + 8 * c) ∧ c' * (100 + 8 * c) ≤ 900 * c := by
  rintro ⟨a, b, -, -⟩
  rw [occ_quot h0] at a b
  have hd : (0 : ℝ) < ((100 + 8 * c : Int) : ℝ) := by exact_mod_cast (by omega : 0 < 100 + 8 * c)
  rw [sub_le_iff_le_add, div_le_iff₀ hd] at a
  rw [le_div_iff₀ hd] at b
  exact ⟨by exact_mod_cast a, by exact_mod_cast b⟩

theorem learns_free {c c' : Int} (h0 : 0 ≤ c) (h1 : c ≤ 100) :
    Learns 0.35 c c' → 700 * c ≤ (c' + 1) * (1300 - 6 * c) ∧ c' * (1300 - 6 * c) ≤ 700 * c := by
  rintro ⟨a, b, -, -⟩
  rw [free_quot h0 h1] at a b
  have hd : (0 : ℝ) < ((1300 - 6 * c : Int) : ℝ) := by exact_mod_cast (by omega : 0 < 1300 - 6 * c)
  rw [sub_le_iff_le_add, div_le_iff₀ hd] at a
  rw [le_div_iff₀ hd] at b
  exact ⟨by exact_mod_cast a, by exact_mod_cast b⟩

/-- Evidence of a beam's end never lowers a percentage, and keeps it a percentage. -/
theorem learns_occ_range {c c' : Int} (h0 : 0 ≤ c) (h1 : c ≤ 100) (h : Learns 0.9 c c') : 0 ≤ c' ∧ c' ≤ 100 := by
  obtain ⟨-, b⟩ := learns_occ h0 h
  refine ⟨h.2.2.1, ?_⟩
  by_contra hc
  have : 101 * (100 + 8 * c) ≤ c' * (100 + 8 * c) := mul_le_mul_of_nonneg_right (by omega) (by omega)
  omega

theorem learns_free_range {c c' : Int} (h0 : 0 ≤ c) (h1 : c ≤ 100) (h : Learns 0.35 c c') : 0 ≤ c' ∧ c' ≤ c := by
  obtain ⟨-, b⟩ := learns_free h0 h1 h
  refine ⟨h.2.2.1, ?_⟩
  by_contra hc
  have : (c + 1) * (1300 - 6 * c) ≤ c' * (1300 - 6 * c) := mul_le_mul_of_nonneg_right (by omega) (by omega)
  nlinarith

theorem evidence_append {src : UInt32 × UInt32} {x y : Int} {l l' : List (UInt32 × UInt32)} {a b c : Int}
    (h : Evidence src x y l a b) (h' : Evidence src x y l' b c) : Evidence src x y (l ++ l') a c := by
  induction h with
  | nil => exact h'
  | hit e k _ ih => exact .hit e k (ih h')
  | pass e k _ ih => exact .pass e k (ih h')
  | other e k _ ih => exact .other e k (ih h')

theorem evidence_split {src : UInt32 × UInt32} {x y : Int} {l' : List (UInt32 × UInt32)} {c : Int} :
    ∀ {l : List (UInt32 × UInt32)} {a : Int}, Evidence src x y (l ++ l') a c →
      ∃ b, Evidence src x y l a b ∧ Evidence src x y l' b c := by
  intro l
  induction l with
  | nil => intro a h; exact ⟨a, .nil a, h⟩
  | cons p t ih =>
    intro a h
    rw [List.cons_append] at h
    cases h with
    | hit e k r => obtain ⟨b, h1, h2⟩ := ih r; exact ⟨b, .hit e k h1, h2⟩
    | pass e k r => obtain ⟨b, h1, h2⟩ := ih r; exact ⟨b, .pass e k h1, h2⟩
    | other e k r => obtain ⟨b, h1, h2⟩ := ih r; exact ⟨b, .other e k h1, h2⟩

theorem evidence_range {src : UInt32 × UInt32} {x y : Int} {l : List (UInt32 × UInt32)} {a b : Int}
    (h : Evidence src x y l a b) : 0 ≤ a → a ≤ 100 → 0 ≤ b ∧ b ≤ 100 := by
  induction h with
  | nil c => exact fun h0 h1 => ⟨h0, h1⟩
  | hit e k _ ih =>
    intro h0 h1
    have := learns_occ_range h0 h1 k
    exact ih this.1 this.2
  | pass e k _ ih =>
    intro h0 h1
    have := learns_free_range h0 h1 k
    exact ih this.1 (by omega)
  | other _ _ _ ih => exact ih

/-- A beam that ends elsewhere makes no cell more occupied. -/
theorem evidence_one {src : UInt32 × UInt32} {x y : Int} {h : UInt32 × UInt32} {a b : Int}
    (he : Evidence src x y [h] a b) (h0 : 0 ≤ a) (h1 : a ≤ 100) (hn : ¬ EndsIn x y h) : b ≤ a := by
  cases he with
  | hit e _ _ => exact absurd e hn
  | pass _ k r => cases r with | nil => exact (learns_free_range h0 h1 k).2
  | other _ _ r => cases r with | nil => exact le_rfl

/-! ## The scan -/

theorem observe_learns_occ (hM : Accurate M) (Tbs : M3 (RDbl M)) {c : Int8} (hp : Pct c) :
    ∃ v, observe (OccupancyMapper.new Tbs) (OccupancyMapper.new Tbs).log_odds_occ c = .ok v ∧ Pct v ∧
      Learns 0.9 c.toInt v.toInt := by
  obtain ⟨v, h1, h2, h3⟩ := observe_occ_rd hM Tbs hp.1 hp.2
  obtain ⟨p, o, f, -, ho, hf⟩ := mapper_fin Tbs
  obtain ⟨w, hw, hwp⟩ := (keepsPct_rd Tbs c hp).2
  rw [h1, Res.ok.injEq] at hw
  subst hw
  refine ⟨v, h1, hwp, learns_of_roundsDown h2 hwp.1 fun he => ?_⟩
  rw [ho, observe_ends Tbs o c he, Res.ok.injEq] at h1
  rw [h1]

theorem observe_learns_free (hM : Accurate M) (Tbs : M3 (RDbl M)) {c : Int8} (hp : Pct c) :
    ∃ v, observe (OccupancyMapper.new Tbs) (OccupancyMapper.new Tbs).log_odds_free c = .ok v ∧ Pct v ∧
      Learns 0.35 c.toInt v.toInt := by
  obtain ⟨v, h1, h2, h3⟩ := observe_free_rd hM Tbs hp.1 hp.2
  obtain ⟨p, o, f, -, ho, hf⟩ := mapper_fin Tbs
  obtain ⟨w, hw, hwp⟩ := (keepsPct_rd Tbs c hp).1
  rw [h1, Res.ok.injEq] at hw
  subst hw
  refine ⟨v, h1, hwp, learns_of_roundsDown h2 hwp.1 fun he => ?_⟩
  rw [hf, observe_ends Tbs f c he, Res.ok.injEq] at h1
  rw [h1]

/-- The evidence of a beam on one cell. -/
theorem cellFold_learns (hM : Accurate M) (Tbs : M3 (RDbl M)) (src : UInt32 × UInt32)
    (hit : Option (UInt32 × UInt32)) (x y : Int) {c : Int8} (hp : Pct c) :
    ∃ c', cellFold (OccupancyMapper.new Tbs) x y (beamUpd (OccupancyMapper.new Tbs) src hit) c = .ok c' ∧ Pct c' ∧
      Evidence src x y hit.toList c.toInt c'.toInt := by
  cases hit with
  | none => exact ⟨c, rfl, hp, .nil _⟩
  | some h =>
    simp only [beamUpd]
    rw [cellFold_append, cellFold_markFree _ _ _ _ (rayCells_nodup _ _ _ _)]
    by_cases he : x = h.2.toNat ∧ y = h.1.toNat
    · rw [if_neg (by rw [mem_rayCells]; rintro ⟨_, hne⟩; exact hne (by rw [he.1, he.2]))]
      simp only [Res.ok_bind, cellFold]
      obtain ⟨v, h1, h2, h3⟩ := observe_learns_occ hM Tbs hp
      rw [if_pos he, h1]
      exact ⟨v, rfl, h2, .hit he h3 (.nil _)⟩
    · have hne : (x, y) ≠ ((h.2.toNat : Int), (h.1.toNat : Int)) := by
        intro hh; rw [Prod.mk.injEq] at hh; exact he hh
      by_cases hr : OnRay src.2.toNat src.1.toNat h.2.toNat h.1.toNat x y
      · rw [if_pos (mem_rayCells.mpr ⟨hr, hne⟩)]
        obtain ⟨v, h1, h2, h3⟩ := observe_learns_free hM Tbs hp
        rw [h1]
        simp only [Res.ok_bind, cellFold]
        rw [if_neg he]
        exact ⟨v, rfl, h2, .pass ⟨he, hr⟩ h3 (.nil _)⟩
      · rw [if_neg (fun hm => hr (mem_rayCells.mp hm).1)]
        simp only [Res.ok_bind, cellFold]
        rw [if_neg he]
        exact ⟨c, rfl, hp, .other he (fun h => hr h.2) (.nil _)⟩

theorem beamLoop_learns (hM : Accurate M) (Tbs : M3 (RDbl M)) (scan : LaserScan (RDbl M)) (Tms : M3 (RDbl M))
    (src : UInt32 × UInt32) (g0 : GridMap (RDbl M)) (hsm : SmallGrid g0) (hsrc : IsCell g0 src.1 src.2) :
    ∀ (rs : List (RDbl M)) (k : Nat) (g : GridMap (RDbl M)), SameGeometry g0 g → WellFormed g → Percentages g →
      (∀ i r, rs[i]? = some r → RangeValid scan r → ∃ p, g0.world2Grid
        (beamEnd Tms scan (k + i) r).c0 (beamEnd Tms scan (k + i) r).c1 = .ok p) →
      ∃ g', (OccupancyMapper.new Tbs).beamLoop scan Tms src rs (beamAngle scan k) g = .ok g' ∧
        SameGeometry g0 g' ∧ WellFormed g' ∧ Percentages g' ∧
        ∀ x y, InGrid g0 x y → ∀ v, cellAt g y.toNat x.toNat = some v →
          ∃ v', cellAt g' y.toNat x.toNat = some v' ∧
            Evidence src x y (beamCells g0 Tms scan rs k) v.toInt v'.toInt := by
  intro rs
  induction rs with
  | nil =>
    intro k g hg hw hp _
    exact ⟨g, rfl, hg, hw, hp, fun x y _ v hv => ⟨v, hv, .nil _⟩⟩
  | cons r rs ih =>
    intro k g hg hw hp hd
    have hsm' : SmallGrid g := by unfold SameGeometry at hg; rw [hg]; exact hsm
    have hsrc' := hg.isCell.mpr hsrc
    have hd0 : RangeValid scan r → ∃ p, g.world2Grid (beamEnd Tms scan k r).c0
        (beamEnd Tms scan k r).c1 = .ok p := by
      intro hv
      have := hd 0 r (by simp) hv
      simpa [hg.world2Grid] using this
    have hb := beam_eq (OccupancyMapper.new Tbs) scan Tms hsm' hsrc' k r hd0
    have hin := beamUpd_inGrid (OccupancyMapper.new Tbs) hsrc' Tms scan k r
    obtain ⟨g1, hg1, hp1⟩ := applyUpd_total (OccupancyMapper.new Tbs) Pct _ hw hin hp
      (keepsPct_beam (keepsPct_rd Tbs) src _)
    obtain ⟨hw1, hgeo, hcell⟩ := applyUpd_spec (OccupancyMapper.new Tbs) _ hw hin hg1
    obtain ⟨g', h1, h2, h3, h4, h5⟩ := ih (k + 1) g1 (hg.trans hgeo) hw1 hp1 (by
      intro i r' hi hv
      have := hd (i + 1) r' (by simpa using hi) hv
      rwa [show k + (i + 1) = k + 1 + i by omega] at this)
    refine ⟨g', ?_, h2, h3, h4, ?_⟩
    · rw [OccupancyMapper.beamLoop, hb, hg1, Res.ok_bind]
      have : beamAngle scan (k + 1) = beamAngle scan k +. scan.angle_increment := by
        unfold beamAngle; rw [Function.iterate_succ_apply']
      rw [← this]; exact h1
    · intro x y hxy v hv
      obtain ⟨v1, hv1, hc1⟩ := hcell x y (hg.inGrid.mpr hxy) v hv
      obtain ⟨w, e1, e2, e3⟩ := cellFold_learns hM Tbs src (beamHit g Tms scan k r) x y
        (hp v (List.mem_of_getElem? hv))
      rw [e1, Res.ok.injEq] at hv1
      subst hv1
      obtain ⟨v', j1, j2⟩ := h5 x y hxy w hc1
      refine ⟨v', j1, ?_⟩
      rw [beamCells, ← hg.beamHit]
      exact evidence_append e3 j2

/-- C128 (the complete effect of a scan, with rounding): on a map of percentages every cell takes in the beams in
order, each as a Bayes update that may lose at most one per cent, and no other evidence. -/
theorem C128_evidence (hM : Accurate M) (Tbs : M3 (RDbl M)) (g : GridMap (RDbl M)) (hw : WellFormed g)
    (hsm : SmallGrid g) (hp : Percentages g) (scan : LaserScan (RDbl M)) (pose : V3 (RDbl M)) (src : UInt32 × UInt32)
    (hs : g.world2Grid pose.c0 pose.c1 = .ok src) (hc : IsCell g src.1 src.2)
    (hd : EndsConvert g (sensorPose Tbs pose) scan) :
    ∃ g', (OccupancyMapper.new Tbs).updateMap g scan pose = .ok (true, g') ∧
      SameGeometry g g' ∧ WellFormed g' ∧ Percentages g' ∧
      ∀ x y, InGrid g x y → ∀ v, cellAt g y.toNat x.toNat = some v →
        ∃ v', cellAt g' y.toNat x.toNat = some v' ∧
          Evidence src x y (beamCells g (sensorPose Tbs pose) scan scan.ranges 0) v.toInt v'.toInt := by
  have hx : g.xsize ≠ 0 := by have := hc.2; intro h; rw [h] at this; simp at this
  have hy : g.ysize ≠ 0 := by have := hc.1; intro h; rw [h] at this; simp at this
  have hb := C02_gridBounds_exact_partial g hx hy src.1 src.2
  obtain ⟨g', h1, h2, h3, h4, h5⟩ := beamLoop_learns hM Tbs scan (sensorPose Tbs pose) src g hsm hc
    scan.ranges 0 g (SameGeometry.refl _) hw hp (by simpa [EndsConvert] using hd)
  refine ⟨g', ?_, h2, h3, h4, h5⟩
  unfold OccupancyMapper.updateMap
  rw [hs, Res.ok_bind, if_neg (by simp [hb.mpr hc])]
  have : (OccupancyMapper.new Tbs).beamLoop scan
      ((transform2d pose.c0 pose.c1 pose.c2).mul (OccupancyMapper.new Tbs).Tbs) src scan.ranges
      scan.angle_min g = .ok g' := h1
  dsimp only
  rw [this]; rfl

/-! ## Few crossings: the cell is an obstacle -/

theorem learns_occ_bounds {c c' : Int} (h0 : 0 ≤ c) (h1 : c ≤ 100) (h : Learns 0.9 c c') :
    (33 ≤ c → 80 ≤ c') ∧ (48 ≤ c → 89 ≤ c') := by
  obtain ⟨a, -⟩ := learns_occ h0 h
  refine ⟨fun h => ?_, fun h => ?_⟩
  · by_contra hc
    have : (c' + 1) * (100 + 8 * c) ≤ 80 * (100 + 8 * c) := mul_le_mul_of_nonneg_right (by omega) (by omega)
    omega
  · by_contra hc
    have : (c' + 1) * (100 + 8 * c) ≤ 89 * (100 + 8 * c) := mul_le_mul_of_nonneg_right (by omega) (by omega)
    omega

theorem learns_free_bounds {c c' : Int} (h0 : 0 ≤ c) (h1 : c ≤ 100) (h : Learns 0.35 c c') :
    (48 ≤ c → 33 ≤ c') ∧ (89 ≤ c → 80 ≤ c') := by
  obtain ⟨a, -⟩ := learns_free h0 h1 h
  refine ⟨fun h => ?_, fun h => ?_⟩
  · by_contra hc
    have : (c' + 1) * (1300 - 6 * c) ≤ 33 * (1300 - 6 * c) := mul_le_mul_of_nonneg_right (by omega) (by omega)
    omega
  · by_contra hc
    have : (c' + 1) * (1300 - 6 * c) ≤ 80 * (1300 - 6 * c) := mul_le_mul_of_nonneg_right (by omega) (by omega)
    omega

/-- Lower bounds on the value of a cell, by whether it has been hit and how often it has been crossed. -/
theorem evidence_seen {src : UInt32 × UInt32} {x y : Int} {hs : List (UInt32 × UInt32)} {c c' : Int}
    (h : Evidence src x y hs c c') : 0 ≤ c → c ≤ 100 →
    (hs.countP (fun h => decide (PassesBy src x y h)) = 0 → 80 ≤ c → 80 ≤ c') ∧
    (hs.countP (fun h => decide (PassesBy src x y h)) ≤ 1 → 89 ≤ c → 80 ≤ c') ∧
    (hs.countP (fun h => decide (PassesBy src x y h)) = 0 → 33 ≤ c → (∃ h ∈ hs, EndsIn x y h) → 80 ≤ c') ∧
    (hs.countP (fun h => decide (PassesBy src x y h)) ≤ 1 → 48 ≤ c → (∃ h ∈ hs, EndsIn x y h) → 80 ≤ c') := by
  induction h with
  | nil c => intro h0 h1; refine ⟨?_, ?_, ?_, ?_⟩ <;> simp <;> omega
  | @hit h hs c c1 c' he k _ ih =>
    intro h0 h1
    have hp : ¬ PassesBy src x y h := fun hp => hp.1 he
    have hr := learns_occ_range h0 h1 k
    obtain ⟨b1, b2⟩ := learns_occ_bounds h0 h1 k
    obtain ⟨i1, i2, -, -⟩ := ih hr.1 hr.2
    simp only [List.countP_cons, List.mem_cons, exists_eq_or_imp, hp, decide_false, if_false, Bool.false_eq_true,
      Nat.add_zero]
    exact ⟨fun a b => i1 a (b1 (by omega)), fun a b => i2 a (b2 (by omega)), fun a b _ => i1 a (b1 b),
      fun a b _ => i2 a (b2 b)⟩
  | @pass h hs c c1 c' hp k _ ih =>
    intro h0 h1
    have hr := learns_free_range h0 h1 k
    obtain ⟨b1, b2⟩ := learns_free_bounds h0 h1 k
    obtain ⟨i1, -, i3, -⟩ := ih hr.1 (by omega)
    simp only [List.countP_cons, List.mem_cons, exists_eq_or_imp, hp, decide_true, if_true, hp.1, false_or]
    exact ⟨fun a b => by omega, fun a b => i1 (by omega) (b2 b), fun a b _ => by omega,
      fun a b e => i3 (by omega) (b1 b) e⟩
  | @other h hs c c' he hp _ ih =>
    intro h0 h1
    simp only [List.countP_cons, List.mem_cons, exists_eq_or_imp, hp, decide_false, if_false, Bool.false_eq_true,
      Nat.add_zero, he, false_or]
    exact ih h0 h1

/-- The shipped threshold in percent. -/
theorem occupied_rd_iff (g : GridMap (RDbl M)) (i j : Int) :
    Occupied (.fin (M.rnd (4 / 5)) : RDbl M) g i j ↔
      InGrid g j i ∧ ∃ v : Int8, cellAt g i.toNat j.toNat = some v ∧ 80 ≤ v.toInt := by
  have key : ∀ v : Int8, Flt.lt (Flt.ofInt v.toInt /. lit 100 0 : RDbl M) (.fin (M.rnd (4 / 5))) = false ↔
      80 ≤ v.toInt := by
    intro v
    have hv0 := v.le_toInt
    have hv1 := v.toInt_lt
    have h1 : (Flt.ofInt v.toInt : RDbl M) = .fin (v.toInt : ℝ) := by
      show (.fin (M.rnd ((v.toInt : Int) : ℝ)) : RDbl M) = _
      rw [M.int v.toInt (by rw [abs_le]; constructor <;> omega)]
    rw [h1, lit_hundred, RDbl.div_fin _ (by norm_num), RDbl.lt_fin_false]
    constructor
    · intro h
      by_contra hc
      have hlt : (v.toInt : ℝ) ≤ 79 := by exact_mod_cast (by omega : v.toInt ≤ 79)
      have e1 : M.rnd ((v.toInt : ℝ) / 100) ≤ M.rnd (79 / 100) := M.mono (by linarith)
      have ⟨p0, p1⟩ := rnd_at (M := M) (x := 79 / 100) le_rfl (by norm_num [abs_of_pos])
      have ⟨q0, q1⟩ := rnd_at (M := M) (x := 4 / 5) le_rfl (by norm_num [abs_of_pos])
      norm_num at p0 p1 q0 q1
      linarith
    · intro h
      apply M.mono
      have : (80 : ℝ) ≤ v.toInt := by exact_mod_cast h
      linarith
  unfold Occupied InGrid
  constructor
  · rintro ⟨a, b, c, d, v, hv, hl⟩
    exact ⟨⟨c, d, a, b⟩, v, hv, (key v).mp hl⟩
  · rintro ⟨⟨c, d, a, b⟩, v, hv, hl⟩
    exact ⟨a, b, c, d, v, hv, (key v).mpr hl⟩

/-- C128: a cell that is not thought to be free (value at least 48; unknown is 50) and in which a beam of the scan
ends, while at most one beam crosses it, is an obstacle for the shipped detector after the scan. -/
theorem C128_seen_partial (hM : Accurate M) (Tbs : M3 (RDbl M)) (g : GridMap (RDbl M)) (hw : WellFormed g)
    (hsm : SmallGrid g) (hp : Percentages g) (scan : LaserScan (RDbl M)) (pose : V3 (RDbl M)) (x y : Int)
    (hin : InGrid g x y) (v : Int8) (hv : cellAt g y.toNat x.toNat = some v) (h48 : 48 ≤ v.toInt)
    (hs : Shows Tbs g scan pose x y) :
    ∃ g', (OccupancyMapper.new Tbs).updateMap g scan pose = .ok (true, g') ∧ SameGeometry g g' ∧ WellFormed g' ∧
      Percentages g' ∧ Occupied (shippedDetector M).occupied_threshold g' y x := by
  obtain ⟨src, h1, h2, h3, h4, h5⟩ := hs
  obtain ⟨g', e1, e2, e3, e4, e5⟩ := C128_evidence hM Tbs g hw hsm hp scan pose src h1 h2 h3
  refine ⟨g', e1, e2, e3, e4, ?_⟩
  obtain ⟨v', f1, f2⟩ := e5 x y hin v hv
  refine (occupied_rd_iff g' y x).mpr ⟨e2.inGrid.mpr hin, v', f1, ?_⟩
  have hvp := hp v (List.mem_of_getElem? hv)
  exact (evidence_seen f2 hvp.1 hvp.2).2.2.2 h5 h48 h4

/-- C128 for any number of scans: as long as every scan shows the cell, it is an obstacle after each of them. -/
theorem C128_scans_partial (hM : Accurate M) (Tbs : M3 (RDbl M)) (x y : Int) :
    ∀ (l : List (LaserScan (RDbl M) × V3 (RDbl M))) (g : GridMap (RDbl M)),
    WellFormed g → SmallGrid g → Percentages g → InGrid g x y →
    (∃ v : Int8, cellAt g y.toNat x.toNat = some v ∧ 48 ≤ v.toInt) → (∀ sp ∈ l, Shows Tbs g sp.1 sp.2 x y) → l ≠ [] →
    ∃ g', runScans (OccupancyMapper.new Tbs) l g = .ok g' ∧ SameGeometry g g' ∧ WellFormed g' ∧ Percentages g' ∧
      Occupied (shippedDetector M).occupied_threshold g' y x := by
  intro l
  induction l with
  | nil => intro g _ _ _ _ _ _ h; exact absurd rfl h
  | cons sp t ih =>
    intro g hw hsm hp hin ⟨v, hv, h48⟩ hs _
    obtain ⟨g1, a1, a2, a3, a4, a5⟩ := C128_seen_partial hM Tbs g hw hsm hp sp.1 sp.2 x y hin v hv h48
      (hs sp (by simp))
    have hrun : runScans (OccupancyMapper.new Tbs) (sp :: t) g = runScans (OccupancyMapper.new Tbs) t g1 := by
      rw [runScans, a1]; rfl
    rw [hrun]
    by_cases ht : t = []
    · subst ht
      exact ⟨g1, rfl, a2, a3, a4, a5⟩
    · obtain ⟨hin1, v1, hv1, h80⟩ := (occupied_rd_iff g1 y x).mp a5
      obtain ⟨g', b1, b2, b3, b4, b5⟩ := ih g1 a3
        (by have a2' := a2; unfold SameGeometry at a2'; rw [a2']; exact hsm) a4 hin1 ⟨v1, hv1, by omega⟩
        (fun sp' h => (hs sp' (by simp [h])).congr a2) ht
      exact ⟨g', b1, a2.trans b2, b3, b4, b5⟩

/-- C128 from the scanner to the motion, with the shipped detector: a robot that enters a scan into its map and then
checks its pose against that map, at every step, with scans that all show an obstacle, does not get that obstacle
inside its boundary radius `b` (in cells), if it starts with the obstacle outside the padded radius, moves by at most
a cell at a time and passes every check. -/
theorem C128_avoided_partial (hM : Accurate M) (Tbs : M3 (RDbl M)) (gs : Nat → GridMap (RDbl M))
    (scans : Nat → LaserScan (RDbl M)) (ps : Nat → V3 (RDbl M)) (cfgs : Nat → CollisionConfig)
    (b rc x y : Int) (hb : 1 ≤ b) (hrc : b + 3 ≤ rc) (n : Nat) (hw : WellFormed (gs 0)) (hsm : SmallGrid (gs 0))
    (hp : Percentages (gs 0)) (hin : InGrid (gs 0) x y)
    (hv : ∃ v : Int8, cellAt (gs 0) y.toNat x.toNat = some v ∧ 48 ≤ v.toInt)
    (hscan : ∀ k ≤ n, Shows Tbs (gs 0) (scans k) (ps k) x y ∧
      (OccupancyMapper.new Tbs).updateMap (gs k) (scans k) (ps k) = .ok (true, gs (k + 1)))
    (hcfg : ∀ k ≤ n, (shippedDetector M).config (gs (k + 1)) (ps k) = .ok (cfgs k) ∧ InRange (gs (k + 1)) (cfgs k) ∧
      (cfgs k).r_bnd ≤ b ∧ (cfgs k).r_col = rc ∧ rc ≤ (cfgs k).r_max)
    (h0 : rc * rc < sqCells (cfgs 0) y x)
    (h : ∀ k < n, Touching (cfgs k) (cfgs (k + 1)) ∧
      (shippedDetector M).collisionCheck (gs (k + 2)) (ps (k + 1)) = .ok false) :
    (b + 1) * (b + 1) ≤ sqCells (cfgs n) y x := by
  have inv : ∀ k ≤ n + 1, SameGeometry (gs 0) (gs k) ∧ WellFormed (gs k) ∧ Percentages (gs k) ∧
      (∃ v : Int8, cellAt (gs k) y.toNat x.toNat = some v ∧ 48 ≤ v.toInt) ∧
      (1 ≤ k → Occupied (shippedDetector M).occupied_threshold (gs k) y x) := by
    intro k
    induction k with
    | zero => intro _; exact ⟨.refl _, hw, hp, hv, by omega⟩
    | succ k ih =>
      intro hk
      obtain ⟨i1, i2, i3, ⟨v, i4, i5⟩, -⟩ := ih (by omega)
      obtain ⟨s1, s2⟩ := hscan k (by omega)
      obtain ⟨g', a1, a2, a3, a4, a5⟩ := C128_seen_partial hM Tbs (gs k) i2
        (by have i1' := i1; unfold SameGeometry at i1'; rw [i1']; exact hsm) i3 (scans k) (ps k) x y
        (i1.inGrid.mpr hin) v i4 i5 (s1.congr i1)
      rw [s2, Res.ok.injEq, Prod.mk.injEq] at a1
      obtain ⟨-, rfl⟩ := a1
      obtain ⟨-, v1, hv1, h80⟩ := (occupied_rd_iff _ y x).mp a5
      exact ⟨i1.trans a2, a3, a4, ⟨v1, hv1, by omega⟩, fun _ => a5⟩
  refine C117_cells (shippedDetector M) (fun k => gs (k + 1)) ps cfgs b rc y x hb hrc n (fun k hk => ?_) h0 h
  obtain ⟨c1, c2, c3, c4, c5⟩ := hcfg k hk
  obtain ⟨-, i2, -, -, i5⟩ := inv (k + 1) (by omega)
  exact ⟨i2, c1, c2, c3, c4, c5, i5 (by omega)⟩

/-! ## Many crossings: the cell is free -/

theorem crossed_learns (n : Nat) {c c' : Int} (h0 : 0 ≤ c) (h : c ≤ crossed n) (hl : Learns 0.35 c c') :
    c' ≤ crossed (n + 1) := by
  have h99 : c ≤ 99 := h.trans (by unfold crossed; split <;> omega)
  have hf := learns_free_range h0 (by omega) hl
  obtain ⟨-, hb⟩ := learns_free h0 (by omega) hl
  have key : ∀ a b : Int, c ≤ a → a ≤ 99 → 700 * a < (b + 1) * (1300 - 6 * a) → 0 ≤ b → c' ≤ b := by
    intro a b h1 h2 h3 h4
    by_contra hc
    have : (b + 1) * (1300 - 6 * c) ≤ c' * (1300 - 6 * c) := mul_le_mul_of_nonneg_right (by omega) (by omega)
    nlinarith
  match n, h with
  | 0, h => exact key 99 98 h (by norm_num) (by norm_num) (by norm_num)
  | 1, h => exact key 98 96 h (by norm_num) (by norm_num) (by norm_num)
  | 2, h => exact key 96 92 h (by norm_num) (by norm_num) (by norm_num)
  | 3, h => exact key 92 86 h (by norm_num) (by norm_num) (by norm_num)
  | 4, h => exact key 86 76 h (by norm_num) (by norm_num) (by norm_num)
  | n + 5, h => exact hf.2.trans h

theorem evidence_le_99 {src : UInt32 × UInt32} {x y : Int} {hs : List (UInt32 × UInt32)} {c c' : Int}
    (h : Evidence src x y hs c c') : 0 ≤ c → c ≤ 99 → 0 ≤ c' ∧ c' ≤ 99 := by
  induction h with
  | nil c => exact fun h0 h1 => ⟨h0, h1⟩
  | @hit _ _ c c1 _ _ k _ ih =>
    intro h0 h1
    have hr := learns_occ_range h0 (by omega) k
    obtain ⟨-, hb⟩ := learns_occ h0 k
    refine ih hr.1 ?_
    by_contra hc
    have : 100 * (100 + 8 * c) ≤ c1 * (100 + 8 * c) := mul_le_mul_of_nonneg_right (by omega) (by omega)
    omega
  | pass _ k _ ih =>
    intro h0 h1
    have hr := learns_free_range h0 (by omega) k
    exact ih hr.1 (by omega)
  | other _ _ _ ih => exact ih

theorem evidence_crossed {src : UInt32 × UInt32} {x y : Int} {hs : List (UInt32 × UInt32)} {c c' : Int}
    (h : Evidence src x y hs c c') : ∀ n, 0 ≤ c → c ≤ crossed n → (∀ h ∈ hs, ¬ EndsIn x y h) →
    c' ≤ crossed (n + hs.countP (fun h => decide (PassesBy src x y h))) := by
  induction h with
  | nil c => intro n _ h1 _; exact h1
  | hit e _ _ _ => intro n _ _ he; exact absurd e (he _ (by simp))
  | @pass h hs c c1 c' hp k _ ih =>
    intro n h0 h1 he
    have h99 : c ≤ 99 := h1.trans (by unfold crossed; split <;> omega)
    have := ih (n + 1) (learns_free_range h0 (by omega) k).1 (crossed_learns n h0 h1 k)
      (fun h' hh => he h' (by simp [hh]))
    rw [List.countP_cons]
    simp only [hp, decide_true, if_true]
    rwa [show n + 1 + hs.countP (fun h => decide (PassesBy src x y h)) =
      n + (hs.countP (fun h => decide (PassesBy src x y h)) + 1) by omega] at this
  | @other h hs c c' _ hp _ ih =>
    intro n h0 h1 he
    rw [List.countP_cons]
    simp only [hp, decide_false, if_false, Bool.false_eq_true, Nat.add_zero]
    exact ih n h0 h1 (fun h' hh => he h' (by simp [hh]))

/-- C128, the other side: however often a cell (below 100) has been hit, in this scan and before, five beams that
cross it after the last one that ends in it erase it: it is not an obstacle for the shipped detector. -/
theorem C128_erased (hM : Accurate M) (Tbs : M3 (RDbl M)) (g : GridMap (RDbl M)) (hw : WellFormed g)
    (hsm : SmallGrid g) (hp : Percentages g) (scan : LaserScan (RDbl M)) (pose : V3 (RDbl M)) (src : UInt32 × UInt32)
    (hs : g.world2Grid pose.c0 pose.c1 = .ok src) (hc : IsCell g src.1 src.2)
    (hd : EndsConvert g (sensorPose Tbs pose) scan) (x y : Int) (hin : InGrid g x y) (v : Int8)
    (hv : cellAt g y.toNat x.toNat = some v) (h99 : v.toInt ≤ 99) (pre post : List (UInt32 × UInt32))
    (hcells : beamCells g (sensorPose Tbs pose) scan scan.ranges 0 = pre ++ post)
    (hno : ∀ h ∈ post, ¬ EndsIn x y h) (h5 : 5 ≤ post.countP (fun h => decide (PassesBy src x y h))) :
    ∃ g', (OccupancyMapper.new Tbs).updateMap g scan pose = .ok (true, g') ∧
      ¬ Occupied (shippedDetector M).occupied_threshold g' y x := by
  obtain ⟨g', e1, e2, e3, e4, e5⟩ := C128_evidence hM Tbs g hw hsm hp scan pose src hs hc hd
  refine ⟨g', e1, ?_⟩
  obtain ⟨v', f1, f2⟩ := e5 x y hin v hv
  intro ho
  obtain ⟨-, w, hw', h80⟩ := (occupied_rd_iff g' y x).mp ho
  rw [f1, Option.some.injEq] at hw'
  subst hw'
  rw [hcells] at f2
  obtain ⟨b, k1, k2⟩ := evidence_split f2
  obtain ⟨b0, b1⟩ := evidence_le_99 k1 (hp v (List.mem_of_getElem? hv)).1 h99
  have := evidence_crossed k2 0 b0 b1 hno
  have hc5 : ∀ n, 5 ≤ n → crossed n = 76 := by
    intro n hn
    obtain ⟨m, rfl⟩ : ∃ m, n = m + 5 := ⟨n - 5, by omega⟩
    rfl
  rw [Nat.zero_add, hc5 _ h5] at this
  omega

/-! ## A robot that looks along a corridor, on binary64 numbers -/

/-- a corridor of 64 unknown cells of a sixteenth of a metre -/
noncomputable def aisleGrid : GridMap (RDbl ieee) :=
  { xsize := 64, ysize := 1, resolution := .fin (1 / 16), xmin := .fin 0, ymin := .fin 0,
    xmax := .fin 4, ymax := .fin (1 / 16), data := List.replicate 64 50 }

noncomputable def aisleT : M3 (RDbl ieee) :=
  ⟨⟨.fin 1, .fin 0, .fin 0⟩, ⟨.fin 0, .fin 1, .fin 0⟩, ⟨.fin 0, .fin 0, .fin 1⟩⟩

noncomputable def aislePose : V3 (RDbl ieee) := ⟨.fin 0, .fin 0, .fin 0⟩

/-- beams straight ahead, over the given numbers of cells -/
noncomputable def aisleScan (ks : List Nat) : LaserScan (RDbl ieee) :=
  ⟨.fin 0, .fin 0, .fin 0, .fin 10, ks.map fun k : Nat => .fin ((k : ℝ) / 16)⟩

theorem aisle_wf : WellFormed aisleGrid := ⟨by decide, rfl⟩

theorem aisle_small : SmallGrid aisleGrid := by
  show (64 : UInt32).toNat < 2147483648 ∧ (1 : UInt32).toNat < 2147483648
  decide

theorem aisle_pct : Percentages aisleGrid := by
  intro v hv
  rw [List.eq_of_mem_replicate hv]
  decide

theorem aisle_cell : IsCell aisleGrid 0 0 := by
  show (0 : UInt32).toNat < (1 : UInt32).toNat ∧ (0 : UInt32).toNat < (64 : UInt32).toNat
  decide

theorem aisle_in {k : Nat} (hk : k < 64) : InGrid aisleGrid k 0 :=
  ⟨by omega, by show (k : Int) < (64 : UInt32).toNat; simp; omega, by decide,
    by show (0 : Int) < (1 : UInt32).toNat; decide⟩

theorem sixteenth_rnd (k : Nat) (hk : k < 64) : ieee.rnd ((k : ℝ) / 16) = (k : ℝ) / 16 := by
  refine Ieee.rnd_rep (k : ℤ) (-4) (by norm_num) ?_ ?_
  · rw [abs_le]; constructor <;> norm_num <;> omega
  · norm_num
    ring

theorem aisle_world (k : Nat) (hk : k < 64) : aisleGrid.world2Grid (.fin ((k : ℝ) / 16)) (.fin 0) = .ok (0, UInt32.ofNat k) := by
  have hpl : Placed aisleGrid 0 0 (1 / 16) := ⟨rfl, rfl, rfl, by norm_num⟩
  have e1 : ieee.rnd (ieee.rnd ((k : ℝ) / 16 - 0) / (1 / 16)) = k := by
    rw [sub_zero, sixteenth_rnd k hk, show (k : ℝ) / 16 / (1 / 16) = ((k : ℤ) : ℝ) by push_cast; ring,
      ieee.int k (by rw [abs_le]; constructor <;> omega)]
    norm_num
  have e2 : ieee.rnd (ieee.rnd ((0 : ℝ) - 0) / (1 / 16)) = 0 := by simp
  rw [world2Grid_rd hpl (n := k) (m := 0) (by omega) (by norm_num) (by rw [e1]) (by rw [e1]; linarith) (by rw [e2]; simp)
    (by rw [e2]; norm_num)]
  have h1 : UInt32.ofNat k ≠ (64 : UInt32) := by
    intro h
    have := congrArg UInt32.toNat h
    rw [ofNat_toNat (by omega), show (64 : UInt32).toNat = 64 from rfl] at this
    omega
  rw [if_neg (show UInt32.ofNat 0 ≠ aisleGrid.ysize by decide), if_neg (show UInt32.ofNat k ≠ aisleGrid.xsize from h1)]
  rfl

theorem aisle_src : aisleGrid.world2Grid aislePose.c0 aislePose.c1 = .ok (0, 0) := by
  have := aisle_world 0 (by norm_num)
  norm_num at this
  exact this

theorem aisle_angle (ks : List Nat) (i : Nat) : beamAngle (aisleScan ks) i = .fin 0 := by
  unfold beamAngle
  induction i with
  | zero => rfl
  | succ i ih =>
    rw [Function.iterate_succ_apply', ih]
    show (.fin 0 : RDbl ieee) +. .fin 0 = _
    rw [RDbl.add_fin]
    simp

theorem aisle_end (ks : List Nat) (i k : Nat) (hk : k < 64) :
    beamEnd (sensorPose aisleT aislePose) (aisleScan ks) i (.fin ((k : ℝ) / 16)) =
      ⟨.fin ((k : ℝ) / 16), .fin 0, .fin 1⟩ := by
  have hs : Flt.sin (.fin 0 : RDbl ieee) = .fin 0 := by
    show (.fin (Ieee.rnd (Real.sin 0)) : RDbl ieee) = _
    rw [Real.sin_zero, Ieee.rnd_zero]
  have hc : Flt.cos (.fin 0 : RDbl ieee) = .fin 1 := by
    show (.fin (Ieee.rnd (Real.cos 0)) : RDbl ieee) = _
    rw [Real.cos_zero]
    have : Ieee.rnd 1 = 1 := by simpa using Ieee.rnd_int 1 (by norm_num)
    rw [this]
  have h1 : ieee.rnd 1 = 1 := by simp
  have h16 := sixteenth_rnd k hk
  unfold beamEnd
  rw [aisle_angle]
  simp only [aislePose, sensorPose, aisleT, polar2CartesianHomo, transform2d, M3.mulVec, M3.mul, M3.t, V3.dot, hs, hc,
    RDbl.mul_fin, RDbl.add_fin, RDbl.neg_fin, RDbl.lit_fin]
  simp [h16]

theorem aisle_hit (ks : List Nat) (i k : Nat) (hk : k < 64) :
    beamHit aisleGrid (sensorPose aisleT aislePose) (aisleScan ks) i (.fin ((k : ℝ) / 16)) = some (0, UInt32.ofNat k) := by
  have hk' : (k : ℝ) < 64 := by exact_mod_cast hk
  have hk0 : (0 : ℝ) ≤ k := k.cast_nonneg
  unfold beamHit
  rw [if_pos (by simp only [RangeValid, aisleScan, RDbl.lt_fin_false]; constructor <;> linarith), aisle_end ks i k hk]
  simp only
  rw [aisle_world k hk]
  simp only
  rw [if_pos]
  show (0 : UInt32).toNat < (1 : UInt32).toNat ∧ (UInt32.ofNat k).toNat < (64 : UInt32).toNat
  rw [ofNat_toNat (by omega)]
  exact ⟨by decide, by simpa using hk⟩

theorem aisle_ends (ks : List Nat) (hks : ∀ k ∈ ks, k < 64) :
    EndsConvert aisleGrid (sensorPose aisleT aislePose) (aisleScan ks) := by
  intro i r hi _
  have := List.mem_of_getElem? hi
  simp only [aisleScan, List.mem_map] at this
  obtain ⟨k, hk, rfl⟩ := this
  rw [aisle_end ks i k (hks k hk)]
  exact ⟨_, aisle_world k (hks k hk)⟩

theorem aisle_cells (all : List Nat) : ∀ (ks : List Nat) (i : Nat), (∀ k ∈ ks, k < 64) →
    beamCells aisleGrid (sensorPose aisleT aislePose) (aisleScan all) (ks.map fun k : Nat => .fin ((k : ℝ) / 16)) i =
      ks.map fun k => ((0 : UInt32), UInt32.ofNat k) := by
  intro ks
  induction ks with
  | nil => intro i _; rfl
  | cons k ks ih =>
    intro i h
    rw [List.map_cons, beamCells, aisle_hit all i k (h k (by simp)), ih (i + 1) (fun k' hk' => h k' (by simp [hk']))]
    rfl

/-- C128, full statement: a cell in which a beam of the scan ends and that is not thought to be free (at least 50) is
an obstacle for the shipped detector after the scan. -/
def C128_statement : Prop :=
  ∀ (Tbs : M3 (RDbl ieee)) (g : GridMap (RDbl ieee)) (scan : LaserScan (RDbl ieee)) (pose : V3 (RDbl ieee))
    (src : UInt32 × UInt32) (x y : Int) (v : Int8), WellFormed g → SmallGrid g → Percentages g → InGrid g x y →
    cellAt g y.toNat x.toNat = some v → 50 ≤ v.toInt → g.world2Grid pose.c0 pose.c1 = .ok src →
    IsCell g src.1 src.2 → EndsConvert g (sensorPose Tbs pose) scan →
    (∃ h ∈ beamCells g (sensorPose Tbs pose) scan scan.ranges 0, EndsIn x y h) →
    ∃ g', (OccupancyMapper.new Tbs).updateMap g scan pose = .ok (true, g') ∧
      Occupied (shippedDetector ieee).occupied_threshold g' y x

/-- C128 is false on binary64 numbers: one beam ends forty cells away, five go on to the fiftieth cell, and the cell
they cross is not an obstacle. -/
theorem C128_refuted : ¬ C128_statement := by
  intro h
  have hks : ∀ k ∈ [40, 50, 50, 50, 50, 50], k < 64 := by decide
  have hc := aisle_cells [40, 50, 50, 50, 50, 50] [40, 50, 50, 50, 50, 50] 0 hks
  have hc' : beamCells aisleGrid (sensorPose aisleT aislePose) (aisleScan [40, 50, 50, 50, 50, 50])
      (aisleScan [40, 50, 50, 50, 50, 50]).ranges 0 =
        [(0, 40)] ++ [(0, 50), (0, 50), (0, 50), (0, 50), (0, 50)] := hc
  obtain ⟨g', h1, h2⟩ := h aisleT aisleGrid (aisleScan [40, 50, 50, 50, 50, 50]) aislePose (0, 0) 40 0 50 aisle_wf aisle_small
    aisle_pct (aisle_in (k := 40) (by norm_num)) rfl (by decide) aisle_src aisle_cell (aisle_ends _ hks)
    ⟨(0, 40), by rw [hc']; simp, by decide⟩
  obtain ⟨g'', e1, e2⟩ := C128_erased ieee_accurate aisleT aisleGrid aisle_wf aisle_small aisle_pct
    (aisleScan [40, 50, 50, 50, 50, 50]) aislePose (0, 0) aisle_src aisle_cell (aisle_ends _ hks) 40 0
    (aisle_in (k := 40) (by norm_num)) 50 rfl (by decide) [(0, 40)] [(0, 50), (0, 50), (0, 50), (0, 50), (0, 50)] hc'
    (by decide) (by decide)
  rw [h1, Res.ok.injEq, Prod.mk.injEq] at e1
  obtain ⟨-, rfl⟩ := e1
  exact e2 h2

/-- A wall forty cells away is shown by a beam that ends there, and by a second scan with one more beam behind it. -/
theorem aisle_shows (ks : List Nat) (h : ks = [40] ∨ ks = [40, 50]) : Shows aisleT aisleGrid (aisleScan ks) aislePose 40 0 := by
  have hks : ∀ k ∈ ks, k < 64 := by rcases h with rfl | rfl <;> decide
  have hc : beamCells aisleGrid ((transform2d aislePose.c0 aislePose.c1 aislePose.c2).mul aisleT) (aisleScan ks)
      (aisleScan ks).ranges 0 = ks.map fun k => ((0 : UInt32), UInt32.ofNat k) := aisle_cells ks ks 0 hks
  refine ⟨(0, 0), aisle_src, aisle_cell, aisle_ends _ hks, ?_, ?_⟩
  · rw [hc]
    rcases h with rfl | rfl
    · exact ⟨(0, 40), by decide, by decide⟩
    · exact ⟨(0, 40), by decide, by decide⟩
  · rw [hc]
    rcases h with rfl | rfl <;> decide

example : ∃ g', runScans (OccupancyMapper.new aisleT) [(aisleScan [40], aislePose), (aisleScan [40, 50], aislePose)] aisleGrid =
    .ok g' ∧ Occupied (shippedDetector ieee).occupied_threshold g' 0 40 := by
  obtain ⟨g', h1, -, -, -, h5⟩ := C128_scans_partial ieee_accurate aisleT 40 0
    [(aisleScan [40], aislePose), (aisleScan [40, 50], aislePose)] aisleGrid aisle_wf aisle_small aisle_pct
    (aisle_in (k := 40) (by norm_num)) ⟨50, rfl, by decide⟩
    (by
      intro sp hsp
      simp only [List.mem_cons, List.not_mem_nil, or_false] at hsp
      rcases hsp with rfl | rfl
      · exact aisle_shows _ (.inl rfl)
      · exact aisle_shows _ (.inr rfl)) (by simp)
  exact ⟨g', h1, h5⟩

theorem aisle_config {g : GridMap (RDbl ieee)} (hg : SameGeometry aisleGrid g) :
    ∃ cfg, (shippedDetector ieee).config g aislePose = .ok cfg ∧ InRange g cfg ∧ cfg.r_bnd ≤ 11 ∧ cfg.r_col = 14 ∧
      14 ≤ cfg.r_max ∧ cfg.cx = 0 ∧ cfg.cy = 0 := by
  have hg' := hg
  unfold SameGeometry at hg'
  have ⟨p0, p1⟩ := rnd_at (M := ieee) (x := 7 / 10) le_rfl (by norm_num [abs_of_pos])
  have ⟨q0, q1⟩ := rnd_at (M := ieee) (x := 1 / 5) le_rfl (by norm_num [abs_of_pos])
  norm_num at p0 p1 q0 q1
  have ⟨r0, r1⟩ := rnd_at (M := ieee) (x := ieee.rnd (7 / 10) + ieee.rnd (1 / 5)) (B := 1) le_rfl
    (abs_le.mpr ⟨by norm_num; linarith, by norm_num; linarith⟩)
  norm_num at r0 r1
  have ⟨s0, s1⟩ := rnd_at (M := ieee) (x := ieee.rnd (7 / 10) * 16) (B := 16) (by norm_num)
    (abs_le.mpr ⟨by norm_num; linarith, by norm_num; linarith⟩)
  have ⟨t0, t1⟩ := rnd_at (M := ieee) (x := ieee.rnd (ieee.rnd (7 / 10) + ieee.rnd (1 / 5)) * 16) (B := 16) (by norm_num)
    (abs_le.mpr ⟨by norm_num; linarith, by norm_num; linarith⟩)
  norm_num at s0 s1 t0 t1
  have h16 : ieee.rnd 16 = 16 := by
    have := ieee.int 16 (by norm_num)
    norm_num at this
    exact this
  refine ⟨{ r_bnd := 11, r_col := 14, r_max := 16, cx := 0, cy := 0 }, ?_, ?_, le_rfl, rfl, by norm_num, rfl, rfl⟩
  · unfold Collision.config
    rw [show g.world2Grid aislePose.c0 aislePose.c1 = .ok (0, 0) by rw [hg.world2Grid]; exact aisle_src]
    rw [show g.resolution = .fin (1 / 16) by rw [hg']; rfl]
    simp only [shippedDetector, RDbl.add_fin, Res.ok_bind]
    rw [RDbl.div_fin _ (by norm_num), RDbl.div_fin _ (by norm_num), RDbl.div_fin _ (by norm_num)]
    simp only [div_div_eq_mul_div, div_one, one_mul]
    rw [castI32_floor_rd (n := 11) (by norm_num) (by norm_num; linarith) (by norm_num; linarith),
      castI32_floor_rd (n := 14) (by norm_num) (by norm_num; linarith) (by norm_num; linarith),
      castI32_floor_rd (n := 16) (by norm_num) (by rw [h16]; norm_num) (by rw [h16]; norm_num)]
    rfl
  · have hx : g.xsize = 64 := by rw [hg']; rfl
    have hy : g.ysize = 1 := by rw [hg']; rfl
    constructor <;> simp only [hx, hy] <;> decide

/-- The scan makes no other cell more occupied. -/
theorem aisle_others {g g' : GridMap (RDbl ieee)} (hg : SameGeometry aisleGrid g) (hw : WellFormed g) (hp : Percentages g)
    (h : (OccupancyMapper.new aisleT).updateMap g (aisleScan [40]) aislePose = .ok (true, g')) (x : Int)
    (hx : InGrid aisleGrid x 0) (h8 : x ≠ 40) (hle : ∀ v, cellAt g 0 x.toNat = some v → v.toInt ≤ 50) :
    ∀ v, cellAt g' 0 x.toNat = some v → v.toInt ≤ 50 := by
  have hg' := hg
  unfold SameGeometry at hg'
  obtain ⟨g1, e1, -, -, -, e5⟩ := C128_evidence ieee_accurate aisleT g hw (by rw [hg']; exact aisle_small) hp (aisleScan [40])
    aislePose (0, 0) (by rw [hg.world2Grid]; exact aisle_src) (hg.isCell.mpr aisle_cell)
    (fun k r hk hv => by rw [hg.world2Grid]; exact aisle_ends [40] (by decide) k r hk hv)
  rw [h, Res.ok.injEq, Prod.mk.injEq] at e1
  obtain ⟨-, rfl⟩ := e1
  intro v' hv'
  obtain ⟨v, hv⟩ := (hg.inGrid.mpr hx).exists_cell hw
  obtain ⟨w, f1, f2⟩ := e5 x 0 (hg.inGrid.mpr hx) v hv
  rw [show (0 : Int).toNat = 0 from rfl] at f1 hv
  rw [f1, Option.some.injEq] at hv'
  subst hv'
  have hc : beamCells g (sensorPose aisleT aislePose) (aisleScan [40]) (aisleScan [40]).ranges 0 = [(0, 40)] := by
    rw [beamCells_congr hg]
    exact aisle_cells [40] [40] 0 (by decide)
  rw [hc] at f2
  have hr := hp v (List.mem_of_getElem? hv)
  have hb := hle v hv
  have := evidence_one f2 hr.1 hr.2 (fun e => h8 e.1)
  omega

/-- The hypotheses of `C128_avoided_partial` are met, with the shipped detector: a robot that stands two and a half
metres from a wall. -/
example : ∃ (gs : Nat → GridMap (RDbl ieee)) (cfgs : Nat → CollisionConfig), WellFormed (gs 0) ∧ SmallGrid (gs 0) ∧
    Percentages (gs 0) ∧ InGrid (gs 0) 40 0 ∧ (∃ v : Int8, cellAt (gs 0) 0 40 = some v ∧ 48 ≤ v.toInt) ∧
    (∀ k ≤ 1, Shows aisleT (gs 0) (aisleScan [40]) aislePose 40 0 ∧
      (OccupancyMapper.new aisleT).updateMap (gs k) (aisleScan [40]) aislePose = .ok (true, gs (k + 1))) ∧
    (∀ k ≤ 1, (shippedDetector ieee).config (gs (k + 1)) aislePose = .ok (cfgs k) ∧ InRange (gs (k + 1)) (cfgs k) ∧
      (cfgs k).r_bnd ≤ 11 ∧ (cfgs k).r_col = 14 ∧ 14 ≤ (cfgs k).r_max) ∧
    (14 : Int) * 14 < sqCells (cfgs 0) 0 40 ∧
    (∀ k < 1, Touching (cfgs k) (cfgs (k + 1)) ∧
      (shippedDetector ieee).collisionCheck (gs (k + 2)) aislePose = .ok false) := by
  have hin := aisle_in (k := 40) (by norm_num)
  have hsh := aisle_shows [40] (.inl rfl)
  obtain ⟨g1, a1, a2, a3, a4, a5⟩ := C128_seen_partial ieee_accurate aisleT aisleGrid aisle_wf aisle_small aisle_pct
    (aisleScan [40]) aislePose 40 0 hin 50 rfl (by decide) hsh
  obtain ⟨hin1, v1, hv1, h80⟩ := (occupied_rd_iff g1 0 40).mp a5
  have a2' := a2
  unfold SameGeometry at a2'
  obtain ⟨g2, b1, b2, b3, b4, b5⟩ := C128_seen_partial ieee_accurate aisleT g1 a3 (by rw [a2']; exact aisle_small) a4
    (aisleScan [40]) aislePose 40 0 hin1 v1 hv1 (by omega) (hsh.congr a2)
  have hg2 := a2.trans b2
  obtain ⟨c1, d1, d2, d3, d4, d5, d6, d7⟩ := aisle_config a2
  obtain ⟨c2, k1, k2, k3, k4, k5, k6, k7⟩ := aisle_config hg2
  refine ⟨fun k => match k with | 0 => aisleGrid | 1 => g1 | _ => g2, fun k => match k with | 0 => c1 | _ => c2,
    aisle_wf, aisle_small, aisle_pct, hin, ⟨50, rfl, by decide⟩, ?_, ?_, ?_, ?_⟩
  · intro k hk
    obtain rfl | rfl : k = 0 ∨ k = 1 := by omega
    · exact ⟨hsh, a1⟩
    · exact ⟨hsh, b1⟩
  · intro k hk
    obtain rfl | rfl : k = 0 ∨ k = 1 := by omega
    · exact ⟨d1, d2, d3, d4, d5⟩
    · exact ⟨k1, k2, k3, k4, k5⟩
  · show (14 : Int) * 14 < sqCells c1 0 40
    unfold sqCells
    rw [d6, d7]
    norm_num
  · intro k hk
    obtain rfl : k = 0 := by omega
    refine ⟨?_, ?_⟩
    · show Touching c1 c2
      unfold Touching
      rw [d6, d7, k6, k7]
      norm_num
    show (shippedDetector ieee).collisionCheck g2 aislePose = .ok false
    obtain ⟨b, hb, -⟩ := collisionCheck_iff (shippedDetector ieee) g2 b3 aislePose _ k1 k2
    cases b with
    | false => exact hb
    | true =>
      exfalso
      obtain ⟨i, j, ho, hd⟩ := C25_sound (shippedDetector ieee) g2 b3 aislePose _ k1 k2 hb
      obtain ⟨hij, v, hv, hge⟩ := (occupied_rd_iff g2 i j).mp ho
      obtain ⟨p1, p2, p3, p4⟩ := hg2.inGrid.mp hij
      have hi0 : i = 0 := by
        have : i < (1 : UInt32).toNat := p4
        simp at this
        omega
      subst hi0
      rw [k4, k6, k7] at hd
      have hj : j ≤ 14 := by nlinarith
      have hj8 : j ≠ 40 := by omega
      have hx0 : InGrid aisleGrid j 0 := ⟨p1, p2, p3, p4⟩
      have h1 := aisle_others (.refl _) aisle_wf aisle_pct a1 j hx0 hj8 (fun w hw => by
        have := List.eq_of_mem_replicate (List.mem_of_getElem? hw)
        rw [this]; decide)
      have h2 := aisle_others a2 a3 a4 b1 j hx0 hj8 h1 v hv
      omega

end Ergodic
