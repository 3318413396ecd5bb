import Verif.Props.Mapping
import Verif.Spec.MapUpdate

/-!
# C36 and C38, sharp: exactly which scans a map can take in, and what they do
-/

namespace Ergodic

/-- A value that is not a percentage makes the stored value undefined. -/
theorem observe_bad (Tbs : M3 Dbl) (log : Dbl) {c : Int8} (h : ¬ Pct c) :
    observe (OccupancyMapper.new Tbs) log c = .ub := by
  by_cases hneg : c.toInt < 0
  · exact observe_unknown Tbs log hneg
  · have hb : 100 < c.toInt := by unfold Pct at h; omega
    have hn : (100 : ℝ) < c.toInt := by exact_mod_cast hb
    have h1 : (1 : ℝ) < c.toInt / 100 := by rw [lt_div_iff₀ (by norm_num)]; linarith
    unfold observe prob2LogOdds logOdds2Prob
    simp only [Dbl.lit_eq, Dbl.ofInt_eq]
    norm_num
    rw [Dbl.div_fin _ (by norm_num), Dbl.sub_fin, Dbl.div_fin _ (by linarith), Dbl.log_neg]
    · simp [castI8]
    · exact div_neg_of_pos_of_neg (by linarith) (by linarith)

variable {F : Type} [Flt F]

theorem mem_beamUpd (m : OccupancyMapper F) (src hit : UInt32 × UInt32) (x y : Int) :
    (∃ log, (x, y, log) ∈ beamUpd m src (some hit)) ↔
      ((x = hit.2.toNat ∧ y = hit.1.toNat) ∨ OnRay src.2.toNat src.1.toNat hit.2.toNat hit.1.toNat x y) := by
  simp only [beamUpd, markFree, List.mem_append, List.mem_map, List.mem_singleton, Prod.mk.injEq]
  constructor
  · rintro ⟨log, ⟨q, hq, rfl, rfl, -⟩ | ⟨rfl, rfl, -⟩⟩
    · exact .inr (mem_rayCells.mp hq).1
    · exact .inl ⟨rfl, rfl⟩
  · rintro (⟨rfl, rfl⟩ | h)
    · exact ⟨_, .inr ⟨rfl, rfl, rfl⟩⟩
    · by_cases he : (x, y) = ((hit.2.toNat : Int), (hit.1.toNat : Int))
      · rw [Prod.mk.injEq] at he
        exact ⟨_, .inr ⟨he.1, he.2, rfl⟩⟩
      · exact ⟨_, .inl ⟨(x, y), mem_rayCells.mpr ⟨h, he⟩, rfl, rfl, rfl⟩⟩

theorem world2Grid_ok_or_ub (g : GridMap F) (x y : F) : (∃ p, g.world2Grid x y = .ok p) ∨ g.world2Grid x y = .ub := by
  have hc : ∀ z : F, (∃ n, castU32 z = .ok n) ∨ castU32 z = .ub := by
    intro z
    unfold castU32
    split
    · split
      · exact .inl ⟨_, rfl⟩
      · exact .inr rfl
    · exact .inr rfl
  unfold GridMap.world2Grid
  rcases hc (Flt.floor ((x -. g.xmin) /. g.resolution)) with ⟨a, h1⟩ | h1
  · rw [h1]
    rcases hc (Flt.floor ((y -. g.ymin) /. g.resolution)) with ⟨b, h2⟩ | h2
    · rw [h2]; exact .inl ⟨_, rfl⟩
    · rw [h2]; exact .inr rfl
  · rw [h1]; exact .inr rfl

section
variable (Tbs : M3 Dbl)

/-- Either every value that is updated is a percentage, and then the updates succeed and keep the set of cells
with percentages, or the updates are undefined. -/
theorem applyUpd_dichotomy : ∀ (l : List (Int × Int × Dbl)) {g : GridMap Dbl}, WellFormed g →
    (∀ p ∈ l, InGrid g p.1 p.2.1) →
    (∀ p ∈ l, ∀ v, Pct v → ∃ v', observe (OccupancyMapper.new Tbs) p.2.2 v = .ok v' ∧ Pct v') →
    ((∀ p ∈ l, PctAt g p.1 p.2.1) → ∃ g', applyUpd (OccupancyMapper.new Tbs) l g = .ok g' ∧
      ∀ x y, InGrid g x y → (PctAt g' x y ↔ PctAt g x y)) ∧
    (¬ (∀ p ∈ l, PctAt g p.1 p.2.1) → applyUpd (OccupancyMapper.new Tbs) l g = .ub) := by
  intro l
  induction l with
  | nil => intro g _ _ _; exact ⟨fun _ => ⟨g, rfl, fun _ _ _ => Iff.rfl⟩, fun h => absurd (by simp) h⟩
  | cons p t ih =>
    intro g hw hl hobs
    obtain ⟨px, py, log⟩ := p
    have hp : InGrid g px py := hl (px, py, log) (by simp)
    obtain ⟨v0, hv0⟩ := hp.exists_cell hw
    have hstep := updateCell_eq (OccupancyMapper.new Tbs) hw hp log hv0
    by_cases hpct : Pct v0
    · obtain ⟨v1, ho, hp1⟩ := hobs (px, py, log) (by simp) v0 hpct
      have ho : observe (OccupancyMapper.new Tbs) log v0 = .ok v1 := ho
      have hkeep : ∀ x y, InGrid g x y → (PctAt (setCell g px py v1) x y ↔ PctAt g x y) := by
        intro x y hxy
        have hc := setCell_cellAt hw v1 hp hxy
        unfold PctAt
        rw [hc]
        by_cases he : x = px ∧ y = py
        · rw [if_pos he, he.1, he.2, hv0]
          simp only [Option.some.injEq, forall_eq']
          exact ⟨fun _ => hpct, fun _ => hp1⟩
        · rw [if_neg he]
      obtain ⟨i1, i2⟩ := ih (setCell_wf hw px py v1) (fun q hq => hl q (by simp [hq]))
        (fun q hq => hobs q (by simp [hq]))
      have hall : (∀ q ∈ t, PctAt (setCell g px py v1) q.1 q.2.1) ↔ ∀ q ∈ t, PctAt g q.1 q.2.1 :=
        forall₂_congr fun q hq => hkeep _ _ (hl q (by simp [hq]))
      have hp0 : PctAt g px py := by
        intro v hv
        rw [hv0, Option.some.injEq] at hv
        rw [← hv]; exact hpct
      simp only [applyUpd, hstep, ho, Res.ok_bind]
      constructor
      · intro h
        obtain ⟨g', h1, h2⟩ := i1 (hall.mpr fun q hq => h q (by simp [hq]))
        exact ⟨g', h1, fun x y hxy => (h2 x y hxy).trans (hkeep x y hxy)⟩
      · intro h
        apply i2
        rw [hall]
        intro hq
        apply h
        intro q hq'
        rcases List.mem_cons.mp hq' with rfl | hq'
        · exact hp0
        · exact hq q hq'
    · have hub : applyUpd (OccupancyMapper.new Tbs) ((px, py, log) :: t) g = .ub := by
        simp only [applyUpd, hstep, observe_bad Tbs log hpct]
        rfl
      refine ⟨fun h => absurd (h (px, py, log) (by simp) v0 hv0) hpct, fun _ => hub⟩

/-- What the remaining beams of a scan need. -/
def BeamsFit (g0 g : GridMap Dbl) (Tms : M3 Dbl) (scan : LaserScan Dbl) (src : UInt32 × UInt32) (rs : List Dbl)
    (k : Nat) : Prop :=
  (∀ i r, rs[i]? = some r → RangeValid scan r →
    ∃ p, g0.world2Grid (beamEnd Tms scan (k + i) r).c0 (beamEnd Tms scan (k + i) r).c1 = .ok p) ∧
  ∀ i r hit, rs[i]? = some r → beamHit g0 Tms scan (k + i) r = some hit → ∀ x y : Int,
    ((x = hit.2.toNat ∧ y = hit.1.toNat) ∨ OnRay src.2.toNat src.1.toNat hit.2.toNat hit.1.toNat x y) → PctAt g x y

theorem beamsFit_cons {scan : LaserScan Dbl} {Tms : M3 Dbl} {src : UInt32 × UInt32} {g0 g g1 : GridMap Dbl}
    (hsrc : IsCell g0 src.1 src.2) (hg : SameGeometry g0 g) {r : Dbl} {rs : List Dbl} {k : Nat}
    (hd0 : RangeValid scan r → ∃ p, g.world2Grid (beamEnd Tms scan k r).c0 (beamEnd Tms scan k r).c1 = .ok p)
    (hall : ∀ p ∈ beamUpd (OccupancyMapper.new Tbs) src (beamHit g0 Tms scan k r), PctAt g p.1 p.2.1)
    (hk1 : ∀ x y, InGrid g x y → (PctAt g1 x y ↔ PctAt g x y)) :
    BeamsFit g0 g1 Tms scan src rs (k + 1) ↔ BeamsFit g0 g Tms scan src (r :: rs) k := by
  unfold BeamsFit
  constructor
  · rintro ⟨a, b⟩
    constructor
    · intro i r' hi hv
      cases i with
      | zero =>
        simp only [List.getElem?_cons_zero, Option.some.injEq] at hi
        subst hi
        have := hd0 hv
        rwa [hg.world2Grid] at this
      | succ i =>
        rw [show k + (i + 1) = k + 1 + i by omega]
        exact a i r' (by simpa using hi) hv
    · intro i r' hit hi hh x y hxy
      cases i with
      | zero =>
        simp only [List.getElem?_cons_zero, Option.some.injEq] at hi
        subst hi
        rw [Nat.add_zero] at hh
        rw [hh] at hall
        obtain ⟨log, hl⟩ := (mem_beamUpd (OccupancyMapper.new Tbs) src hit x y).mpr hxy
        exact hall _ hl
      | succ i =>
        rw [show k + (i + 1) = k + 1 + i by omega] at hh
        have hin' := beamUpd_inGrid (OccupancyMapper.new Tbs) hsrc Tms scan (k + 1 + i) r'
        rw [hh] at hin'
        obtain ⟨log, hl⟩ := (mem_beamUpd (OccupancyMapper.new Tbs) src hit x y).mpr hxy
        exact (hk1 x y (hg.inGrid.mpr (hin' _ hl))).mp (b i r' hit (by simpa using hi) hh x y hxy)
  · rintro ⟨a, b⟩
    constructor
    · intro i r' hi hv
      rw [show k + 1 + i = k + (i + 1) by omega]
      exact a (i + 1) r' (by simpa using hi) hv
    · intro i r' hit hi hh x y hxy
      have hin' := beamUpd_inGrid (OccupancyMapper.new Tbs) hsrc Tms scan (k + 1 + i) r'
      rw [hh] at hin'
      obtain ⟨log, hl⟩ := (mem_beamUpd (OccupancyMapper.new Tbs) src hit x y).mpr hxy
      rw [show k + 1 + i = k + (i + 1) by omega] at hh
      exact (hk1 x y (hg.inGrid.mpr (hin' _ hl))).mpr (b (i + 1) r' hit (by simpa using hi) hh x y hxy)

theorem beamLoop_dichotomy (scan : LaserScan Dbl) (Tms : M3 Dbl) (src : UInt32 × UInt32) (g0 : GridMap Dbl)
    (hsm : SmallGrid g0) (hsrc : IsCell g0 src.1 src.2) :
    ∀ (rs : List Dbl) (k : Nat) (g : GridMap Dbl), SameGeometry g0 g → WellFormed g →
      (BeamsFit g0 g Tms scan src rs k →
        ∃ g', (OccupancyMapper.new Tbs).beamLoop scan Tms src rs (beamAngle scan k) g = .ok g') ∧
      (¬ BeamsFit g0 g Tms scan src rs k →
        (OccupancyMapper.new Tbs).beamLoop scan Tms src rs (beamAngle scan k) g = .ub) := by
  intro rs
  induction rs with
  | nil =>
    intro k g _ _
    exact ⟨fun _ => ⟨g, rfl⟩, fun h => absurd ⟨by simp, by simp⟩ h⟩
  | cons r rs ih =>
    intro k g hg hw
    have hsm' : SmallGrid g := by unfold SameGeometry at hg; rw [hg]; exact hsm
    have hsrc' := hg.isCell.mpr hsrc
    have hang : beamAngle scan (k + 1) = beamAngle scan k +. scan.angle_increment := by
      unfold beamAngle; rw [Function.iterate_succ_apply']
    by_cases hd0 : RangeValid scan r → ∃ p, g.world2Grid (beamEnd Tms scan k r).c0
        (beamEnd Tms scan k r).c1 = .ok p
    · have hb := beam_eq (OccupancyMapper.new Tbs) scan Tms hsm' hsrc' k r hd0
      have hin := beamUpd_inGrid (OccupancyMapper.new Tbs) hsrc' Tms scan k r
      obtain ⟨d1, d2⟩ := applyUpd_dichotomy Tbs _ hw hin (observe_pct Tbs src _)
      rw [hg.beamHit] at hb hin d1 d2
      by_cases hall : ∀ p ∈ beamUpd (OccupancyMapper.new Tbs) src (beamHit g0 Tms scan k r), PctAt g p.1 p.2.1
      · obtain ⟨g1, hg1, hk1⟩ := d1 hall
        obtain ⟨hw1, hgeo, -⟩ := applyUpd_spec (OccupancyMapper.new Tbs) _ hw hin hg1
        obtain ⟨i1, i2⟩ := ih (k + 1) g1 (hg.trans hgeo) hw1
        have hfit := beamsFit_cons (rs := rs) Tbs hsrc hg hd0 hall hk1
        rw [OccupancyMapper.beamLoop, hb, hg1, Res.ok_bind, ← hang, ← hfit]
        exact ⟨i1, i2⟩
      · have hub := d2 hall
        have hnot : ¬ BeamsFit g0 g Tms scan src (r :: rs) k := by
          rintro ⟨-, b⟩
          apply hall
          rintro ⟨x, y, log⟩ hp
          cases hbh : beamHit g0 Tms scan k r with
          | none => rw [hbh] at hp; simp [beamUpd] at hp
          | some hit =>
            rw [hbh] at hp
            exact b 0 r hit (by simp) (by simpa using hbh) x y
              ((mem_beamUpd (OccupancyMapper.new Tbs) src hit x y).mp ⟨log, hp⟩)
        refine ⟨fun h => absurd h hnot, fun _ => ?_⟩
        rw [OccupancyMapper.beamLoop, hb, hub]
        rfl
    · obtain ⟨hv, hno⟩ : RangeValid scan r ∧ ¬ ∃ p, g.world2Grid (beamEnd Tms scan k r).c0
        (beamEnd Tms scan k r).c1 = .ok p := by
        constructor
        · by_contra h; exact hd0 fun h' => absurd h' h
        · intro h; exact hd0 fun _ => h
      have hnot : ¬ BeamsFit g0 g Tms scan src (r :: rs) k := by
        rintro ⟨a, -⟩
        apply hno
        have := a 0 r (by simp) hv
        rwa [Nat.add_zero, ← hg.world2Grid] at this
      refine ⟨fun h => absurd h hnot, fun _ => ?_⟩
      have hub : g.world2Grid (beamEnd Tms scan k r).c0 (beamEnd Tms scan k r).c1 = .ub :=
        (world2Grid_ok_or_ub g _ _).resolve_left hno
      rw [OccupancyMapper.beamLoop, OccupancyMapper.beam, if_neg (by simp [hv.1, hv.2])]
      simp only [beamEnd] at hub
      simp only [hub]
      rfl

/-- C38, sharp: on any well-formed map, whatever its values, `updateMap` returns precisely when the robot's
position has cell indices and, if these are in the map, the end points of the valid beams have cell indices and
every cell a beam ends in or passes through holds a percentage; otherwise it is undefined behaviour. -/
theorem C38_iff (g : GridMap Dbl) (scan : LaserScan Dbl) (pose : V3 Dbl) (hw : WellFormed g) (hsm : SmallGrid g)
    (hx : g.xsize ≠ 0) (hy : g.ysize ≠ 0) :
    let P := ∃ src, g.world2Grid pose.c0 pose.c1 = .ok src ∧ (IsCell g src.1 src.2 →
      EndsConvert g (sensorPose Tbs pose) scan ∧ ∀ x y, Touched g (sensorPose Tbs pose) scan src x y → PctAt g x y)
    ((∃ r, (OccupancyMapper.new Tbs).updateMap g scan pose = .ok r) ↔ P) ∧
    (¬ P → (OccupancyMapper.new Tbs).updateMap g scan pose = .ub) := by
  intro P
  have key : (P → ∃ r, (OccupancyMapper.new Tbs).updateMap g scan pose = .ok r) ∧
      (¬ P → (OccupancyMapper.new Tbs).updateMap g scan pose = .ub) := by
    rcases world2Grid_ok_or_ub g pose.c0 pose.c1 with ⟨src, hs⟩ | hub
    · have hb := C02_gridBounds_exact_partial g hx hy src.1 src.2
      by_cases hc : IsCell g src.1 src.2
      · obtain ⟨d1, d2⟩ := beamLoop_dichotomy Tbs scan (sensorPose Tbs pose) src g hsm hc scan.ranges 0 g
          (SameGeometry.refl _) hw
        have hP : P ↔ BeamsFit g g (sensorPose Tbs pose) scan src scan.ranges 0 := by
          unfold BeamsFit
          simp only [Nat.zero_add]
          constructor
          · rintro ⟨src', hs', h⟩
            rw [hs, Res.ok.injEq] at hs'
            subst hs'
            obtain ⟨h1, h2⟩ := h hc
            exact ⟨h1, fun i r hit hi hh x y hxy => h2 x y ⟨i, r, hit, hi, hh, hxy⟩⟩
          · rintro ⟨h1, h2⟩
            exact ⟨src, hs, fun _ => ⟨h1, fun x y ⟨i, r, hit, hi, hh, hxy⟩ => h2 i r hit hi hh x y hxy⟩⟩
        unfold OccupancyMapper.updateMap
        rw [hs, Res.ok_bind, if_neg (by simp [hb.mpr hc]), hP]
        dsimp only
        constructor
        · intro h
          obtain ⟨g', h'⟩ := d1 h
          have h' : (OccupancyMapper.new Tbs).beamLoop scan
            ((transform2d pose.c0 pose.c1 pose.c2).mul (OccupancyMapper.new Tbs).Tbs) src scan.ranges
            scan.angle_min g = .ok g' := h'
          rw [h']
          exact ⟨_, rfl⟩
        · intro h
          have h' := d2 h
          have h' : (OccupancyMapper.new Tbs).beamLoop scan
            ((transform2d pose.c0 pose.c1 pose.c2).mul (OccupancyMapper.new Tbs).Tbs) src scan.ranges
            scan.angle_min g = .ub := h'
          rw [h']
          rfl
      · refine ⟨fun _ => ⟨_, (C36_outside (OccupancyMapper.new Tbs) g hx hy scan pose src hs).1 hc⟩, fun h => ?_⟩
        exact absurd ⟨src, hs, fun h => absurd h hc⟩ h
    · refine ⟨?_, fun _ => ?_⟩
      · rintro ⟨src, hs, -⟩
        rw [hub] at hs
        simp at hs
      · unfold OccupancyMapper.updateMap
        rw [hub]
        rfl
  refine ⟨⟨?_, key.1⟩, key.2⟩
  rintro ⟨r, hr⟩
  by_contra hn
  rw [key.2 hn] at hr
  simp at hr

/-- Effect of the beams on all cells, when those they touch hold percentages. -/
theorem beamLoop_touched (scan : LaserScan Dbl) (Tms : M3 Dbl) (src : UInt32 × UInt32) (g0 : GridMap Dbl)
    (hsm : SmallGrid g0) (hsrc : IsCell g0 src.1 src.2) :
    ∀ (rs : List Dbl) (k : Nat) (g : GridMap Dbl), SameGeometry g0 g → WellFormed g →
      BeamsFit g0 g Tms scan src rs k →
      ∃ g', (OccupancyMapper.new Tbs).beamLoop scan Tms src rs (beamAngle scan k) g = .ok g' ∧
        SameGeometry g0 g' ∧ WellFormed g' ∧
        ∀ x y, InGrid g0 x y → ∀ v, cellAt g y.toNat x.toNat = some v →
          ∃ v', cellAt g' y.toNat x.toNat = some v' ∧
            v'.toInt = scanEvidence g0 Tms scan src x y rs k v.toInt := by
  intro rs
  induction rs with
  | nil =>
    intro k g hg hw _
    exact ⟨g, rfl, hg, hw, fun x y _ v hv => ⟨v, hv, rfl⟩⟩
  | cons r rs ih =>
    intro k g hg hw hfit
    have hsm' : SmallGrid g := by unfold SameGeometry at hg; rw [hg]; exact hsm
    have hsrc' := hg.isCell.mpr hsrc
    have hang : beamAngle scan (k + 1) = beamAngle scan k +. scan.angle_increment := by
      unfold beamAngle; rw [Function.iterate_succ_apply']
    have hd0 : RangeValid scan r → ∃ p, g.world2Grid (beamEnd Tms scan k r).c0 (beamEnd Tms scan k r).c1 = .ok p := by
      intro hv
      have := hfit.1 0 r (by simp) hv
      rwa [Nat.add_zero, ← hg.world2Grid] at this
    have hb := beam_eq (OccupancyMapper.new Tbs) scan Tms hsm' hsrc' k r hd0
    have hin := beamUpd_inGrid (OccupancyMapper.new Tbs) hsrc' Tms scan k r
    obtain ⟨d1, -⟩ := applyUpd_dichotomy Tbs _ hw hin (observe_pct Tbs src _)
    rw [hg.beamHit] at hb hin d1
    have htouch : ∀ hit, beamHit g0 Tms scan k r = some hit → ∀ x y : Int, ((x = hit.2.toNat ∧ y = hit.1.toNat) ∨
        OnRay src.2.toNat src.1.toNat hit.2.toNat hit.1.toNat x y) → PctAt g x y := fun hit hh =>
      hfit.2 0 r hit (by simp) (by simpa using hh)
    have hall : ∀ p ∈ beamUpd (OccupancyMapper.new Tbs) src (beamHit g0 Tms scan k r), PctAt g p.1 p.2.1 := by
      rintro ⟨x, y, log⟩ hp
      cases hbh : beamHit g0 Tms scan k r with
      | none => rw [hbh] at hp; simp [beamUpd] at hp
      | some hit =>
        rw [hbh] at hp
        exact htouch hit hbh x y ((mem_beamUpd (OccupancyMapper.new Tbs) src hit x y).mp ⟨log, hp⟩)
    obtain ⟨g1, hg1, hk1⟩ := d1 hall
    obtain ⟨hw1, hgeo, hcell⟩ := applyUpd_spec (OccupancyMapper.new Tbs) _ hw hin hg1
    obtain ⟨g', h1, h2, h3, h5⟩ := ih (k + 1) g1 (hg.trans hgeo) hw1
      ((beamsFit_cons Tbs hsrc hg hd0 hall hk1).mpr hfit)
    refine ⟨g', ?_, h2, h3, ?_⟩
    · rw [OccupancyMapper.beamLoop, hb, hg1, Res.ok_bind, ← hang]
      exact h1
    · intro x y hxy v hv
      obtain ⟨v1, hv1, hc1⟩ := hcell x y (hg.inGrid.mpr hxy) v hv
      obtain ⟨v', j1, j2⟩ := h5 x y hxy v1 hc1
      refine ⟨v', j1, ?_⟩
      rw [j2, scanEvidence]
      congr 1
      cases hbh : beamHit g0 Tms scan k r with
      | none =>
        rw [hbh] at hv1
        simp only [beamUpd, cellFold, Res.ok.injEq] at hv1
        rw [← hv1]; rfl
      | some hit =>
        by_cases ht : (x = hit.2.toNat ∧ y = hit.1.toNat) ∨
            OnRay src.2.toNat src.1.toNat hit.2.toNat hit.1.toNat x y
        · have hpv := htouch hit hbh x y ht v hv
          obtain ⟨e1, e2, e3⟩ := cellFold_beam Tbs src (beamHit g0 Tms scan k r) x y hpv.1 hpv.2
          rw [e1, Res.ok.injEq] at hv1
          rw [← hv1, int8_ofInt e2 e3, hbh]
        · push Not at ht
          have n1 : ¬ (x = hit.2.toNat ∧ y = hit.1.toNat) := fun h => ht.1 h.1 h.2
          rw [hbh, beamUpd, cellFold_append,
            cellFold_not_mem _ _ _ _ (fun hm => ht.2 (mem_rayCells.mp hm).1), Res.ok_bind] at hv1
          simp only [cellFold, if_neg n1, Res.ok.injEq] at hv1
          rw [← hv1, beamEvidence, if_neg n1, if_neg ht.2]

/-- C36, the complete effect on maps with unknown cells: as long as the cells that beams end in or pass through
hold percentages, the others may hold anything; each beam marks its end cell occupied and the cells before it
free, exactly once, and nothing else changes. -/
theorem C36_touched (g : GridMap Dbl) (scan : LaserScan Dbl) (pose : V3 Dbl) (src : UInt32 × UInt32)
    (hw : WellFormed g) (hsm : SmallGrid g) (hs : g.world2Grid pose.c0 pose.c1 = .ok src)
    (hc : IsCell g src.1 src.2) (hd : EndsConvert g (sensorPose Tbs pose) scan)
    (hp : ∀ x y, Touched g (sensorPose Tbs pose) scan src x y → PctAt g x y) :
    ∃ g', (OccupancyMapper.new Tbs).updateMap g scan pose = .ok (true, g') ∧ SameGeometry g g' ∧ WellFormed g' ∧
      ∀ x y, InGrid g x y → ∀ v, cellAt g y.toNat x.toNat = some v →
        ∃ v', cellAt g' y.toNat x.toNat = some v' ∧
          v'.toInt = scanEvidence g (sensorPose Tbs pose) scan src x y scan.ranges 0 v.toInt ∧
          (¬ Touched g (sensorPose Tbs pose) scan src x y → v' = v) := by
  have hx : g.xsize ≠ 0 := by have := hc.2; intro h; rw [h] at this; simp at this
  have hy : g.ysize ≠ 0 := by have := hc.1; intro h; rw [h] at this; simp at this
  have hb := C02_gridBounds_exact_partial g hx hy src.1 src.2
  obtain ⟨g', h1, h2, h3, h5⟩ := beamLoop_touched Tbs scan (sensorPose Tbs pose) src g hsm hc scan.ranges 0 g
    (SameGeometry.refl _) hw ⟨fun i r hi hv => by rw [Nat.zero_add]; exact hd i r hi hv, fun i r hit hi hh x y hxy =>
      hp x y ⟨i, r, hit, hi, by simpa using hh, hxy⟩⟩
  have hup : (OccupancyMapper.new Tbs).updateMap g scan pose = .ok (true, g') := by
    unfold OccupancyMapper.updateMap
    rw [hs, Res.ok_bind, if_neg (by simp [hb.mpr hc])]
    have : (OccupancyMapper.new Tbs).beamLoop scan
        ((transform2d pose.c0 pose.c1 pose.c2).mul (OccupancyMapper.new Tbs).Tbs) src scan.ranges
        scan.angle_min g = .ok g' := h1
    dsimp only
    rw [this]; rfl
  refine ⟨g', hup, h2, h3, fun x y hxy v hv => ?_⟩
  obtain ⟨v', j1, j2⟩ := h5 x y hxy v hv
  refine ⟨v', j1, j2, fun hnt => ?_⟩
  obtain ⟨src', hs', -, -, -, hf⟩ := C36_frame (OccupancyMapper.new Tbs) g g' hw hsm hx hy scan pose hup
  rw [hs, Res.ok.injEq] at hs'
  subst hs'
  by_contra hne
  obtain ⟨k, r, hit, hk, hh, ht⟩ := hf x y hxy (by
    rw [j1, hv]
    simpa using hne)
  exact hnt ⟨k, r, hit, hk, hh, ht⟩

end

/-- C36 in the plane, sharp: the update reports a robot outside the map precisely when the robot is not left of
or below the map, is more than one cell right of or above it, and its cell indices fit `unsigned int`.  Left and
below the behaviour is undefined (`C36_refuted_below`); in the strip of one cell the scan is taken in. -/
theorem C36_iff (Tbs : M3 ℝ) (g : GridMap ℝ) (hr : 0 < g.resolution) (hx : g.xsize ≠ 0) (hy : g.ysize ≠ 0)
    (scan : LaserScan ℝ) (pose : V3 ℝ) :
    (∃ g', (OccupancyMapper.new Tbs).updateMap g scan pose = .ok (false, g')) ↔
      (g.xmin ≤ pose.c0 ∧ g.ymin ≤ pose.c1) ∧
      (g.xmin + (g.xsize.toNat + 1) * g.resolution ≤ pose.c0 ∨
        g.ymin + (g.ysize.toNat + 1) * g.resolution ≤ pose.c1) ∧
      pose.c0 < g.xmin + 2 ^ 32 * g.resolution ∧ pose.c1 < g.ymin + 2 ^ 32 * g.resolution := by
  have hacc := C09_accepted_region_partial g hr hx hy pose.c0 pose.c1
  have hconv : (∃ src, g.world2Grid pose.c0 pose.c1 = .ok src) ↔ (g.xmin ≤ pose.c0 ∧ g.ymin ≤ pose.c1) ∧
      pose.c0 < g.xmin + 2 ^ 32 * g.resolution ∧ pose.c1 < g.ymin + 2 ^ 32 * g.resolution := by
    constructor
    · rintro ⟨src, hs⟩
      unfold GridMap.world2Grid at hs
      obtain ⟨a, ha, hs⟩ := Res.bind_eq_ok.mp hs
      obtain ⟨b, hb, -⟩ := Res.bind_eq_ok.mp hs
      have h1 := strip_of_cast hr ha
      have h2 := strip_of_cast hr hb
      have la : (a.toNat : ℝ) + 1 ≤ 2 ^ 32 := by exact_mod_cast uint32_lt a
      have lb : (b.toNat : ℝ) + 1 ≤ 2 ^ 32 := by exact_mod_cast uint32_lt b
      refine ⟨⟨?_, ?_⟩, ?_, ?_⟩
      · nlinarith [h1.1, mul_nonneg (Nat.cast_nonneg (α := ℝ) a.toNat) hr.le]
      · nlinarith [h2.1, mul_nonneg (Nat.cast_nonneg (α := ℝ) b.toNat) hr.le]
      · nlinarith [h1.2, mul_le_mul_of_nonneg_right la hr.le]
      · nlinarith [h2.2, mul_le_mul_of_nonneg_right lb hr.le]
    · rintro ⟨⟨a1, a2⟩, b1, b2⟩
      have key : ∀ {x lo : ℝ}, lo ≤ x → x < lo + 2 ^ 32 * g.resolution →
          ∃ n, castU32 (Flt.floor ((x - lo) / g.resolution)) = .ok n := by
        intro x lo h1 h2
        have h0 : 0 ≤ (x - lo) / g.resolution := div_nonneg (by linarith) hr.le
        have hlt : (x - lo) / g.resolution < 2 ^ 32 := by rw [div_lt_iff₀ hr]; linarith
        have hf : ⌊(x - lo) / g.resolution⌋ < 2 ^ 32 := by
          have := Int.floor_le ((x - lo) / g.resolution)
          exact_mod_cast lt_of_le_of_lt this hlt
        have hf0 : 0 ≤ ⌊(x - lo) / g.resolution⌋ := Int.floor_nonneg.mpr h0
        simp only [castU32, real_floor, real_trunc, realTrunc_intCast]
        rw [if_pos ⟨hf0, by omega⟩]
        exact ⟨_, rfl⟩
      obtain ⟨a, ha⟩ := key a1 b1
      obtain ⟨b, hb⟩ := key a2 b2
      unfold GridMap.world2Grid
      simp only [real_sub, real_div, ha, hb, Res.ok_bind]
      exact ⟨_, rfl⟩
  constructor
  · rintro ⟨g', h⟩
    rcases world2Grid_ok_or_ub g pose.c0 pose.c1 with ⟨src, hs⟩ | hub
    · obtain ⟨hc, -⟩ := (C36_outside (OccupancyMapper.new Tbs) g hx hy scan pose src hs).2 g' h
      obtain ⟨a, b, c⟩ := hconv.mp ⟨src, hs⟩
      refine ⟨a, ?_, b, c⟩
      by_contra hn
      push Not at hn
      obtain ⟨i, j, h1, h2⟩ := hacc.mpr ⟨a.1, hn.1, a.2, hn.2⟩
      rw [hs, Res.ok.injEq] at h1
      subst h1
      exact hc h2
    · unfold OccupancyMapper.updateMap at h
      rw [hub] at h
      simp at h
  · rintro ⟨a, b, c⟩
    obtain ⟨src, hs⟩ := hconv.mpr ⟨a, c⟩
    refine ⟨g, (C36_outside (OccupancyMapper.new Tbs) g hx hy scan pose src hs).1 fun hc => ?_⟩
    obtain ⟨-, h1, -, h2⟩ := hacc.mp ⟨src.1, src.2, hs, hc⟩
    rcases b with b | b <;> linarith

/-! ### Cases: unknown space behind and under the end of a beam -/

/-- One beam of range 1. -/
noncomputable def shortBeam : LaserScan Dbl := ⟨.fin 0, .fin 1, .fin 0, .fin 10, [.fin 1]⟩

theorem short_beam : beamEnd (sensorPose idT ⟨.fin 0.5, .fin 0.5, .fin 0⟩) shortBeam 0 (.fin 1) =
    ⟨.fin 1.5, .fin 0.5, .fin 1⟩ := by
  simp only [beamEnd, beamAngle, shortBeam, sensorPose, idT, polar2CartesianHomo, transform2d,
    M3.mulVec, M3.mul, M3.t, V3.dot, Function.iterate_zero, id, Dbl.cos_fin, Dbl.sin_fin,
    Dbl.mul_fin, Dbl.add_fin, Dbl.neg_fin, Dbl.lit_eq]
  norm_num

theorem short_world (a b c : Int8) : (stripGrid a b c).world2Grid (.fin 1.5) (.fin 0.5) = .ok (0, 1) :=
  strip_world (i := 0) (j := 1) (by norm_num) (by norm_num) (by norm_num) (by norm_num) (by norm_num) (by norm_num)

theorem strip_src_any (a b c : Int8) : (stripGrid a b c).world2Grid (.fin 0.5) (.fin 0.5) = .ok (0, 0) :=
  strip_world (i := 0) (j := 0) (by norm_num) (by norm_num) (by norm_num) (by norm_num) (by norm_num) (by norm_num)

theorem strip_small (a b c : Int8) : SmallGrid (stripGrid a b c) := by
  show (3 : UInt32).toNat < 2147483648 ∧ (1 : UInt32).toNat < 2147483648
  decide

theorem strip_cell (a b c : Int8) : IsCell (stripGrid a b c) 0 0 := by
  show (0 : UInt32).toNat < (1 : UInt32).toNat ∧ (0 : UInt32).toNat < (3 : UInt32).toNat
  decide

theorem short_ranges {k : Nat} {r : Dbl} (hk : shortBeam.ranges[k]? = some r) : k = 0 ∧ r = .fin 1 := by
  rcases k with _ | k
  · simp only [shortBeam, List.getElem?_cons_zero, Option.some.injEq] at hk
    exact ⟨rfl, hk.symm⟩
  · simp [shortBeam] at hk

/-- The cell behind the end of the beam is unknown; the update goes through and leaves it unknown. -/
example : ∃ g', (OccupancyMapper.new idT).updateMap (stripGrid 50 50 (-1)) shortBeam ⟨.fin 0.5, .fin 0.5, .fin 0⟩ =
    .ok (true, g') ∧ cellAt g' 0 2 = some (-1) := by
  have hno : ∀ x y, Touched (stripGrid 50 50 (-1)) (sensorPose idT ⟨.fin 0.5, .fin 0.5, .fin 0⟩) shortBeam (0, 0) x y →
      x = 0 ∧ y = 0 ∨ x = 1 ∧ y = 0 := by
    rintro x y ⟨k, r, hit, hk, hh, ht⟩
    obtain ⟨rfl, rfl⟩ := short_ranges hk
    unfold beamHit at hh
    rw [if_pos (by simp only [RangeValid, shortBeam, Dbl.lt_fin_false]; norm_num), short_beam] at hh
    simp only [short_world] at hh
    split at hh
    · simp only [Option.some.injEq] at hh
      subst hh
      simp only [OnRay, show (1 : UInt32).toNat = 1 from rfl, show (0 : UInt32).toNat = 0 from rfl] at ht
      rcases ht with ⟨h1, h2⟩ | ht
      · right; exact ⟨h1, h2⟩
      · simp [SegmentCell] at ht
        omega
    · cases hh
  obtain ⟨g', h1, -, -, h4⟩ := C36_touched idT (stripGrid 50 50 (-1)) shortBeam ⟨.fin 0.5, .fin 0.5, .fin 0⟩ (0, 0)
    (stripGrid_wf _ _ _) (strip_small _ _ _) (strip_src_any _ _ _) (strip_cell _ _ _)
    (fun k r hk _ => by
      obtain ⟨rfl, rfl⟩ := short_ranges hk
      rw [short_beam]
      exact ⟨_, short_world _ _ _⟩)
    (fun x y ht v hv => by
      rcases hno x y ht with ⟨rfl, rfl⟩ | ⟨rfl, rfl⟩
      · have : v = 50 := (Option.some.inj hv).symm
        subst this; decide
      · have : v = 50 := (Option.some.inj hv).symm
        subst this; decide)
  refine ⟨g', h1, ?_⟩
  obtain ⟨v', j1, -, j3⟩ := h4 2 0 ⟨by decide, by show (2 : Int) < (3 : UInt32).toNat; decide, by decide,
    by show (0 : Int) < (1 : UInt32).toNat; decide⟩ (-1) rfl
  rw [j3 (fun ht => by rcases hno _ _ ht with ⟨h, -⟩ | ⟨h, -⟩ <;> omega)] at j1
  exact j1

/-- The end cell itself is unknown: undefined behaviour. -/
example : (OccupancyMapper.new idT).updateMap (stripGrid 50 50 (-1)) oneBeam ⟨.fin 0.5, .fin 0.5, .fin 0⟩ = .ub := by
  apply (C38_iff idT (stripGrid 50 50 (-1)) oneBeam ⟨.fin 0.5, .fin 0.5, .fin 0⟩ (stripGrid_wf _ _ _)
    (strip_small _ _ _) (by show (3 : UInt32) ≠ 0; decide) (by show (1 : UInt32) ≠ 0; decide)).2
  rintro ⟨src, hs, h⟩
  rw [strip_src_any, Res.ok.injEq] at hs
  subst hs
  have := (h (strip_cell _ _ _)).2 2 0 ⟨0, .fin 2, (0, 2), rfl, strip_hit _ _ _, Or.inl ⟨rfl, rfl⟩⟩ (-1) rfl
  revert this
  decide

/-- A map of 2 × 2 unit cells at the origin and a robot at (5, 1): reported as outside the map. -/
example : ∃ g', (OccupancyMapper.new ⟨⟨1, 0, 0⟩, ⟨0, 1, 0⟩, ⟨0, 0, 1⟩⟩).updateMap
    ({ xsize := 2, ysize := 2, resolution := 1, xmin := 0, ymin := 0, xmax := 2, ymax := 2,
       data := [0, 0, 0, 0] } : GridMap ℝ) ⟨0, 1, 0, 10, [1]⟩ ⟨5, 1, 0⟩ = .ok (false, g') := by
  rw [C36_iff _ _ (by norm_num) (by decide) (by decide)]
  simp only [show (2 : UInt32).toNat = 2 from rfl]
  norm_num

end Ergodic
