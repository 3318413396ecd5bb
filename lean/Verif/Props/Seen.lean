import Verif.Spec.Seen
import Verif.Props.MapUpdate
import Verif.Props.Slip

/-!
# C118: what a scan shows is an obstacle, unless other beams of the scan erase it
-/

namespace Ergodic

/-- One beam's effect on the value of a cell. -/
def seenStep (src : UInt32 × UInt32) (x y : Int) (c : Int) (h : UInt32 × UInt32) : Int :=
  if EndsIn x y h then occStep c else if PassesBy src x y h then freeStep c else c

theorem scanEvidence_cells {F : Type} [Flt F] (g : GridMap F) (Tms : M3 F) (scan : LaserScan F)
    (src : UInt32 × UInt32) (x y : Int) : ∀ (rs : List F) (k : Nat) (c : Int),
    scanEvidence g Tms scan src x y rs k c = (beamCells g Tms scan rs k).foldl (seenStep src x y) c := by
  intro rs
  induction rs with
  | nil => intro k c; rfl
  | cons r rs ih =>
    intro k c
    rw [scanEvidence, beamCells, List.foldl_append, ih]
    congr 1
    cases beamHit g Tms scan k r with
    | none => rfl
    | some h =>
      simp only [beamEvidence, Option.toList_some, List.foldl_cons, List.foldl_nil, seenStep, PassesBy, EndsIn]
      split_ifs <;> simp_all

theorem beamCells_congr {F : Type} [Flt F] {a b : GridMap F} (h : SameGeometry a b) (Tms : M3 F)
    (scan : LaserScan F) : ∀ (rs : List F) (k : Nat), beamCells b Tms scan rs k = beamCells a Tms scan rs k := by
  intro rs
  induction rs with
  | nil => intro k; rfl
  | cons r rs ih => intro k; rw [beamCells, beamCells, ih, h.beamHit]

theorem Shows.congr {F : Type} [Flt F] {a b : GridMap F} (h : SameGeometry a b) {Tbs : M3 F} {scan : LaserScan F}
    {pose : V3 F} {x y : Int} (hs : Shows Tbs a scan pose x y) : Shows Tbs b scan pose x y := by
  obtain ⟨src, h1, h2, h3, h4, h5⟩ := hs
  refine ⟨src, by rw [h.world2Grid]; exact h1, h.isCell.mpr h2, ?_, ?_, ?_⟩
  · intro k r hk hv
    rw [h.world2Grid]
    exact h3 k r hk hv
  · rw [beamCells_congr h]; exact h4
  · rw [beamCells_congr h]; exact h5

/-! ## Few crossings: the cell is an obstacle -/

theorem occ_step_bounds {c : Int} (h1 : c ≤ 100) :
    (33 ≤ c → 80 ≤ occStep c) ∧ (48 ≤ c → 89 ≤ occStep c) ∧ (80 ≤ c → 80 ≤ occStep c) ∧
    (89 ≤ c → 89 ≤ occStep c) := by
  unfold occStep
  refine ⟨fun h => ?_, fun h => ?_, fun h => ?_, fun h => ?_⟩ <;>
    (rw [Int.le_ediv_iff_mul_le (by omega)]; omega)

theorem free_step_bounds {c : Int} (h1 : c ≤ 100) :
    (48 ≤ c → 33 ≤ freeStep c) ∧ (89 ≤ c → 80 ≤ freeStep c) := by
  unfold freeStep
  refine ⟨fun h => ?_, fun h => ?_⟩ <;>
    (rw [Int.le_ediv_iff_mul_le (by omega)]; omega)

theorem seenStep_range (src : UInt32 × UInt32) (x y : Int) {c : Int} (h0 : 0 ≤ c) (h1 : c ≤ 100)
    (h : UInt32 × UInt32) : 0 ≤ seenStep src x y c h ∧ seenStep src x y c h ≤ 100 := by
  have a := occStep_range h0 h1
  have b := freeStep_range h0 h1
  unfold seenStep
  split_ifs <;> omega

/-- Lower bounds on the value of a cell, by whether it has been hit and whether it has been crossed. -/
theorem seen_fold (src : UInt32 × UInt32) (x y : Int) : ∀ (hs : List (UInt32 × UInt32)) (c : Int), c ≤ 100 →
    (hs.countP (fun h => decide (PassesBy src x y h)) = 0 → 80 ≤ c → 80 ≤ hs.foldl (seenStep src x y) c) ∧
    (hs.countP (fun h => decide (PassesBy src x y h)) ≤ 1 → 89 ≤ c → 80 ≤ hs.foldl (seenStep src x y) c) ∧
    (hs.countP (fun h => decide (PassesBy src x y h)) = 0 → 33 ≤ c → (∃ h ∈ hs, EndsIn x y h) →
      80 ≤ hs.foldl (seenStep src x y) c) ∧
    (hs.countP (fun h => decide (PassesBy src x y h)) ≤ 1 → 48 ≤ c → (∃ h ∈ hs, EndsIn x y h) →
      80 ≤ hs.foldl (seenStep src x y) c) := by
  intro hs
  induction hs with
  | nil => intro c h1; refine ⟨?_, ?_, ?_, ?_⟩ <;> simp <;> omega
  | cons h hs ih =>
    intro c h1
    have hob := occ_step_bounds h1
    have hfb := free_step_bounds h1
    simp only [List.foldl_cons, List.countP_cons, List.mem_cons, exists_eq_or_imp]
    by_cases he : EndsIn x y h
    · have hp : ¬ PassesBy src x y h := fun hp => hp.1 he
      have hst : seenStep src x y c h = occStep c := by rw [seenStep, if_pos he]
      simp only [hp, decide_false, if_false, Bool.false_eq_true, Nat.add_zero, hst]
      refine ⟨fun a b => ?_, fun a b => ?_, fun a b _ => ?_, fun a b _ => ?_⟩
      all_goals
        have hr := (occStep_range (by omega) h1).2
        obtain ⟨i1, i2, -, -⟩ := ih (occStep c) hr
      · exact i1 a (hob.2.2.1 b)
      · exact i2 a (hob.2.2.2 b)
      · exact i1 a (hob.1 b)
      · exact i2 a (hob.2.1 b)
    · by_cases hp : PassesBy src x y h
      · have hst : seenStep src x y c h = freeStep c := by rw [seenStep, if_neg he, if_pos hp]
        simp only [hp, decide_true, if_true, hst, he, false_or]
        refine ⟨fun a b => by omega, fun a b => ?_, fun a b _ => by omega, fun a b e => ?_⟩
        all_goals
          have hr := (freeStep_range (by omega) h1).2
          obtain ⟨i1, -, i3, -⟩ := ih (freeStep c) (by omega)
        · exact i1 (by omega) (hfb.2 b)
        · exact i3 (by omega) (hfb.1 b) e
      · have hst : seenStep src x y c h = c := by rw [seenStep, if_neg he, if_neg hp]
        simp only [hp, decide_false, if_false, Bool.false_eq_true, Nat.add_zero, hst, he, false_or]
        exact ih c h1

/-- The shipped threshold, 0.8, in percent. -/
theorem occupied_iff_pct (g : GridMap Dbl) (i j : Int) : Occupied (.fin (4 / 5) : Dbl) g i j ↔
    InGrid g j i ∧ ∃ v : Int8, cellAt g i.toNat j.toNat = some v ∧ 80 ≤ v.toInt := by
  have key : ∀ v : Int8, Flt.lt (Flt.ofInt v.toInt /. lit 100 0 : Dbl) (.fin (4 / 5)) = false ↔ 80 ≤ v.toInt := by
    intro v
    rw [Dbl.ofInt_eq, Dbl.lit_eq, Dbl.div_fin _ (by norm_num), Dbl.lt_fin_false]
    rw [le_div_iff₀ (by norm_num)]
    norm_num
    norm_cast
  unfold Occupied InGrid
  constructor
  · rintro ⟨a, b, c, d, v, hv, hl⟩
    exact ⟨⟨c, d, a, b⟩, v, hv, (key v).mp hl⟩
  · rintro ⟨⟨c, d, a, b⟩, v, hv, hl⟩
    exact ⟨a, b, c, d, v, hv, (key v).mpr hl⟩

/-- C118: a cell that is not thought to be free (value at least 48; unknown is 50) and in which a beam of the scan
ends, while at most one beam crosses it, is an obstacle for the shipped threshold after the scan. -/
theorem C118_seen_partial (Tbs : M3 Dbl) (g : GridMap Dbl) (hw : WellFormed g) (hsm : SmallGrid g)
    (hp : Percentages g) (scan : LaserScan Dbl) (pose : V3 Dbl) (x y : Int) (hin : InGrid g x y) (v : Int8)
    (hv : cellAt g y.toNat x.toNat = some v) (h48 : 48 ≤ v.toInt) (hs : Shows Tbs g scan pose x y) :
    ∃ g', (OccupancyMapper.new Tbs).updateMap g scan pose = .ok (true, g') ∧ SameGeometry g g' ∧ WellFormed g' ∧
      Percentages g' ∧ Occupied (.fin (4 / 5)) g' y x := by
  obtain ⟨src, h1, h2, h3, h4, h5⟩ := hs
  obtain ⟨g', e1, e2, e3, e4, e5⟩ := C36_evidence Tbs g hw hsm hp scan pose src h1 h2 h3
  refine ⟨g', e1, e2, e3, e4, ?_⟩
  obtain ⟨v', f1, f2⟩ := e5 x y hin v hv
  rw [occupied_iff_pct]
  refine ⟨e2.inGrid.mpr hin, v', f1, ?_⟩
  rw [f2, scanEvidence_cells]
  have hv100 : v.toInt ≤ 100 := (hp v (List.mem_of_getElem? hv)).2
  exact (seen_fold src x y _ _ hv100).2.2.2 h5 h48 h4

/-- C118 for any number of scans: as long as every scan shows the cell, it is an obstacle after each of them. -/
theorem C118_scans_partial (Tbs : M3 Dbl) (x y : Int) : ∀ (l : List (LaserScan Dbl × V3 Dbl)) (g : GridMap Dbl),
    WellFormed g → SmallGrid g → Percentages g → InGrid g x y →
    (∃ v : Int8, cellAt g y.toNat x.toNat = some v ∧ 48 ≤ v.toInt) → (∀ sp ∈ l, Shows Tbs g sp.1 sp.2 x y) → l ≠ [] →
    ∃ g', runScans (OccupancyMapper.new Tbs) l g = .ok g' ∧ SameGeometry g g' ∧ WellFormed g' ∧ Percentages g' ∧
      Occupied (.fin (4 / 5)) g' y x := by
  intro l
  induction l with
  | nil => intro g _ _ _ _ _ _ h; exact absurd rfl h
  | cons sp t ih =>
    intro g hw hsm hp hin ⟨v, hv, h48⟩ hs _
    obtain ⟨g1, a1, a2, a3, a4, a5⟩ := C118_seen_partial Tbs g hw hsm hp sp.1 sp.2 x y hin v hv h48
      (hs sp (by simp))
    have hrun : runScans (OccupancyMapper.new Tbs) (sp :: t) g = runScans (OccupancyMapper.new Tbs) t g1 := by
      rw [runScans, a1]; rfl
    rw [hrun]
    by_cases ht : t = []
    · subst ht
      exact ⟨g1, rfl, a2, a3, a4, a5⟩
    · obtain ⟨hin1, v1, hv1, h80⟩ := (occupied_iff_pct g1 y x).mp a5
      obtain ⟨g', b1, b2, b3, b4, b5⟩ := ih g1 a3
        (by have a2' := a2; unfold SameGeometry at a2'; rw [a2']; exact hsm) a4 hin1 ⟨v1, hv1, by omega⟩
        (fun sp' h => (hs sp' (by simp [h])).congr a2) ht
      exact ⟨g', b1, a2.trans b2, b3, b4, b5⟩

/-- C118 from the scanner to the motion: a robot that enters a scan into its map and then checks its pose against that
map, at every step, with scans that all show an obstacle, does not get that obstacle inside its boundary radius `b`
(in cells), if it starts with the obstacle outside the padded radius, moves by at most a cell at a time and passes
every check. -/
theorem C118_avoided_partial (Tbs : M3 Dbl) (c : Collision Dbl) (hthr : c.occupied_threshold = .fin (4 / 5))
    (gs : Nat → GridMap Dbl) (scans : Nat → LaserScan Dbl) (ps : Nat → V3 Dbl) (cfgs : Nat → CollisionConfig)
    (b rc x y : Int) (hb : 1 ≤ b) (hrc : b + 3 ≤ rc) (n : Nat) (hw : WellFormed (gs 0)) (hsm : SmallGrid (gs 0))
    (hp : Percentages (gs 0)) (hin : InGrid (gs 0) x y)
    (hv : ∃ v : Int8, cellAt (gs 0) y.toNat x.toNat = some v ∧ 48 ≤ v.toInt)
    (hscan : ∀ k ≤ n, Shows Tbs (gs 0) (scans k) (ps k) x y ∧
      (OccupancyMapper.new Tbs).updateMap (gs k) (scans k) (ps k) = .ok (true, gs (k + 1)))
    (hcfg : ∀ k ≤ n, c.config (gs (k + 1)) (ps k) = .ok (cfgs k) ∧ InRange (gs (k + 1)) (cfgs k) ∧
      (cfgs k).r_bnd ≤ b ∧ (cfgs k).r_col = rc ∧ rc ≤ (cfgs k).r_max)
    (h0 : rc * rc < sqCells (cfgs 0) y x)
    (h : ∀ k < n, Touching (cfgs k) (cfgs (k + 1)) ∧ c.collisionCheck (gs (k + 2)) (ps (k + 1)) = .ok false) :
    (b + 1) * (b + 1) ≤ sqCells (cfgs n) y x := by
  have inv : ∀ k ≤ n + 1, SameGeometry (gs 0) (gs k) ∧ WellFormed (gs k) ∧ Percentages (gs k) ∧
      (∃ v : Int8, cellAt (gs k) y.toNat x.toNat = some v ∧ 48 ≤ v.toInt) ∧
      (1 ≤ k → Occupied (.fin (4 / 5)) (gs k) y x) := by
    intro k
    induction k with
    | zero => intro _; exact ⟨.refl _, hw, hp, hv, by omega⟩
    | succ k ih =>
      intro hk
      obtain ⟨i1, i2, i3, ⟨v, i4, i5⟩, -⟩ := ih (by omega)
      obtain ⟨s1, s2⟩ := hscan k (by omega)
      obtain ⟨g', a1, a2, a3, a4, a5⟩ := C118_seen_partial Tbs (gs k) i2
        (by have i1' := i1; unfold SameGeometry at i1'; rw [i1']; exact hsm) i3 (scans k) (ps k) x y
        (i1.inGrid.mpr hin) v i4 i5 (s1.congr i1)
      rw [s2, Res.ok.injEq, Prod.mk.injEq] at a1
      obtain ⟨-, rfl⟩ := a1
      obtain ⟨-, v1, hv1, h80⟩ := (occupied_iff_pct _ y x).mp a5
      exact ⟨i1.trans a2, a3, a4, ⟨v1, hv1, by omega⟩, fun _ => a5⟩
  refine C117_cells c (fun k => gs (k + 1)) ps cfgs b rc y x hb hrc n (fun k hk => ?_) h0 h
  obtain ⟨c1, c2, c3, c4, c5⟩ := hcfg k hk
  obtain ⟨-, i2, -, -, i5⟩ := inv (k + 1) (by omega)
  exact ⟨i2, c1, c2, c3, c4, c5, by rw [hthr]; exact i5 (by omega)⟩

/-! ## Many crossings: the cell is free -/

/-- Upper bounds on a value that started at 99 or below and has been crossed `n` times. -/
def crossed : Nat → Int
  | 0 => 99
  | 1 => 98
  | 2 => 96
  | 3 => 92
  | 4 => 86
  | _ => 76

theorem crossed_step (n : Nat) {c : Int} (h0 : 0 ≤ c) (h : c ≤ crossed n) : freeStep c ≤ crossed (n + 1) := by
  have hf := freeStep_range h0 (h.trans (by unfold crossed; split <;> omega))
  have key : ∀ a b : Int, c ≤ a → a ≤ 99 → 700 * a < (b + 1) * (1300 - 6 * a) → 0 ≤ b → freeStep c ≤ b := by
    intro a b h1 h2 h3 h4
    unfold freeStep
    have : 700 * c / (1300 - 6 * c) < b + 1 := by
      rw [Int.ediv_lt_iff_lt_mul (by omega)]
      nlinarith
    omega
  match n, h with
  | 0, h => exact key 99 98 h (by norm_num) (by norm_num) (by norm_num)
  | 1, h => exact key 98 96 h (by norm_num) (by norm_num) (by norm_num)
  | 2, h => exact key 96 92 h (by norm_num) (by norm_num) (by norm_num)
  | 3, h => exact key 92 86 h (by norm_num) (by norm_num) (by norm_num)
  | 4, h => exact key 86 76 h (by norm_num) (by norm_num) (by norm_num)
  | n + 5, h => exact hf.2.trans h

theorem seen_le_99 (src : UInt32 × UInt32) (x y : Int) : ∀ (hs : List (UInt32 × UInt32)) (c : Int), 0 ≤ c → c ≤ 99 →
    0 ≤ hs.foldl (seenStep src x y) c ∧ hs.foldl (seenStep src x y) c ≤ 99 := by
  intro hs
  induction hs with
  | nil => intro c h0 h1; exact ⟨h0, h1⟩
  | cons h hs ih =>
    intro c h0 h1
    rw [List.foldl_cons]
    have hr := seenStep_range src x y h0 (by omega) h
    have hf := freeStep_range h0 (by omega)
    have ho : occStep c ≤ 99 := by
      unfold occStep
      have : 900 * c / (100 + 8 * c) < 100 := by rw [Int.ediv_lt_iff_lt_mul (by omega)]; omega
      omega
    apply ih _ hr.1
    unfold seenStep
    split_ifs <;> omega

theorem crossed_fold (src : UInt32 × UInt32) (x y : Int) : ∀ (hs : List (UInt32 × UInt32)) (n : Nat) (c : Int),
    0 ≤ c → c ≤ crossed n → (∀ h ∈ hs, ¬ EndsIn x y h) →
    hs.foldl (seenStep src x y) c ≤ crossed (n + hs.countP (fun h => decide (PassesBy src x y h))) := by
  intro hs
  induction hs with
  | nil => intro n c _ h1 _; exact h1
  | cons h hs ih =>
    intro n c h0 h1 he
    rw [List.foldl_cons, List.countP_cons]
    have h99 : c ≤ 99 := h1.trans (by unfold crossed; split <;> omega)
    have hn := he h (by simp)
    by_cases hp : PassesBy src x y h
    · have hst : seenStep src x y c h = freeStep c := by rw [seenStep, if_neg hn, if_pos hp]
      simp only [hp, decide_true, if_true, hst]
      have := ih (n + 1) (freeStep c) (freeStep_range h0 (by omega)).1 (crossed_step n h0 h1)
        (fun h' hh => he h' (by simp [hh]))
      rwa [show n + 1 + hs.countP (fun h => decide (PassesBy src x y h)) =
        n + (hs.countP (fun h => decide (PassesBy src x y h)) + 1) by omega] at this
    · have hst : seenStep src x y c h = c := by rw [seenStep, if_neg hn, if_neg hp]
      simp only [hp, decide_false, if_false, Bool.false_eq_true, Nat.add_zero, hst]
      exact ih n c h0 h1 (fun h' hh => he h' (by simp [hh]))

/-- C118, the other side: however often a cell (below 100) has been hit, in this scan and before, five beams that
cross it after the last one that ends in it erase it: it is not an obstacle for the shipped threshold. -/
theorem C118_erased (Tbs : M3 Dbl) (g : GridMap Dbl) (hw : WellFormed g) (hsm : SmallGrid g)
    (hp : Percentages g) (scan : LaserScan Dbl) (pose : V3 Dbl) (src : UInt32 × UInt32)
    (hs : g.world2Grid pose.c0 pose.c1 = .ok src) (hc : IsCell g src.1 src.2)
    (hd : EndsConvert g (sensorPose Tbs pose) scan) (x y : Int) (hin : InGrid g x y) (v : Int8)
    (hv : cellAt g y.toNat x.toNat = some v) (h99 : v.toInt ≤ 99) (pre post : List (UInt32 × UInt32))
    (hcells : beamCells g (sensorPose Tbs pose) scan scan.ranges 0 = pre ++ post)
    (hno : ∀ h ∈ post, ¬ EndsIn x y h) (h5 : 5 ≤ post.countP (fun h => decide (PassesBy src x y h))) :
    ∃ g', (OccupancyMapper.new Tbs).updateMap g scan pose = .ok (true, g') ∧ ¬ Occupied (.fin (4 / 5)) g' y x := by
  obtain ⟨g', e1, e2, e3, e4, e5⟩ := C36_evidence Tbs g hw hsm hp scan pose src hs hc hd
  refine ⟨g', e1, ?_⟩
  obtain ⟨v', f1, f2⟩ := e5 x y hin v hv
  rw [occupied_iff_pct]
  rintro ⟨-, w, hw', h80⟩
  rw [f1, Option.some.injEq] at hw'
  subst hw'
  rw [f2, scanEvidence_cells, hcells, List.foldl_append] at h80
  obtain ⟨a, b⟩ := seen_le_99 src x y pre v.toInt (hp v (List.mem_of_getElem? hv)).1 h99
  have := crossed_fold src x y post 0 _ a b hno
  have hc5 : ∀ n, 5 ≤ n → crossed n = 76 := by
    intro n hn
    obtain ⟨m, rfl⟩ : ∃ m, n = m + 5 := ⟨n - 5, by omega⟩
    rfl
  rw [Nat.zero_add, hc5 _ h5] at this
  omega

/-! ## Cases -/

/-- C118, full statement: a cell in which a beam of the scan ends and that is not thought to be free (at least 50)
is an obstacle for the shipped threshold after the scan. -/
def C118_statement : Prop :=
  ∀ (Tbs : M3 Dbl) (g : GridMap Dbl) (scan : LaserScan Dbl) (pose : V3 Dbl) (src : UInt32 × UInt32) (x y : Int)
    (v : Int8), WellFormed g → SmallGrid g → Percentages g → InGrid g x y →
    cellAt g y.toNat x.toNat = some v → 50 ≤ v.toInt → g.world2Grid pose.c0 pose.c1 = .ok src →
    IsCell g src.1 src.2 → EndsConvert g (sensorPose Tbs pose) scan →
    (∃ h ∈ beamCells g (sensorPose Tbs pose) scan scan.ranges 0, EndsIn x y h) →
    ∃ g', (OccupancyMapper.new Tbs).updateMap g scan pose = .ok (true, g') ∧ Occupied (.fin (4 / 5)) g' y x

/-- Beams a hundredth of a radian apart: the first ends a metre away, the others two metres away. -/
noncomputable def grazeScan (n : Nat) : LaserScan Dbl :=
  ⟨.fin 0, .fin 0.01, .fin 0, .fin 10, .fin 1 :: List.replicate n (.fin 2)⟩

noncomputable def grazePose : V3 Dbl := ⟨.fin 0.5, .fin 0.5, .fin 0⟩

theorem graze_angle (n k : Nat) : beamAngle (grazeScan n) k = .fin (k * 0.01) := by
  unfold beamAngle
  induction k with
  | zero => simp [grazeScan]
  | succ k ih =>
    rw [Function.iterate_succ_apply', ih]
    simp only [grazeScan, Dbl.add_fin]
    congr 1
    push_cast
    ring

theorem graze_end (n k : Nat) (r : ℝ) : beamEnd (sensorPose idT grazePose) (grazeScan n) k (.fin r) =
    ⟨.fin (r * Real.cos (k * 0.01) + 0.5), .fin (r * Real.sin (k * 0.01) + 0.5), .fin 1⟩ := by
  unfold beamEnd
  rw [graze_angle]
  simp only [grazePose, sensorPose, idT, polar2CartesianHomo, transform2d,
    M3.mulVec, M3.mul, M3.t, V3.dot, id, Dbl.cos_fin, Dbl.sin_fin,
    Dbl.mul_fin, Dbl.add_fin, Dbl.neg_fin, Dbl.lit_eq]
  norm_num

theorem graze_first (n : Nat) (a b c : Int8) :
    beamHit (stripGrid a b c) (sensorPose idT grazePose) (grazeScan n) 0 (.fin 1) = some (0, 1) := by
  unfold beamHit
  rw [if_pos (by simp only [RangeValid, grazeScan, Dbl.lt_fin_false]; norm_num), graze_end]
  simp only
  rw [strip_world (i := 0) (j := 1) (by norm_num) (by norm_num) (by norm_num) (by norm_num)
    (by norm_num) (by norm_num)]
  simp only
  rw [if_pos]
  · rfl
  · show (UInt32.ofNat 0).toNat < (1 : UInt32).toNat ∧ (UInt32.ofNat 1).toNat < (3 : UInt32).toNat
    decide

theorem graze_world (n : Nat) (a b c : Int8) {k : Nat} (hk : k ≤ 10) :
    (stripGrid a b c).world2Grid (beamEnd (sensorPose idT grazePose) (grazeScan n) k (.fin 2)).c0
      (beamEnd (sensorPose idT grazePose) (grazeScan n) k (.fin 2)).c1 = .ok (0, 2) := by
  have hk1 : (k : ℝ) ≤ 10 := by exact_mod_cast hk
  have hk0 : (0 : ℝ) ≤ k := k.cast_nonneg
  have c1 : Real.cos (k * 0.01) ≤ 1 := Real.cos_le_one _
  have c0 := Real.one_sub_sq_div_two_le_cos (x := (k : ℝ) * 0.01)
  have s1 : Real.sin (k * 0.01) ≤ k * 0.01 := Real.sin_le (by positivity)
  have s0 : 0 ≤ Real.sin (k * 0.01) :=
    Real.sin_nonneg_of_nonneg_of_le_pi (by positivity) (by norm_num; linarith [Real.two_le_pi])
  have c2 : ((k : ℝ) * 0.01) ^ 2 ≤ 0.01 := by norm_num; nlinarith
  rw [graze_end]
  norm_num at c0 c1 c2 s0 s1 ⊢
  exact strip_world (i := 0) (j := 2) (by push_cast; linarith) (by push_cast; linarith) (by push_cast; linarith)
    (by push_cast; linarith) (by norm_num) (by norm_num)

theorem graze_hit (n : Nat) (a b c : Int8) {k : Nat} (hk : k ≤ 10) :
    beamHit (stripGrid a b c) (sensorPose idT grazePose) (grazeScan n) k (.fin 2) = some (0, 2) := by
  unfold beamHit
  rw [if_pos (by simp only [RangeValid, grazeScan, Dbl.lt_fin_false]; norm_num)]
  rw [graze_world n a b c hk]
  simp only
  rw [if_pos]
  show (0 : UInt32).toNat < (1 : UInt32).toNat ∧ (2 : UInt32).toNat < (3 : UInt32).toNat
  decide

theorem graze_ends (n : Nat) (hn : n ≤ 10) (a b c : Int8) :
    EndsConvert (stripGrid a b c) (sensorPose idT grazePose) (grazeScan n) := by
  intro k r hk _
  cases k with
  | zero =>
    simp only [grazeScan, List.getElem?_cons_zero, Option.some.injEq] at hk
    subst hk
    refine ⟨(0, 1), ?_⟩
    rw [graze_end]
    exact strip_world (i := 0) (j := 1) (by norm_num) (by norm_num) (by norm_num) (by norm_num) (by norm_num)
      (by norm_num)
  | succ k =>
    simp only [grazeScan, List.getElem?_cons_succ, List.getElem?_replicate] at hk
    split at hk
    · simp only [Option.some.injEq] at hk
      subst hk
      exact ⟨_, graze_world n a b c (by omega)⟩
    · cases hk

theorem graze_tail (n : Nat) (a b c : Int8) : ∀ (m k : Nat), m + k ≤ 11 →
    beamCells (stripGrid a b c) (sensorPose idT grazePose) (grazeScan n) (List.replicate m (.fin 2)) k =
      List.replicate m (0, 2) := by
  intro m
  induction m with
  | zero => intro k _; rfl
  | succ m ih =>
    intro k hk
    rw [List.replicate_succ, beamCells, graze_hit n a b c (by omega), ih (k + 1) (by omega)]
    rfl

theorem graze_cells (n : Nat) (hn : n ≤ 10) (a b c : Int8) :
    beamCells (stripGrid a b c) (sensorPose idT grazePose) (grazeScan n) (grazeScan n).ranges 0 =
      (0, 1) :: List.replicate n (0, 2) := by
  show (beamHit (stripGrid a b c) (sensorPose idT grazePose) (grazeScan n) 0 (.fin 1)).toList ++
    beamCells (stripGrid a b c) (sensorPose idT grazePose) (grazeScan n) (List.replicate n (.fin 2)) 1 = _
  rw [graze_first, graze_tail n a b c n 1 (by omega)]
  rfl

theorem graze_pct : Percentages (stripGrid 50 50 50) := by
  intro v hv
  simp only [stripGrid, List.mem_cons, List.not_mem_nil, or_false, or_self] at hv
  subst hv; decide

theorem graze_in : InGrid (stripGrid 50 50 50) 1 0 :=
  ⟨by decide, by show (1 : Int) < (3 : UInt32).toNat; decide, by decide,
    by show (0 : Int) < (1 : UInt32).toNat; decide⟩

/-- C118 is false: two beams that graze the cell erase the obstacle the first beam found in it. -/
theorem C118_refuted : ¬ C118_statement := by
  intro h
  obtain ⟨g', h1, h2⟩ := h idT (stripGrid 50 50 50) (grazeScan 2) grazePose (0, 0) 1 0 50 (stripGrid_wf _ _ _)
    (strip_small _ _ _) graze_pct graze_in rfl (by decide) (strip_src_any _ _ _) (strip_cell _ _ _)
    (graze_ends 2 (by norm_num) _ _ _) ⟨(0, 1), by rw [graze_cells 2 (by norm_num)]; simp, by decide⟩
  obtain ⟨g'', e1, -, -, -, e5⟩ := C36_evidence idT (stripGrid 50 50 50) (stripGrid_wf _ _ _) (strip_small _ _ _)
    graze_pct (grazeScan 2) grazePose (0, 0) (strip_src_any _ _ _) (strip_cell _ _ _)
    (graze_ends 2 (by norm_num) _ _ _)
  rw [h1, Res.ok.injEq, Prod.mk.injEq] at e1
  obtain ⟨-, rfl⟩ := e1
  obtain ⟨v', f1, f2⟩ := e5 1 0 graze_in 50 rfl
  obtain ⟨-, w, hw, h80⟩ := (occupied_iff_pct _ _ _).mp h2
  rw [f1, Option.some.injEq] at hw
  subst hw
  rw [f2, scanEvidence_cells, graze_cells 2 (by norm_num)] at h80
  revert h80
  decide

/-- With one grazing beam the cell is shown: the hypotheses of `C118_seen_partial` are met. -/
example : Shows idT (stripGrid 50 50 50) (grazeScan 1) grazePose 1 0 :=
  ⟨(0, 0), strip_src_any _ _ _, strip_cell _ _ _, graze_ends 1 (by norm_num) _ _ _,
    ⟨(0, 1), by rw [show (transform2d grazePose.c0 grazePose.c1 grazePose.c2).mul idT = sensorPose idT grazePose from rfl,
      graze_cells 1 (by norm_num)]; simp, by decide⟩,
    by rw [show (transform2d grazePose.c0 grazePose.c1 grazePose.c2).mul idT = sensorPose idT grazePose from rfl,
      graze_cells 1 (by norm_num)]; decide⟩

/-- With five of them the hypotheses of `C118_erased` are met, whatever the cell held before (up to 99). -/
example : ∃ g', (OccupancyMapper.new idT).updateMap (stripGrid 50 99 50) (grazeScan 5) grazePose = .ok (true, g') ∧
    ¬ Occupied (.fin (4 / 5)) g' 0 1 := by
  refine C118_erased idT (stripGrid 50 99 50) (stripGrid_wf _ _ _) (strip_small _ _ _) ?_ (grazeScan 5) grazePose (0, 0)
    (strip_src_any _ _ _) (strip_cell _ _ _) (graze_ends 5 (by norm_num) _ _ _) 1 0 graze_in 99 rfl (by decide)
    [(0, 1)] (List.replicate 5 (0, 2)) (graze_cells 5 (by norm_num) _ _ _) ?_ ?_
  · intro v hv
    simp only [stripGrid, List.mem_cons, List.not_mem_nil, or_false] at hv
    rcases hv with rfl | rfl | rfl <;> decide
  · intro h hh
    rw [List.eq_of_mem_replicate hh]
    decide
  · decide

/-! ### A robot in front of a wall -/

/-- a 10×1 map of unknown cells -/
noncomputable def longGrid : GridMap Dbl :=
  { xsize := 10, ysize := 1, resolution := .fin 1, xmin := .fin 0, ymin := .fin 0,
    xmax := .fin 10, ymax := .fin 1, data := List.replicate 10 50 }

noncomputable def longScan : LaserScan Dbl := ⟨.fin 0, .fin 0.01, .fin 0, .fin 10, [.fin 8]⟩

noncomputable def longDetector : Collision Dbl := ⟨.fin 1, .fin 4, .fin 3, .fin (4 / 5)⟩

theorem longGrid_wf : WellFormed longGrid := ⟨by decide, rfl⟩

theorem long_small : SmallGrid longGrid := by
  show (10 : UInt32).toNat < 2147483648 ∧ (1 : UInt32).toNat < 2147483648
  decide

theorem long_pct : Percentages longGrid := by
  intro v hv
  rw [List.eq_of_mem_replicate hv]
  decide

theorem long_world {x y : ℝ} {i j : Nat} (hx0 : (j : ℝ) ≤ x) (hx1 : x < j + 1)
    (hy0 : (i : ℝ) ≤ y) (hy1 : y < i + 1) (hj : j < 10) (hi : i < 1) :
    longGrid.world2Grid (.fin x) (.fin y) = .ok (UInt32.ofNat i, UInt32.ofNat j) := by
  unfold GridMap.world2Grid
  simp only [longGrid, Dbl.sub_fin, sub_zero]
  rw [Dbl.div_fin _ (by norm_num), Dbl.div_fin _ (by norm_num), div_one, div_one,
    castU32_fin hx0 hx1 (by omega), castU32_fin hy0 hy1 (by omega)]
  simp only [Res.ok_bind]
  have h1 : UInt32.ofNat j ≠ 10 := by
    intro h; have := congrArg UInt32.toNat h; rw [ofNat_toNat (by omega)] at this
    simp at this; omega
  have h2 : UInt32.ofNat i ≠ 1 := by
    intro h; have := congrArg UInt32.toNat h; rw [ofNat_toNat (by omega)] at this
    simp at this; omega
  simp only [h1, h2, if_false]

theorem long_src : longGrid.world2Grid (.fin 0.5) (.fin 0.5) = .ok (0, 0) :=
  long_world (i := 0) (j := 0) (by norm_num) (by norm_num) (by norm_num) (by norm_num) (by norm_num) (by norm_num)

theorem long_end : longGrid.world2Grid (beamEnd (sensorPose idT grazePose) longScan 0 (.fin 8)).c0
    (beamEnd (sensorPose idT grazePose) longScan 0 (.fin 8)).c1 = .ok (0, 8) := by
  have : beamEnd (sensorPose idT grazePose) longScan 0 (.fin 8) = ⟨.fin 8.5, .fin 0.5, .fin 1⟩ := by
    simp only [beamEnd, beamAngle, longScan, grazePose, sensorPose, idT, polar2CartesianHomo, transform2d,
      M3.mulVec, M3.mul, M3.t, V3.dot, Function.iterate_zero, id, Dbl.cos_fin, Dbl.sin_fin,
      Dbl.mul_fin, Dbl.add_fin, Dbl.neg_fin, Dbl.lit_eq]
    norm_num
  rw [this]
  exact long_world (i := 0) (j := 8) (by norm_num) (by norm_num) (by norm_num) (by norm_num) (by norm_num) (by norm_num)

theorem long_cells : beamCells longGrid (sensorPose idT grazePose) longScan longScan.ranges 0 = [(0, 8)] := by
  show (beamHit longGrid (sensorPose idT grazePose) longScan 0 (.fin 8)).toList ++ [] = _
  have : beamHit longGrid (sensorPose idT grazePose) longScan 0 (.fin 8) = some (0, 8) := by
    unfold beamHit
    rw [if_pos (by simp only [RangeValid, longScan, Dbl.lt_fin_false]; norm_num), long_end]
    simp only
    rw [if_pos]
    show (0 : UInt32).toNat < (1 : UInt32).toNat ∧ (8 : UInt32).toNat < (10 : UInt32).toNat
    decide
  rw [this]
  rfl

theorem long_converts : EndsConvert longGrid (sensorPose idT grazePose) longScan := by
  intro k r hk _
  cases k with
  | zero =>
    simp only [longScan, List.getElem?_cons_zero, Option.some.injEq] at hk
    subst hk
    exact ⟨_, long_end⟩
  | succ k => simp [longScan] at hk

theorem long_cell : IsCell longGrid 0 0 := by
  show (0 : UInt32).toNat < (1 : UInt32).toNat ∧ (0 : UInt32).toNat < (10 : UInt32).toNat
  decide

theorem long_shows : Shows idT longGrid longScan grazePose 8 0 :=
  ⟨(0, 0), long_src, long_cell, long_converts,
    ⟨(0, 8), by rw [show (transform2d grazePose.c0 grazePose.c1 grazePose.c2).mul idT = sensorPose idT grazePose from rfl,
      long_cells]; simp, by decide⟩,
    by rw [show (transform2d grazePose.c0 grazePose.c1 grazePose.c2).mul idT = sensorPose idT grazePose from rfl,
      long_cells]; decide⟩

theorem long_in : InGrid longGrid 8 0 :=
  ⟨by decide, by show (8 : Int) < (10 : UInt32).toNat; decide, by decide,
    by show (0 : Int) < (1 : UInt32).toNat; decide⟩

/-- The scan makes no other cell more occupied. -/
theorem long_others {g g' : GridMap Dbl} (hg : SameGeometry longGrid g) (hw : WellFormed g) (hp : Percentages g)
    (h : (OccupancyMapper.new idT).updateMap g longScan grazePose = .ok (true, g')) (x : Int) (hx : InGrid longGrid x 0)
    (h8 : x ≠ 8) (hle : ∀ v, cellAt g 0 x.toNat = some v → v.toInt ≤ 50) :
    ∀ v, cellAt g' 0 x.toNat = some v → v.toInt ≤ 50 := by
  have hg' := hg
  unfold SameGeometry at hg'
  obtain ⟨g1, e1, -, -, -, e5⟩ := C36_evidence idT g hw (by rw [hg']; exact long_small) hp longScan grazePose (0, 0)
    (by rw [hg.world2Grid]; exact long_src) (hg.isCell.mpr long_cell)
    (fun k r hk hv => by rw [hg.world2Grid]; exact long_converts k r hk hv)
  rw [h, Res.ok.injEq, Prod.mk.injEq] at e1
  obtain ⟨-, rfl⟩ := e1
  intro v' hv'
  obtain ⟨v, hv⟩ := (hg.inGrid.mpr hx).exists_cell hw
  obtain ⟨w, f1, f2⟩ := e5 x 0 (hg.inGrid.mpr hx) v hv
  rw [show (0 : Int).toNat = 0 from rfl] at f1 hv
  rw [f1, Option.some.injEq] at hv'
  subst hv'
  rw [f2, scanEvidence_cells, beamCells_congr hg, long_cells]
  have hr := hp v (List.mem_of_getElem? hv)
  have := freeStep_range hr.1 hr.2
  have := hle v hv
  have hne : ¬ EndsIn x 0 ((0, 8) : UInt32 × UInt32) := fun h => h8 h.1
  simp only [List.foldl_cons, List.foldl_nil, seenStep, if_neg hne]
  split <;> omega

theorem long_config {g : GridMap Dbl} (hg : SameGeometry longGrid g) :
    longDetector.config g grazePose = .ok { r_bnd := 1, r_col := 4, r_max := 4, cx := 0, cy := 0 } := by
  have hg' := hg
  unfold SameGeometry at hg'
  have hc : ∀ n : Nat, n ≤ 4 → castI32 (Flt.floor (Dbl.fin (n : ℝ))) = .ok (n : Int) := by
    intro n hn
    have : realTrunc ((n : Int) : ℝ) = n := by
      unfold realTrunc
      rw [if_pos (by positivity), Int.floor_intCast]
    have hz : ⌊(n : ℝ)⌋ = (n : Int) := Int.floor_natCast n
    simp only [castI32, Dbl.floor_fin, Dbl.trunc_fin, hz, this]
    rw [if_pos ⟨by omega, by omega⟩]
  have h1 := hc 1 (by norm_num)
  have h4 := hc 4 (by norm_num)
  unfold Collision.config
  rw [show g.world2Grid grazePose.c0 grazePose.c1 = .ok (0, 0) by rw [hg.world2Grid]; exact long_src]
  rw [show g.resolution = .fin 1 by rw [hg']; rfl]
  simp only [longDetector, Dbl.add_fin, Res.ok_bind]
  rw [Dbl.div_fin _ (by norm_num), Dbl.div_fin _ (by norm_num), Dbl.div_fin _ (by norm_num)]
  norm_num at h1 h4 ⊢
  rw [h1, h4]
  rfl

/-- The hypotheses of `C118_avoided_partial` are met: a robot that stands in front of a wall. -/
example : ∃ (gs : Nat → GridMap Dbl), WellFormed (gs 0) ∧ SmallGrid (gs 0) ∧ Percentages (gs 0) ∧ InGrid (gs 0) 8 0 ∧
    (∃ v : Int8, cellAt (gs 0) 0 8 = some v ∧ 48 ≤ v.toInt) ∧
    (∀ k ≤ 1, Shows idT (gs 0) longScan grazePose 8 0 ∧
      (OccupancyMapper.new idT).updateMap (gs k) longScan grazePose = .ok (true, gs (k + 1))) ∧
    (∀ k ≤ 1, longDetector.config (gs (k + 1)) grazePose = .ok { r_bnd := 1, r_col := 4, r_max := 4, cx := 0, cy := 0 } ∧
      InRange (gs (k + 1)) { r_bnd := 1, r_col := 4, r_max := 4, cx := 0, cy := 0 }) ∧
    (4 : Int) * 4 < sqCells { r_bnd := 1, r_col := 4, r_max := 4, cx := 0, cy := 0 } 0 8 ∧
    (∀ k < 1, longDetector.collisionCheck (gs (k + 2)) grazePose = .ok false) := by
  obtain ⟨g1, a1, a2, a3, a4, a5⟩ := C118_seen_partial idT longGrid longGrid_wf long_small long_pct longScan grazePose
    8 0 long_in 50 rfl (by decide) long_shows
  obtain ⟨hin1, v1, hv1, h80⟩ := (occupied_iff_pct g1 0 8).mp a5
  have a2' := a2
  unfold SameGeometry at a2'
  obtain ⟨g2, b1, b2, b3, b4, b5⟩ := C118_seen_partial idT g1 a3 (by rw [a2']; exact long_small) a4 longScan grazePose
    8 0 hin1 v1 hv1 (by omega) (long_shows.congr a2)
  have hg2 := a2.trans b2
  have hr : ∀ g, SameGeometry longGrid g → InRange g { r_bnd := 1, r_col := 4, r_max := 4, cx := 0, cy := 0 } := by
    intro g hg
    unfold SameGeometry at hg
    have hx : g.xsize = 10 := by rw [hg]; rfl
    have hy : g.ysize = 1 := by rw [hg]; rfl
    constructor <;> simp only [hx, hy] <;> decide
  refine ⟨fun k => match k with | 0 => longGrid | 1 => g1 | _ => g2, longGrid_wf, long_small, long_pct, long_in,
    ⟨50, rfl, by decide⟩, ?_, ?_, by decide, ?_⟩
  · intro k hk
    obtain rfl | rfl : k = 0 ∨ k = 1 := by omega
    · exact ⟨long_shows, a1⟩
    · exact ⟨long_shows, b1⟩
  · intro k hk
    obtain rfl | rfl : k = 0 ∨ k = 1 := by omega
    · exact ⟨long_config a2, hr _ a2⟩
    · exact ⟨long_config hg2, hr _ hg2⟩
  · intro k hk
    obtain rfl : k = 0 := by omega
    show longDetector.collisionCheck g2 grazePose = .ok false
    obtain ⟨b, hb, -⟩ := collisionCheck_iff longDetector g2 b3 grazePose _ (long_config hg2) (hr _ hg2)
    cases b with
    | false => exact hb
    | true =>
      exfalso
      obtain ⟨i, j, ho, hd⟩ := C25_sound longDetector g2 b3 grazePose _ (long_config hg2) (hr _ hg2) hb
      obtain ⟨hij, v, hv, hge⟩ := (occupied_iff_pct g2 i j).mp ho
      have hij' := hg2.inGrid.mp hij
      obtain ⟨p1, p2, p3, p4⟩ := hij'
      have hi0 : i = 0 := by
        have : i < (1 : UInt32).toNat := p4
        simp at this
        omega
      subst hi0
      simp only [sub_zero, mul_zero, add_zero] at hd
      have hj : j ≤ 4 := by nlinarith
      have hj8 : j ≠ 8 := by omega
      have hx0 : InGrid longGrid j 0 := ⟨p1, p2, p3, p4⟩
      have h1 := long_others (.refl _) longGrid_wf long_pct a1 j hx0 hj8 (fun w hw => by
        have := List.eq_of_mem_replicate (List.mem_of_getElem? hw)
        rw [this]; decide)
      have h2 := long_others a2 a3 a4 b1 j hx0 hj8 h1 v hv
      omega

end Ergodic
