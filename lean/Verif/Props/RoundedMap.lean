import Verif.Props.Mapping
import Verif.Props.RoundedGrid

/-!
# Property C83: map values with rounding

C37 and C38 are about exact arithmetic.  Here the same functions run on rounded numbers with an
arbitrary library; then, with a library of modest accuracy, the stored values are those of C34.
-/

namespace Ergodic

/-! ## for any arithmetic -/

section generic
variable {F : Type} [Flt F]

/-- The two kinds of evidence turn percentages into percentages. -/
def KeepsPct (m : OccupancyMapper F) : Prop :=
  ∀ v, Pct v → (∃ v', observe m m.log_odds_free v = .ok v' ∧ Pct v') ∧
    ∃ v', observe m m.log_odds_occ v = .ok v' ∧ Pct v'

theorem keepsPct_beam {m : OccupancyMapper F} (h : KeepsPct m) (src : UInt32 × UInt32)
    (hit : Option (UInt32 × UInt32)) :
    ∀ p ∈ beamUpd m src hit, ∀ v, Pct v → ∃ v', observe m p.2.2 v = .ok v' ∧ Pct v' := by
  intro p hp v hv
  cases hit with
  | none => simp [beamUpd] at hp
  | some k =>
    simp only [beamUpd, markFree, List.mem_append, List.mem_map, List.mem_singleton] at hp
    rcases hp with ⟨q, _, rfl⟩ | rfl
    · exact (h v hv).1
    · exact (h v hv).2

/-- The beam loop on a map of percentages: it runs when the end points convert to indices, and
keeps percentages. -/
theorem beamLoop_keeps {m : OccupancyMapper F} (h : KeepsPct m) (scan : LaserScan F) (Tms : M3 F)
    (src : UInt32 × UInt32) (g0 : GridMap F) (hsm : SmallGrid g0) (hsrc : IsCell g0 src.1 src.2) :
    ∀ (rs : List F) (k : Nat) (g : GridMap F), SameGeometry g0 g → WellFormed g → Percentages g →
      (∀ i r, rs[i]? = some r → RangeValid scan r → ∃ p, g0.world2Grid
        (beamEnd Tms scan (k + i) r).c0 (beamEnd Tms scan (k + i) r).c1 = .ok p) →
      ∃ g', m.beamLoop scan Tms src rs (beamAngle scan k) g = .ok g' ∧ SameGeometry g0 g' ∧
        WellFormed g' ∧ Percentages g' := by
  intro rs
  induction rs with
  | nil => intro k g hg hw hp _; exact ⟨g, rfl, hg, hw, hp⟩
  | cons r rs ih =>
    intro k g hg hw hp hd
    have hsm' : SmallGrid g := by unfold SameGeometry at hg; rw [hg]; exact hsm
    have hsrc' := hg.isCell.mpr hsrc
    have hd0 : RangeValid scan r → ∃ p, g.world2Grid (beamEnd Tms scan k r).c0
        (beamEnd Tms scan k r).c1 = .ok p := by
      intro hv
      have := hd 0 r (by simp) hv
      simpa [hg.world2Grid] using this
    have hb := beam_eq m scan Tms hsm' hsrc' k r hd0
    have hin := beamUpd_inGrid m hsrc' Tms scan k r
    obtain ⟨g1, hg1, hp1⟩ := applyUpd_total m Pct _ hw hin hp (keepsPct_beam h src _)
    obtain ⟨hw1, hgeo, _⟩ := applyUpd_spec m _ hw hin hg1
    obtain ⟨g', h1, h2, h3, h4⟩ := ih (k + 1) g1 (hg.trans hgeo) hw1 hp1 (by
      intro i r' hi hv
      have := hd (i + 1) r' (by simpa using hi) hv
      rwa [show k + (i + 1) = k + 1 + i by omega] at this)
    refine ⟨g', ?_, h2, h3, h4⟩
    rw [OccupancyMapper.beamLoop, hb, hg1, Res.ok_bind]
    have : beamAngle scan (k + 1) = beamAngle scan k +. scan.angle_increment := by
      unfold beamAngle; rw [Function.iterate_succ_apply']
    rw [← this]; exact h1

/-- A beam loop that ends normally has end points that convert to indices. -/
theorem beamLoop_ends (m : OccupancyMapper F) (scan : LaserScan F) (Tms : M3 F)
    (src : UInt32 × UInt32) (g0 : GridMap F) (hsm : SmallGrid g0) (hsrc : IsCell g0 src.1 src.2) :
    ∀ (rs : List F) (k : Nat) (g g' : GridMap F), SameGeometry g0 g → WellFormed g →
      m.beamLoop scan Tms src rs (beamAngle scan k) g = .ok g' →
      ∀ i r, rs[i]? = some r → RangeValid scan r → ∃ p, g0.world2Grid
        (beamEnd Tms scan (k + i) r).c0 (beamEnd Tms scan (k + i) r).c1 = .ok p := by
  intro rs
  induction rs with
  | nil => intro k g g' _ _ _ i r hi; simp at hi
  | cons r rs ih =>
    intro k g g' hg hw h i r' hi hv
    have hsm' : SmallGrid g := by unfold SameGeometry at hg; rw [hg]; exact hsm
    have hsrc' := hg.isCell.mpr hsrc
    rw [OccupancyMapper.beamLoop] at h
    obtain ⟨g1, hb1, h⟩ := Res.bind_eq_ok.mp h
    have hbo := beam_ok m scan Tms hb1
    have hb := beam_eq m scan Tms hsm' hsrc' k r hbo
    rw [hb] at hb1
    have hin := beamUpd_inGrid m hsrc' Tms scan k r
    obtain ⟨hw1, hgeo, _⟩ := applyUpd_spec m _ hw hin hb1
    have ha : beamAngle scan (k + 1) = beamAngle scan k +. scan.angle_increment := by
      unfold beamAngle; rw [Function.iterate_succ_apply']
    rw [← ha] at h
    cases i with
    | zero =>
      simp only [List.getElem?_cons_zero, Option.some.injEq] at hi
      subst hi
      have := hbo hv
      simpa [hg.world2Grid] using this
    | succ n =>
      have := ih (k + 1) g1 g' (hg.trans hgeo) hw1 h n r' (by simpa using hi) hv
      rwa [show k + 1 + n = k + (n + 1) by omega] at this

theorem updateMap_keeps {m : OccupancyMapper F} (h : KeepsPct m) {g g' : GridMap F} {b : Bool}
    (hw : WellFormed g) (hsm : SmallGrid g) (hx : g.xsize ≠ 0) (hy : g.ysize ≠ 0)
    (hp : Percentages g) {scan : LaserScan F} {pose : V3 F}
    (hu : m.updateMap g scan pose = .ok (b, g')) :
    Percentages g' ∧ WellFormed g' ∧ SameGeometry g g' := by
  cases b with
  | true =>
    obtain ⟨src, e1, e2, e3, e4, _⟩ := C36_frame _ g g' hw hsm hx hy _ _ hu
    have hb := C02_gridBounds_exact_partial g hx hy src.1 src.2
    unfold OccupancyMapper.updateMap at hu
    rw [e1, Res.ok_bind, if_neg (by simp [hb.mpr e2])] at hu
    obtain ⟨g2, h3, h4⟩ := Res.bind_eq_ok.mp hu
    simp only [Res.ok.injEq, Prod.mk.injEq, true_and] at h4
    subst h4
    have hends := beamLoop_ends m scan _ src g hsm e2 scan.ranges 0 g g2 (SameGeometry.refl _) hw h3
    obtain ⟨g3, k1, _, _, k4⟩ := beamLoop_keeps h scan _ src g hsm e2 scan.ranges 0 g
      (SameGeometry.refl _) hw hp hends
    have h3' := h3.symm.trans k1
    simp only [Res.ok.injEq] at h3'
    exact ⟨h3' ▸ k4, e4, e3⟩
  | false =>
    have : ∃ src, g.world2Grid pose.c0 pose.c1 = .ok src := by
      unfold OccupancyMapper.updateMap at hu
      obtain ⟨src, hs, _⟩ := Res.bind_eq_ok.mp hu
      exact ⟨src, hs⟩
    obtain ⟨src, hs⟩ := this
    obtain ⟨_, rfl⟩ := (C36_outside _ g hx hy scan pose src hs).2 _ hu
    exact ⟨hp, hw, SameGeometry.refl _⟩

theorem runScans_keeps {m : OccupancyMapper F} (h : KeepsPct m) (l : List (LaserScan F × V3 F)) :
    ∀ (g g' : GridMap F), WellFormed g → SmallGrid g → g.xsize ≠ 0 → g.ysize ≠ 0 →
      Percentages g → runScans m l g = .ok g' →
      Percentages g' ∧ WellFormed g' ∧ SameGeometry g g' := by
  induction l with
  | nil =>
    intro g g' hw _ _ _ hp h
    simp only [runScans, Res.ok.injEq] at h
    subst h; exact ⟨hp, hw, SameGeometry.refl _⟩
  | cons sp t ih =>
    intro g g' hw hsm hx hy hp hr
    rw [runScans] at hr
    obtain ⟨⟨b, g1⟩, h1, h2⟩ := Res.bind_eq_ok.mp hr
    obtain ⟨k1, k2, k3⟩ := updateMap_keeps h hw hsm hx hy hp h1
    have hx1 : g1.xsize ≠ 0 := by unfold SameGeometry at k3; rw [k3]; exact hx
    have hy1 : g1.ysize ≠ 0 := by unfold SameGeometry at k3; rw [k3]; exact hy
    have hs1 : SmallGrid g1 := by unfold SameGeometry at k3; rw [k3]; exact hsm
    obtain ⟨j1, j2, j3⟩ := ih g1 g' k2 hs1 hx1 hy1 k1 h2
    exact ⟨j1, j2, k3.trans j3⟩

end generic

/-! ## with rounding -/

variable {M : Machine}

theorem log_rd {x : ℝ} (h : 0 < x) : Flt.log (.fin x : RDbl M) = .fin (M.log x) := by
  show (if x < 0 then Dbl.nan else if x = 0 then Dbl.inf true else Dbl.fin (M.log x)) = _
  rw [if_neg h.not_gt, if_neg h.ne']
  rfl

theorem lit_one : (lit 1 0 : RDbl M) = .fin 1 := by simp
theorem lit_hundred : (lit 100 0 : RDbl M) = .fin 100 := by
  rw [RDbl.lit_fin]
  have := M.int 100 (by norm_num)
  push_cast at this
  norm_num
  rw [this]

/-- The log-odds of a probability away from 0 and 1. -/
theorem prob2LogOdds_rd {p : ℝ} (h0 : 1 / 1000 ≤ p) (h1 : p ≤ 999 / 1000) :
    prob2LogOdds (.fin p : RDbl M) = .fin (M.log (M.rnd (p / M.rnd (1 - p)))) ∧
      0 < M.rnd (p / M.rnd (1 - p)) := by
  have hm : minNormal ≤ 1 := minNormal_le_one
  have e1 := M.err' hm (x := 1 - p) (by rw [abs_le]; constructor <;> linarith)
  norm_num at e1
  have hd : 0 < M.rnd (1 - p) := by linarith [e1.1]
  have hd1 : M.rnd (1 - p) ≤ 1 := by
    have := M.mono (show 1 - p ≤ 1 by linarith)
    rwa [M.rnd_one] at this
  have hq : 1 / 1000 ≤ p / M.rnd (1 - p) := by
    rw [le_div_iff₀ hd]
    calc 1 / 1000 * M.rnd (1 - p) ≤ 1 / 1000 * 1 := by linarith
      _ ≤ p := by linarith
  have hq0 : 0 < M.rnd (p / M.rnd (1 - p)) := by
    refine lt_of_lt_of_le ?_ (M.mono hq)
    have := (M.err' hm (x := 1 / 1000) (by norm_num [abs_of_pos])).1
    norm_num at this ⊢
    linarith
  refine ⟨?_, hq0⟩
  unfold prob2LogOdds
  rw [lit_one, RDbl.sub_fin, RDbl.div_fin _ hd.ne', log_rd hq0]

theorem mapper_fin (Tbs : M3 (RDbl M)) : ∃ p o f : ℝ,
    (OccupancyMapper.new Tbs).log_odds_prior = .fin p ∧
    (OccupancyMapper.new Tbs).log_odds_occ = .fin o ∧
    (OccupancyMapper.new Tbs).log_odds_free = .fin f := by
  have hm : minNormal ≤ 1 := minNormal_le_one
  have b : ∀ (m : Int) (e : Nat), (1 / 100 : ℝ) ≤ (m : ℝ) / 10 ^ e → (m : ℝ) / 10 ^ e ≤ 99 / 100 →
      ∃ l : ℝ, prob2LogOdds (lit m e : RDbl M) = .fin l := by
    intro m e h0 h1
    rw [RDbl.lit_fin]
    have e1 := M.err' hm (x := (m : ℝ) / 10 ^ e) (by rw [abs_le]; constructor <;> linarith)
    norm_num at e1
    exact ⟨_, (prob2LogOdds_rd (by linarith [e1.1]) (by linarith [e1.2])).1⟩
  obtain ⟨p, hp⟩ := b 5 1 (by norm_num) (by norm_num)
  obtain ⟨o, ho⟩ := b 90 2 (by norm_num) (by norm_num)
  obtain ⟨f, hf⟩ := b 35 2 (by norm_num) (by norm_num)
  exact ⟨p, o, f, hp, ho, hf⟩

theorem castI8_rd {z : ℝ} (h0 : 0 ≤ z) (h1 : z ≤ 100) :
    ∃ v : Int8, castI8 (.fin z : RDbl M) = .ok v ∧ v.toInt = ⌊z⌋ ∧ Pct v := by
  have hf0 : 0 ≤ ⌊z⌋ := Int.floor_nonneg.mpr h0
  have hf1 : ⌊z⌋ ≤ 100 := by
    have := (Int.floor_le z).trans h1
    exact_mod_cast this
  refine ⟨Int8.ofInt ⌊z⌋, ?_, int8_ofInt hf0 hf1, ?_⟩
  · unfold castI8
    rw [RDbl.trunc_fin, realTrunc_of_nonneg h0]
    dsimp only
    rw [if_pos (by omega)]
  · unfold Pct
    rw [int8_ofInt hf0 hf1]
    exact ⟨hf0, hf1⟩

/-- The value stored for the log-odds `l`. -/
theorem logOdds2Prob_rd (l : ℝ) : ∃ z : ℝ, 0 ≤ z ∧ z ≤ 100 ∧
    logOdds2Prob (.fin l : RDbl M) *. lit 100 0 = .fin z ∧
    z = M.rnd (M.rnd (1 - M.rnd (1 / M.rnd (1 + M.exp l))) * 100) := by
  have hE := M.exp_nonneg l
  have a1 : 1 ≤ M.rnd (1 + M.exp l) := by
    have := M.mono (show 1 ≤ 1 + M.exp l by linarith)
    rwa [M.rnd_one] at this
  have b0 : 0 ≤ M.rnd (1 / M.rnd (1 + M.exp l)) := M.rnd_nonneg (by positivity)
  have b1 : M.rnd (1 / M.rnd (1 + M.exp l)) ≤ 1 := by
    have := M.mono (show 1 / M.rnd (1 + M.exp l) ≤ 1 by
      rw [div_le_one (by linarith)]; exact a1)
    rwa [M.rnd_one] at this
  have c0 : 0 ≤ M.rnd (1 - M.rnd (1 / M.rnd (1 + M.exp l))) := M.rnd_nonneg (by linarith)
  have c1 : M.rnd (1 - M.rnd (1 / M.rnd (1 + M.exp l))) ≤ 1 := by
    have := M.mono (show 1 - M.rnd (1 / M.rnd (1 + M.exp l)) ≤ 1 by linarith)
    rwa [M.rnd_one] at this
  refine ⟨_, M.rnd_nonneg (by positivity), ?_, ?_, rfl⟩
  · have := M.rnd_le_int (n := 100) (by norm_num)
      (show M.rnd (1 - M.rnd (1 / M.rnd (1 + M.exp l))) * 100 ≤ ((100 : ℤ) : ℝ) by
        push_cast; linarith)
    exact_mod_cast this
  · unfold logOdds2Prob
    rw [lit_one, lit_hundred, RDbl.exp_fin, RDbl.add_fin, RDbl.div_fin _ (by linarith), RDbl.sub_fin,
      RDbl.mul_fin]

/-- The probability of a stored percentage. -/
theorem percent_rd {c : Int} (h0 : 0 ≤ c) (h1 : c ≤ 100) :
    (Flt.ofInt c : RDbl M) /. lit 100 0 = .fin (M.rnd ((c : ℝ) / 100)) := by
  rw [lit_hundred, RDbl.ofInt_fin, M.int c (by rw [abs_le]; constructor <;> omega),
    RDbl.div_fin _ (by norm_num)]

/-- Cells of 0 and 100 percent keep their value. -/
theorem observe_ends (Tbs : M3 (RDbl M)) (l : ℝ) (v : Int8) (h : v.toInt = 0 ∨ v.toInt = 100) :
    observe (OccupancyMapper.new Tbs) (.fin l) v = .ok v := by
  obtain ⟨p, o, f, hp, _, _⟩ := mapper_fin Tbs
  unfold observe
  rw [hp, percent_rd (by omega) (by omega)]
  rcases h with h0 | h100
  · -- log-odds -∞
    have : prob2LogOdds (.fin (M.rnd ((v.toInt : ℝ) / 100)) : RDbl M) = .inf true := by
      rw [h0, Int.cast_zero, zero_div, M.rnd_zero]
      unfold prob2LogOdds
      rw [lit_one, RDbl.sub_fin, sub_zero, M.rnd_one, RDbl.div_fin _ one_ne_zero, zero_div, M.rnd_zero]
      show (if (0:ℝ) < 0 then Dbl.nan else if (0:ℝ) = 0 then Dbl.inf true else _) = _
      rw [if_neg (lt_irrefl _), if_pos rfl]
      rfl
    rw [this]
    have h2 : (.inf true : RDbl M) +. .fin l -. .fin p = .inf true := rfl
    rw [h2]
    have h3 : logOdds2Prob (.inf true : RDbl M) = .fin 0 := by
      unfold logOdds2Prob
      rw [lit_one, show Flt.exp (.inf true : RDbl M) = .fin 0 from rfl, RDbl.add_fin, add_zero, M.rnd_one,
        RDbl.div_fin _ one_ne_zero, div_one, M.rnd_one, RDbl.sub_fin, sub_self, M.rnd_zero]
    rw [h3, lit_hundred, RDbl.mul_fin, zero_mul, M.rnd_zero]
    obtain ⟨v', e1, e2, _⟩ := castI8_rd (M := M) (z := 0) le_rfl (by norm_num)
    rw [e1, Int8.toInt_inj.mp (show v'.toInt = v.toInt by rw [e2, h0]; simp)]
  · have : prob2LogOdds (.fin (M.rnd ((v.toInt : ℝ) / 100)) : RDbl M) = .inf false := by
      rw [h100, show (((100 : ℤ) : ℝ) / 100) = 1 by norm_num, M.rnd_one]
      unfold prob2LogOdds
      rw [lit_one, RDbl.sub_fin, sub_self, M.rnd_zero]
      have : (.fin 1 : RDbl M) /. .fin 0 = .inf false := by
        show RDbl.rd M (if (0:ℝ) = 0 then (if (1:ℝ) = 0 then Dbl.nan else Dbl.inf (Dbl.sgn 1)) else _) = _
        rw [if_pos rfl, if_neg one_ne_zero]
        show Dbl.inf (Dbl.sgn 1) = Dbl.inf false
        unfold Dbl.sgn
        simp
      rw [this]
      rfl
    rw [this]
    have h2 : (.inf false : RDbl M) +. .fin l -. .fin p = .inf false := rfl
    rw [h2]
    have h3 : logOdds2Prob (.inf false : RDbl M) = .fin 1 := by
      unfold logOdds2Prob
      rw [lit_one, show Flt.exp (.inf false : RDbl M) = .inf false from rfl,
        show (.fin 1 : RDbl M) +. .inf false = .inf false from rfl,
        show (.fin 1 : RDbl M) /. .inf false = .fin (M.rnd 0) from rfl, RDbl.sub_fin, M.rnd_zero,
        sub_zero, M.rnd_one]
    rw [h3, lit_hundred, RDbl.mul_fin, one_mul]
    have : M.rnd 100 = 100 := by
      have := M.int 100 (by norm_num); push_cast at this; exact this
    rw [this]
    obtain ⟨v', e1, e2, _⟩ := castI8_rd (M := M) (z := 100) (by norm_num) le_rfl
    rw [e1, Int8.toInt_inj.mp (show v'.toInt = v.toInt by rw [e2, h100]; simp)]

theorem observe_keeps (Tbs : M3 (RDbl M)) (l : ℝ) (v : Int8) (hv : Pct v) :
    ∃ v', observe (OccupancyMapper.new Tbs) (.fin l) v = .ok v' ∧ Pct v' := by
  by_cases hend : v.toInt = 0 ∨ v.toInt = 100
  · exact ⟨v, observe_ends Tbs l v hend, hv⟩
  · obtain ⟨p, o, f, hp, _, _⟩ := mapper_fin Tbs
    unfold observe
    rw [hp, percent_rd hv.1 hv.2]
    have hv1 : (1 : ℝ) ≤ v.toInt := by
      have : 1 ≤ v.toInt := by have := hv.1; omega
      exact_mod_cast this
    have hv2 : (v.toInt : ℝ) ≤ 99 := by
      have : v.toInt ≤ 99 := by have := hv.2; omega
      exact_mod_cast this
    have e1 := M.err' minNormal_le_one (x := (v.toInt : ℝ) / 100) (by
      rw [abs_le]; constructor <;> linarith)
    norm_num at e1
    rw [(prob2LogOdds_rd (M := M) (by linarith [e1.1]) (by linarith [e1.2])).1, RDbl.add_fin, RDbl.sub_fin]
    obtain ⟨z, z0, z1, hz, _⟩ := logOdds2Prob_rd (M := M)
      (M.rnd (M.rnd (M.log (M.rnd (M.rnd ((v.toInt : ℝ) / 100) / M.rnd (1 - M.rnd ((v.toInt : ℝ) / 100)))) + l) - p))
    rw [hz]
    obtain ⟨v', e1, _, e3⟩ := castI8_rd (M := M) z0 z1
    exact ⟨v', e1, e3⟩

theorem keepsPct_rd (Tbs : M3 (RDbl M)) : KeepsPct (OccupancyMapper.new Tbs) := by
  intro v hv
  obtain ⟨p, o, f, _, ho, hf⟩ := mapper_fin Tbs
  rw [ho, hf]
  exact ⟨observe_keeps Tbs f v hv, observe_keeps Tbs o v hv⟩

/-- C83: with any rounding and any library whose `exp` is not negative, if all cells are
percentages they still are after any sequence of scans. -/
theorem C83_percentages (Tbs : M3 (RDbl M)) (l : List (LaserScan (RDbl M) × V3 (RDbl M)))
    (g g' : GridMap (RDbl M)) (hw : WellFormed g) (hsm : SmallGrid g) (hx : g.xsize ≠ 0)
    (hy : g.ysize ≠ 0) (hp : Percentages g)
    (h : runScans (OccupancyMapper.new Tbs) l g = .ok g') :
    Percentages g' ∧ WellFormed g' ∧ SameGeometry g g' :=
  runScans_keeps (keepsPct_rd Tbs) l g g' hw hsm hx hy hp h

/-- C83: with rounding, a scan whose valid end points convert to cell indices is processed on a
map of percentages without exception or undefined behaviour. -/
theorem C83_total (Tbs : M3 (RDbl M)) (g : GridMap (RDbl M)) (scan : LaserScan (RDbl M))
    (pose : V3 (RDbl M)) (src : UInt32 × UInt32) (hw : WellFormed g) (hsm : SmallGrid g)
    (hp : Percentages g) (hs : g.world2Grid pose.c0 pose.c1 = .ok src) (hc : IsCell g src.1 src.2)
    (hd : ∀ k r, scan.ranges[k]? = some r → RangeValid scan r →
      ∃ p, g.world2Grid (beamEnd (sensorPose Tbs pose) scan k r).c0
        (beamEnd (sensorPose Tbs pose) scan k r).c1 = .ok p) :
    ∃ g', (OccupancyMapper.new Tbs).updateMap g scan pose = .ok (true, g') ∧ Percentages g' := by
  have hx : g.xsize ≠ 0 := by intro h; have := hc.2; rw [h] at this; simp at this
  have hy : g.ysize ≠ 0 := by intro h; have := hc.1; rw [h] at this; simp at this
  obtain ⟨g', h1, _, _, h4⟩ := beamLoop_keeps (keepsPct_rd Tbs) scan (sensorPose Tbs pose) src g hsm hc
    scan.ranges 0 g (SameGeometry.refl _) hw hp (by simpa using hd)
  refine ⟨g', ?_, h4⟩
  have hb := (C02_gridBounds_exact_partial g hx hy src.1 src.2).mpr hc
  unfold OccupancyMapper.updateMap
  rw [hs, Res.ok_bind, if_neg (by simp [hb])]
  have h1' : (OccupancyMapper.new Tbs).beamLoop scan
      ((transform2d pose.c0 pose.c1 pose.c2).mul (OccupancyMapper.new Tbs).Tbs) src scan.ranges
      scan.angle_min g = .ok g' := h1
  dsimp only
  rw [h1', Res.ok_bind]

/-- A finite number of size at most `B`. -/
def MagLe (B : ℕ) (x : RDbl M) : Prop := ∃ r : ℝ, x = .fin r ∧ |r| ≤ B

theorem MagLe.rnd {B : ℕ} (hB : B ≤ 2 ^ 53) {r : ℝ} (h : |r| ≤ B) :
    MagLe B (.fin (M.rnd r) : RDbl M) := by
  have e := M.rnd_nat hB
  refine ⟨_, rfl, abs_le.mpr ⟨?_, ?_⟩⟩
  · have := M.mono (abs_le.mp h).1
    rwa [M.neg, e] at this
  · have := M.mono (abs_le.mp h).2
    rwa [e] at this

theorem MagLe.add {A B : ℕ} {x y : RDbl M} (hx : MagLe A x) (hy : MagLe B y)
    (h : A + B ≤ 2 ^ 53) : MagLe (A + B) (x +. y) := by
  obtain ⟨a, rfl, ha⟩ := hx
  obtain ⟨b, rfl, hb⟩ := hy
  rw [RDbl.add_fin]
  refine MagLe.rnd h ((abs_add_le a b).trans ?_)
  push_cast; linarith

theorem MagLe.mul {A B : ℕ} {x y : RDbl M} (hx : MagLe A x) (hy : MagLe B y)
    (h : A * B ≤ 2 ^ 53) : MagLe (A * B) (x *. y) := by
  obtain ⟨a, rfl, ha⟩ := hx
  obtain ⟨b, rfl, hb⟩ := hy
  rw [RDbl.mul_fin]
  refine MagLe.rnd h ?_
  rw [abs_mul]; push_cast
  exact mul_le_mul ha hb (abs_nonneg _) (by positivity)

theorem MagLe.neg {A : ℕ} {x : RDbl M} (hx : MagLe A x) : MagLe A (~-. x) := by
  obtain ⟨a, rfl, ha⟩ := hx
  exact ⟨-a, rfl, by rwa [abs_neg]⟩

/-- The components are at most `B`. -/
def V3MagLe (B : ℕ) (v : V3 (RDbl M)) : Prop := MagLe B v.c0 ∧ MagLe B v.c1 ∧ MagLe B v.c2

theorem V3MagLe.dot {A B : ℕ} {a b : V3 (RDbl M)} (ha : V3MagLe A a) (hb : V3MagLe B b)
    (h : A * B + A * B + A * B ≤ 2 ^ 53) : MagLe (A * B + A * B + A * B) (a.dot b) :=
  ((ha.1.mul hb.1 (by omega)).add (ha.2.1.mul hb.2.1 (by omega)) (by omega)).add
    (ha.2.2.mul hb.2.2 (by omega)) h

/-- A scan of one beam of length 1 seen from the centre of a map of 3 × 3 cells of side 100 meets
the hypotheses of C83, whatever the library. -/
example : let g := squareAt M (-100) 100
    let T : M3 (RDbl M) := transform2dXY (lit 0 0) (lit 0 0)
    let pose : V3 (RDbl M) := ⟨.fin 0, .fin 0, .fin 0⟩
    let scan : LaserScan (RDbl M) := ⟨.fin 0, .fin 0, .fin 0, .fin 8, [.fin 1]⟩
    ∃ g', (OccupancyMapper.new T).updateMap g scan pose = .ok (true, g') ∧ Percentages g' := by
  intro g T pose scan
  have hr : minNormal ≤ 100 := minNormal_le_one.trans (by norm_num)
  have hpl : Placed g (-100) (-100) 100 := squareAt_placed (by norm_num)
  have h3 : ((3 : UInt32).toNat : ℝ) = 3 := by rw [show (3 : UInt32).toNat = 3 from rfl]; norm_num
  have hloc : ∀ x y : ℝ, |x| ≤ 9 → |y| ≤ 9 → ∃ i j, g.world2Grid (.fin x) (.fin y) = .ok (i, j) ∧
      IsCell g i j := by
    intro x y hx hy
    have := abs_le.mp hx
    have := abs_le.mp hy
    obtain ⟨i, j, e1, e2, _⟩ := C80_located g _ _ _ hpl hr (show (3 : UInt32) ≠ 0 by decide)
      (show (3 : UInt32) ≠ 0 by decide) x y (by linarith)
      (by show x ≤ -100 + ((3 : UInt32).toNat : ℝ) * 100; rw [h3]; linarith) (by linarith)
      (by show y ≤ -100 + ((3 : UInt32).toNat : ℝ) * 100; rw [h3]; linarith)
    exact ⟨i, j, e1, e2⟩
  obtain ⟨i, j, e1, e2⟩ := hloc 0 0 (by norm_num) (by norm_num)
  refine C83_total T g scan pose (i, j) ?_ ?_ ?_ e1 e2 ?_
  · exact ⟨show (3 : UInt32).toNat * (3 : UInt32).toNat < 2 ^ 32 by decide, rfl⟩
  · exact ⟨show (3 : UInt32).toNat < _ by decide, show (3 : UInt32).toNat < _ by decide⟩
  · intro v hv
    have : v = 0 := by
      have hv : v ∈ List.replicate 9 (0 : Int8) := hv
      exact List.eq_of_mem_replicate hv
    subst this; decide
  · intro k r hk _
    have hr1 : r = .fin 1 := by
      have := List.mem_of_getElem? hk
      simpa [scan] using this
    subst hr1
    have l0 : (MagLe 1 (lit 0 0 : RDbl M)) := ⟨0, by simp, by norm_num⟩
    have l1 : (MagLe 1 (lit 1 0 : RDbl M)) := ⟨1, by simp, by norm_num⟩
    have z0 : (MagLe 1 (.fin 0 : RDbl M)) := ⟨0, rfl, by norm_num⟩
    have o0 : (MagLe 1 (.fin 1 : RDbl M)) := ⟨1, rfl, by norm_num⟩
    have ang : ∀ k, ∃ t : ℝ, beamAngle scan k = .fin t := by
      intro k
      induction k with
      | zero => exact ⟨0, rfl⟩
      | succ n ih =>
        obtain ⟨t, ht⟩ := ih
        unfold beamAngle at ht ⊢
        rw [Function.iterate_succ_apply', ht]
        exact ⟨_, RDbl.add_fin _ _⟩
    have hc : ∀ t : ℝ, MagLe 1 (.fin (M.cos t) : RDbl M) := fun t => ⟨_, rfl, by simpa using M.cos_le t⟩
    have hs : ∀ t : ℝ, MagLe 1 (.fin (M.sin t) : RDbl M) := fun t => ⟨_, rfl, by simpa using M.sin_le t⟩
    obtain ⟨t, ht⟩ := ang k
    have hp : V3MagLe 1 (polar2CartesianHomo (beamAngle scan k) (.fin 1 : RDbl M)) := by
      rw [ht]
      exact ⟨o0.mul (hc t) (by norm_num), o0.mul (hs t) (by norm_num), l1⟩
    have r0 : V3MagLe 3 (sensorPose T pose).r0 := by
      have a : V3MagLe 1 (⟨Flt.cos (.fin 0), ~-. (Flt.sin (.fin 0)), .fin 0⟩ : V3 (RDbl M)) :=
        ⟨hc 0, (hs 0).neg, z0⟩
      exact ⟨a.dot (B := 1) ⟨l1, l0, l0⟩ (by norm_num), a.dot (B := 1) ⟨l0, l1, l0⟩ (by norm_num),
        a.dot (B := 1) ⟨l0, l0, l1⟩ (by norm_num)⟩
    have r1 : V3MagLe 3 (sensorPose T pose).r1 := by
      have a : V3MagLe 1 (⟨Flt.sin (.fin 0), Flt.cos (.fin 0), .fin 0⟩ : V3 (RDbl M)) :=
        ⟨hs 0, hc 0, z0⟩
      exact ⟨a.dot (B := 1) ⟨l1, l0, l0⟩ (by norm_num), a.dot (B := 1) ⟨l0, l1, l0⟩ (by norm_num),
        a.dot (B := 1) ⟨l0, l0, l1⟩ (by norm_num)⟩
    obtain ⟨x, hx, bx⟩ := r0.dot hp (by norm_num)
    obtain ⟨y, hy, by'⟩ := r1.dot hp (by norm_num)
    obtain ⟨i, j, e, _⟩ := hloc x y (by norm_num at bx ⊢; exact bx) (by norm_num at by' ⊢; exact by')
    refine ⟨(i, j), ?_⟩
    have hx' : (beamEnd (sensorPose T pose) scan k (.fin 1)).c0 = .fin x := hx
    have hy' : (beamEnd (sensorPose T pose) scan k (.fin 1)).c1 = .fin y := hy
    rw [hx', hy']
    exact e

end Ergodic
