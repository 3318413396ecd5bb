import Verif.Props.Mapping
import Verif.Spec.ErgodicControl

/-!
# Laser readings that are not measurements

C102: a reading outside the limits of the scan is ignored, and what goes wrong when it is NaN.
-/

namespace Ergodic
open OccupancyMapper

/-- The reading lies between the limits of its scan. -/
def Measured {F : Type} [Flt F] (scan : LaserScan F) (r : F) : Prop :=
  AtMost scan.range_min r ∧ AtMost r scan.range_max

/-- Two lists of readings of the same scan that agree on every measurement: equal, or neither is
one. -/
def SameMeasurements {F : Type} [Flt F] (scan : LaserScan F) : List F → List F → Prop :=
  List.Forall₂ fun a b => a = b ∨ (¬ Measured scan a ∧ ¬ Measured scan b)

/-- Full statement of C102: readings outside the limits have no influence on the map. -/
def C102_statement : Prop :=
  ∀ (Tbs : M3 Dbl) (g : GridMap Dbl) (scan : LaserScan Dbl) (rs : List Dbl) (pose : V3 Dbl) (lo hi : ℝ),
    scan.range_min = .fin lo → scan.range_max = .fin hi → SameMeasurements scan scan.ranges rs →
    (OccupancyMapper.new Tbs).updateMap g { scan with ranges := rs } pose =
      (OccupancyMapper.new Tbs).updateMap g scan pose

/-- A reading that compares as outside is skipped, whatever it is and in every arithmetic. -/
theorem beam_skip {F : Type} [Flt F] (m : OccupancyMapper F) (scan : LaserScan F) (Tms : M3 F)
    (psg : UInt32 × UInt32) (a r : F) (g : GridMap F)
    (h : Flt.lt scan.range_max r = true ∨ Flt.lt r scan.range_min = true) :
    m.beam scan Tms psg a r g = .ok g := by
  unfold OccupancyMapper.beam
  rw [if_pos (by simpa using h)]

/-- C102 in every arithmetic, as the code compares: two scans whose readings differ only where both
compare as outside the limits give the same map, and fail alike. -/
theorem C102_compared {F : Type} [Flt F] (m : OccupancyMapper F) (g : GridMap F) (scan : LaserScan F)
    (rs : List F) (pose : V3 F)
    (h : List.Forall₂ (fun a b => a = b ∨
      ((Flt.lt scan.range_max a = true ∨ Flt.lt a scan.range_min = true) ∧
       (Flt.lt scan.range_max b = true ∨ Flt.lt b scan.range_min = true))) scan.ranges rs) :
    m.updateMap g { scan with ranges := rs } pose = m.updateMap g scan pose := by
  have loop : ∀ (Tms : M3 F) (psg : UInt32 × UInt32) (as bs : List F),
      List.Forall₂ (fun a b => a = b ∨
        ((Flt.lt scan.range_max a = true ∨ Flt.lt a scan.range_min = true) ∧
         (Flt.lt scan.range_max b = true ∨ Flt.lt b scan.range_min = true))) as bs →
      ∀ (al : F) (g : GridMap F),
        m.beamLoop { scan with ranges := rs } Tms psg bs al g = m.beamLoop scan Tms psg as al g := by
    intro Tms psg as bs h
    induction h with
    | nil => intro al g; rfl
    | @cons a b as bs hab _ ih =>
      intro al g
      have hb : m.beam { scan with ranges := rs } Tms psg al b g = m.beam scan Tms psg al a g := by
        rcases hab with rfl | ⟨ha, hb⟩
        · rfl
        · rw [beam_skip m scan Tms psg al a g ha]
          exact beam_skip m { scan with ranges := rs } Tms psg al b g hb
      rw [OccupancyMapper.beamLoop, OccupancyMapper.beamLoop, hb]
      congr 1
      funext g'
      exact ih _ g'
  unfold OccupancyMapper.updateMap
  congr 1
  funext psg
  split
  · rfl
  · dsimp only
    rw [loop _ psg scan.ranges rs h]

theorem not_measured {scan : LaserScan Dbl} {lo hi : ℝ} (hlo : scan.range_min = .fin lo)
    (hhi : scan.range_max = .fin hi) {r : Dbl} (hr : r ≠ .nan) (h : ¬ Measured scan r) :
    Flt.lt scan.range_max r = true ∨ Flt.lt r scan.range_min = true := by
  unfold Measured AtMost at h
  rw [hlo, hhi] at h ⊢
  cases r with
  | nan => exact absurd rfl hr
  | inf s =>
    cases s
    · exact Or.inl rfl
    · exact Or.inr rfl
  | fin r =>
    rw [Dbl.lt_fin, Dbl.lt_fin]
    simp only [Dbl.lt_fin, Dbl.fin.injEq] at h
    by_contra hc
    push Not at hc
    exact h ⟨lt_or_eq_of_le hc.2, lt_or_eq_of_le hc.1⟩

/-- C102 for readings that are numbers or infinite.  Missing: NaN readings, which the code does not
skip. -/
theorem C102_ignored_partial (Tbs : M3 Dbl) (g : GridMap Dbl) (scan : LaserScan Dbl) (rs : List Dbl)
    (pose : V3 Dbl) (lo hi : ℝ) (hlo : scan.range_min = .fin lo) (hhi : scan.range_max = .fin hi)
    (h : SameMeasurements scan scan.ranges rs) (h1 : .nan ∉ scan.ranges) (h2 : .nan ∉ rs) :
    (OccupancyMapper.new Tbs).updateMap g { scan with ranges := rs } pose =
      (OccupancyMapper.new Tbs).updateMap g scan pose := by
  refine C102_compared _ g scan rs pose ?_
  unfold SameMeasurements at h
  generalize scan.ranges = as at h h1
  induction h with
  | nil => exact .nil
  | @cons a b as bs hab _ ih =>
    refine .cons ?_ (ih (fun hc => h2 (List.mem_cons_of_mem _ hc)) (fun hc => h1 (List.mem_cons_of_mem _ hc)))
    rcases hab with rfl | ⟨ha, hb⟩
    · exact Or.inl rfl
    · refine Or.inr ⟨not_measured hlo hhi ?_ ha, not_measured hlo hhi ?_ hb⟩
      · rintro rfl; exact h1 List.mem_cons_self
      · rintro rfl; exact h2 List.mem_cons_self

/-- A NaN reading is used, and its end point cannot be converted to a cell. -/
theorem beam_nan (m : OccupancyMapper Dbl) (scan : LaserScan Dbl) (Tms : M3 Dbl)
    (psg : UInt32 × UInt32) (a : Dbl) (g : GridMap Dbl) : m.beam scan Tms psg a .nan g = .ub := by
  unfold OccupancyMapper.beam
  rw [if_neg (by simp)]
  have : (Tms.mulVec (polar2CartesianHomo a .nan)).c0 = .nan := by
    simp [M3.mulVec, V3.dot, polar2CartesianHomo]
  dsimp only
  rw [this]
  unfold GridMap.world2Grid
  rw [Dbl.nan_sub, Dbl.nan_div, Dbl.floor_nan]
  rfl

/-- The loop over a list of readings that ends in a NaN one never comes to an end normally. -/
theorem beamLoop_nan (m : OccupancyMapper Dbl) (scan : LaserScan Dbl) (Tms : M3 Dbl)
    (psg : UInt32 × UInt32) (as bs : List Dbl) : ∀ (a : Dbl) (g g' : GridMap Dbl),
    m.beamLoop scan Tms psg as a g = .ok g' → m.beamLoop scan Tms psg (as ++ .nan :: bs) a g = .ub := by
  induction as with
  | nil =>
    intro a g g' _
    rw [List.nil_append, OccupancyMapper.beamLoop, beam_nan]
    rfl
  | cons r as ih =>
    intro a g g' h
    rw [OccupancyMapper.beamLoop, Res.bind_eq_ok] at h
    obtain ⟨g1, h1, h2⟩ := h
    rw [List.cons_append, OccupancyMapper.beamLoop, h1, Res.ok_bind]
    exact ih _ g1 g' h2

/-- C102, what goes wrong: a robot on the map that processes the readings before the first NaN one
without a failure reaches undefined behaviour at that reading, whatever the mounting of the sensor,
the limits of the scan and the rest of it. -/
theorem C102_nan (m : OccupancyMapper Dbl) (g g' : GridMap Dbl) (scan : LaserScan Dbl) (as bs : List Dbl)
    (pose : V3 Dbl) (hs : scan.ranges = as ++ .nan :: bs)
    (h : m.updateMap g { scan with ranges := as } pose = .ok (true, g')) :
    m.updateMap g scan pose = .ub := by
  unfold OccupancyMapper.updateMap at h ⊢
  obtain ⟨psg, h1, h2⟩ := Res.bind_eq_ok.mp h
  rw [h1, Res.ok_bind]
  split at h2
  · simp at h2
  · rename_i hb
    rw [if_neg hb]
    obtain ⟨g1, h3, -⟩ := Res.bind_eq_ok.mp h2
    have hl : ∀ (Tms : M3 Dbl) (l : List Dbl) (a : Dbl) (g : GridMap Dbl),
        m.beamLoop { scan with ranges := as } Tms psg l a g = m.beamLoop scan Tms psg l a g := by
      intro Tms l
      induction l with
      | nil => intro a g; rfl
      | cons r l ih =>
        intro a g
        rw [OccupancyMapper.beamLoop, OccupancyMapper.beamLoop]
        congr 1
        funext g'
        exact ih _ g'
    rw [hl] at h3
    dsimp only
    rw [hs, beamLoop_nan m scan _ psg as bs _ g g1 h3]
    rfl

/-- a scan of three readings: nothing within reach, two metres, too close -/
noncomputable def threeBeams : LaserScan Dbl :=
  ⟨.fin 0, .fin 0, .fin 0.1, .fin 10, [.inf false, .fin 2, .fin 0]⟩

theorem strip_src : (stripGrid 50 50 50).world2Grid (.fin 0.5) (.fin 0.5) = .ok (0, 0) :=
  strip_world (i := 0) (j := 0) (by norm_num) (by norm_num) (by norm_num) (by norm_num)
    (by norm_num) (by norm_num)

theorem strip_known (l : List Dbl) (hl : ∀ (k : Nat) r, l[k]? = some r →
    RangeValid threeBeams r → r = .fin 2) : ∃ g', (OccupancyMapper.new idT).updateMap (stripGrid 50 50 50)
      { threeBeams with ranges := l } ⟨.fin 0.5, .fin 0.5, .fin 0⟩ = .ok (true, g') := by
  refine C38_known_partial idT _ _ _ (0, 0) (stripGrid_wf _ _ _) ?_ ?_ strip_src ?_ ?_
  · constructor
    · show (3 : UInt32).toNat < _; decide
    · show (1 : UInt32).toNat < _; decide
  · intro v hv
    simp only [stripGrid, List.mem_cons, List.not_mem_nil, or_false, or_self] at hv
    subst hv; decide
  · constructor
    · show (0 : UInt32).toNat < (1 : UInt32).toNat; decide
    · show (0 : UInt32).toNat < (3 : UInt32).toNat; decide
  · intro k r hk hv
    obtain rfl := hl k r hk hv
    have ha : beamAngle { threeBeams with ranges := l } k = .fin 0 := by
      unfold beamAngle
      dsimp only [threeBeams]
      clear hk
      induction k with
      | zero => rfl
      | succ k ih =>
        rw [Function.iterate_succ_apply', ih, Dbl.add_fin, add_zero]
    have : beamEnd (sensorPose idT ⟨.fin 0.5, .fin 0.5, .fin 0⟩) { threeBeams with ranges := l } k (.fin 2) =
        ⟨.fin 2.5, .fin 0.5, .fin 1⟩ := by
      rw [← strip_beam]
      unfold beamEnd
      rw [ha]
      rfl
    rw [this]
    exact ⟨_, strip_world (i := 0) (j := 2) (by norm_num) (by norm_num) (by norm_num) (by norm_num)
      (by norm_num) (by norm_num)⟩

theorem strip_three : ∃ g', (OccupancyMapper.new idT).updateMap (stripGrid 50 50 50) threeBeams
    ⟨.fin 0.5, .fin 0.5, .fin 0⟩ = .ok (true, g') := by
  refine strip_known threeBeams.ranges ?_
  intro k r hk hv
  unfold RangeValid threeBeams at hv
  match k, hk with
  | 0, hk =>
    obtain rfl : (Dbl.inf false) = r := Option.some.inj hk
    exact absurd hv.1 (by decide)
  | 1, hk => exact (Option.some.inj hk).symm
  | 2, hk =>
    obtain rfl : (Dbl.fin 0) = r := Option.some.inj hk
    exfalso
    simp only [Dbl.lt_fin_false] at hv
    norm_num at hv

/-- C102 is false: the same robot, map and scan with one NaN reading in place of an infinite one. -/
theorem C102_refuted : ¬ C102_statement := by
  intro h
  obtain ⟨g', hg⟩ := strip_three
  have hm : ¬ Measured threeBeams (.inf false) := by
    rintro ⟨-, h | h⟩ <;> cases h
  have hn : ¬ Measured threeBeams .nan := by
    rintro ⟨h | h, -⟩ <;> cases h
  have := h idT (stripGrid 50 50 50) threeBeams [.nan, .fin 2, .fin 0] ⟨.fin 0.5, .fin 0.5, .fin 0⟩ 0.1 10
    rfl rfl (.cons (Or.inr ⟨hm, hn⟩) (.cons (Or.inl rfl) (.cons (Or.inl rfl) .nil)))
  rw [hg] at this
  obtain ⟨g1, hg1⟩ := strip_known [] (by simp)
  rw [C102_nan _ _ g1 { threeBeams with ranges := [.nan, .fin 2, .fin 0] } [] [.fin 2, .fin 0] _ rfl hg1] at this
  cases this

/-- C102: the infinite reading and the one that is too close may be replaced by a negative one and one
that is too long. -/
example : (OccupancyMapper.new idT).updateMap (stripGrid 50 50 50)
      { threeBeams with ranges := [.fin (-3), .fin 2, .fin 11] } ⟨.fin 0.5, .fin 0.5, .fin 0⟩ =
    (OccupancyMapper.new idT).updateMap (stripGrid 50 50 50) threeBeams ⟨.fin 0.5, .fin 0.5, .fin 0⟩ := by
  have out : ∀ r : Dbl, Flt.lt (.fin 10) r = true ∨ Flt.lt r (.fin 0.1) = true → ¬ Measured threeBeams r := by
    intro r hr hm
    cases r with
    | nan => simp at hr
    | inf s => rcases hm with ⟨h1 | h1, h2 | h2⟩ <;> cases s <;> cases h1 <;> cases h2
    | fin r =>
      simp only [Measured, AtMost, threeBeams, Dbl.lt_fin, Dbl.fin.injEq] at hm hr
      obtain ⟨h1, h2⟩ := hm
      rcases hr with hr | hr <;> rcases h1 with h1 | h1 <;> rcases h2 with h2 | h2 <;> linarith
  refine C102_ignored_partial idT _ threeBeams _ _ 0.1 10 rfl rfl ?_ (by simp [threeBeams]) (by simp)
  refine .cons (Or.inr ⟨out _ (Or.inl rfl), out _ (Or.inr ?_)⟩) (.cons (Or.inl rfl)
    (.cons (Or.inr ⟨out _ (Or.inr ?_), out _ (Or.inl ?_)⟩) .nil))
  all_goals rw [Dbl.lt_fin]; norm_num

end Ergodic
