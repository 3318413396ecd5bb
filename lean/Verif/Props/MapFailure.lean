import Verif.Spec.MapFailure
import Verif.Props.Failure
import Verif.Props.Returns
import Verif.Props.MapUpdate
import Verif.Props.RoundedMap
import Verif.Props.ScanSingle

/-!
# Property C130: what can go wrong in mapping besides an exception

In every arithmetic, on every map and for every sequence of scans, the mapper returns, throws, or comes to one of three
conversions of a `double` that does not fit: of the pose, of the end of a beam, or of the new value of a cell.  On a
well-formed map on which none of them is met it returns.

`int` is unbounded in the model; for maps with sides up to `2^29` no sum of the ray tracing leaves its range.
-/

namespace Ergodic
variable {F : Type} [Flt F]

/-! ## Conversions -/

theorem InRange32.i8 {x : F} (h : InRange32 x (-128) 128) :
    ∃ n, Flt.trunc? x = some n ∧ -128 ≤ n ∧ n < 128 ∧ castI8 x = .ok (Int8.ofInt n) := by
  obtain ⟨n, hn, h0, h1⟩ := h
  refine ⟨n, hn, h0, h1, ?_⟩
  unfold castI8
  rw [hn]
  exact if_pos ⟨h0, h1⟩

theorem castI8_misfit {x : F} (h : ¬ InRange32 x (-128) 128) : castI8 x = .ub := by
  unfold castI8
  split
  · rename_i n hn
    exact if_neg fun hc => h ⟨n, hn, hc.1, hc.2⟩
  · rfl

theorem PointFits.ok {g : GridMap F} {x y : F} (h : PointFits g x y) : ∃ p, g.world2Grid x y = .ok p := by
  obtain ⟨a, ha, -⟩ := h.1.u32
  obtain ⟨b, hb, -⟩ := h.2.u32
  unfold GridMap.world2Grid
  rw [ha, Res.ok_bind, hb]
  exact ⟨_, rfl⟩

theorem PointFits.misfit {g : GridMap F} {x y : F} (h : ¬ PointFits g x y) : g.world2Grid x y = .ub := by
  unfold GridMap.world2Grid
  by_cases h0 : InRange32 (Flt.floor ((x -. g.xmin) /. g.resolution)) 0 4294967296
  · obtain ⟨a, ha, -⟩ := h0.u32
    rw [ha, Res.ok_bind, castU32_misfit fun h1 => h ⟨h0, h1⟩]
    rfl
  · rw [castU32_misfit h0]; rfl

theorem PointFits.same {g g' : GridMap F} (h : SameGeometry g g') {x y : F} : PointFits g' x y ↔ PointFits g x y := by
  unfold SameGeometry at h
  rw [h]
  exact Iff.rfl

/-! ## Cells -/

/-- An update of a cell returns or throws, and what it stores arises from `g0`. -/
theorem updateCell_clean (m : OccupancyMapper F) {g0 : GridMap F} (hv : ValuesFit m g0) {g : GridMap F}
    (hg : ∀ v ∈ g.data, Arises m g0 v) (x y : Int) {log : F} (hl : IsEvidence m log) :
    Clean (m.updateCell g x y log) ∧ ∀ g', m.updateCell g x y log = .ok g' → ∀ v ∈ g'.data, Arises m g0 v := by
  unfold OccupancyMapper.updateCell GridMap.getCellIdx
  dsimp only
  split
  · exact ⟨.throw _, fun g' h => by cases h⟩
  · split
    · rename_i v hd
      have ha := hg v (List.mem_of_getElem? hd)
      obtain ⟨n, hn, h0, h1, hc⟩ := (hv v log ha hl).i8
      have hc' : castI8 (logOdds2Prob (prob2LogOdds (Flt.ofInt v.toInt /. lit 100 0 : F) +. log -.
          m.log_odds_prior) *. lit 100 0) = .ok (Int8.ofInt n) := hc
      rw [Res.ok_bind, hc', Res.ok_bind]
      split
      · refine ⟨.ok _, fun g' h => ?_⟩
        simp only [Res.ok.injEq] at h
        rw [← h]
        intro w hw
        rcases List.mem_or_eq_of_mem_set hw with hw | rfl
        · exact hg w hw
        · exact .revised ha hl hn h0 h1
      · exact ⟨.throw _, fun g' h => by cases h⟩
    · exact ⟨.throw _, fun g' h => by cases h⟩

theorem applyUpd_clean (m : OccupancyMapper F) {g0 : GridMap F} (hv : ValuesFit m g0) :
    ∀ (l : List (Int × Int × F)) {g : GridMap F}, (∀ p ∈ l, IsEvidence m p.2.2) → (∀ v ∈ g.data, Arises m g0 v) →
    Clean (applyUpd m l g) ∧ ∀ g', applyUpd m l g = .ok g' → ∀ v ∈ g'.data, Arises m g0 v := by
  intro l
  induction l with
  | nil =>
    intro g _ hg
    refine ⟨.ok _, fun g' h => ?_⟩
    simp only [applyUpd, Res.ok.injEq] at h
    rw [← h]; exact hg
  | cons p t ih =>
    intro g hl hg
    obtain ⟨x, y, log⟩ := p
    obtain ⟨h1, h2⟩ := updateCell_clean m hv hg x y (log := log) (hl _ (List.mem_cons_self ..))
    refine ⟨h1.bind fun g1 e => (ih (fun p hp => hl p (List.mem_cons_of_mem _ hp)) (h2 g1 e)).1, fun g' h => ?_⟩
    obtain ⟨g1, e, h⟩ := Res.bind_eq_ok.mp h
    exact (ih (fun p hp => hl p (List.mem_cons_of_mem _ hp)) (h2 g1 e)).2 g' h

/-! ## Beams and scans -/

theorem beam_clean (m : OccupancyMapper F) {g0 : GridMap F} (hv : ValuesFit m g0) (scan : LaserScan F) (Tms : M3 F)
    (src : UInt32 × UInt32) {k : Nat} {r : F} {g : GridMap F} (hs : SameGeometry g0 g)
    (hg : ∀ v ∈ g.data, Arises m g0 v)
    (he : RangeValid scan r → PointFits g0 (beamEnd Tms scan k r).c0 (beamEnd Tms scan k r).c1) :
    Clean (m.beam scan Tms src (beamAngle scan k) r g) ∧
      ∀ g', m.beam scan Tms src (beamAngle scan k) r g = .ok g' → ∀ v ∈ g'.data, Arises m g0 v := by
  unfold OccupancyMapper.beam
  by_cases hr : RangeValid scan r
  · obtain ⟨p, hp⟩ := ((PointFits.same hs).mpr (he hr)).ok
    rw [if_neg (by simp [hr.1, hr.2])]
    simp only [beamEnd] at hp ⊢
    simp only [hp, Res.ok_bind]
    split
    · rw [rayTrace_eq]
      obtain ⟨h1, h2⟩ := applyUpd_clean m hv (markFree m (rayCells (u2i src.2) (u2i src.1) (u2i p.2) (u2i p.1)))
        (g := g) (by
          intro q hq
          simp only [markFree, List.mem_map] at hq
          obtain ⟨c, -, rfl⟩ := hq
          exact .inl rfl) hg
      refine ⟨h1.bind fun g1 e => (updateCell_clean m hv (h2 g1 e) _ _ (.inr rfl)).1, fun g' h => ?_⟩
      obtain ⟨g1, e, h⟩ := Res.bind_eq_ok.mp h
      exact (updateCell_clean m hv (h2 g1 e) _ _ (.inr rfl)).2 g' h
    · refine ⟨.ok _, fun g' h => ?_⟩
      simp only [Res.ok.injEq] at h
      rw [← h]; exact hg
  · rw [if_pos (by
      unfold RangeValid at hr
      rcases h1 : Flt.lt scan.range_max r <;> rcases h2 : Flt.lt r scan.range_min <;> simp_all)]
    refine ⟨.ok _, fun g' h => ?_⟩
    simp only [Res.ok.injEq] at h
    rw [← h]; exact hg

theorem beamAngle_succ (scan : LaserScan F) (k : Nat) :
    beamAngle scan (k + 1) = beamAngle scan k +. scan.angle_increment := by
  unfold beamAngle
  rw [Function.iterate_succ_apply']

theorem beamLoop_clean (m : OccupancyMapper F) {g0 : GridMap F} (hv : ValuesFit m g0) (scan : LaserScan F) (Tms : M3 F)
    (src : UInt32 × UInt32) : ∀ (rs : List F) (k : Nat) {g : GridMap F}, SameGeometry g0 g →
    (∀ v ∈ g.data, Arises m g0 v) →
    (∀ i r, rs[i]? = some r → RangeValid scan r →
      PointFits g0 (beamEnd Tms scan (k + i) r).c0 (beamEnd Tms scan (k + i) r).c1) →
    Clean (m.beamLoop scan Tms src rs (beamAngle scan k) g) ∧
      ∀ g', m.beamLoop scan Tms src rs (beamAngle scan k) g = .ok g' →
        SameGeometry g0 g' ∧ ∀ v ∈ g'.data, Arises m g0 v := by
  intro rs
  induction rs with
  | nil =>
    intro k g hs hg _
    refine ⟨.ok _, fun g' h => ?_⟩
    simp only [OccupancyMapper.beamLoop, Res.ok.injEq] at h
    rw [← h]; exact ⟨hs, hg⟩
  | cons r rs ih =>
    intro k g hs hg he
    obtain ⟨h1, h2⟩ := beam_clean m hv scan Tms src (k := k) (r := r) hs hg (he 0 r rfl)
    have hi : ∀ g1, m.beam scan Tms src (beamAngle scan k) r g = .ok g1 → _ := fun g1 e =>
      ih (k + 1) (hs.trans (beam_geometry m scan Tms src _ _ e)) (h2 g1 e) (fun i r' hr' => by
        have := he (i + 1) r' (by simpa using hr')
        rwa [show k + (i + 1) = k + 1 + i by omega] at this)
    rw [OccupancyMapper.beamLoop]
    simp only [← beamAngle_succ]
    refine ⟨h1.bind fun g1 e => (hi g1 e).1, fun g' h => ?_⟩
    obtain ⟨g1, e, h⟩ := Res.bind_eq_ok.mp h
    exact (hi g1 e).2 g' h

theorem updateMap_clean (m : OccupancyMapper F) {g0 : GridMap F} (hv : ValuesFit m g0) {g : GridMap F}
    (hs : SameGeometry g0 g) (hg : ∀ v ∈ g.data, Arises m g0 v) (scan : LaserScan F) (pose : V3 F)
    (hf : ScanFits m g0 (scan, pose)) :
    Clean (m.updateMap g scan pose) ∧ ∀ r, m.updateMap g scan pose = .ok r →
      SameGeometry g0 r.2 ∧ ∀ v ∈ r.2.data, Arises m g0 v := by
  obtain ⟨hp, he⟩ := hf
  obtain ⟨src, hsrc⟩ := ((PointFits.same hs).mpr hp).ok
  unfold OccupancyMapper.updateMap
  rw [hsrc, Res.ok_bind]
  split
  · refine ⟨.ok _, fun r h => ?_⟩
    simp only [Res.ok.injEq] at h
    rw [← h]; exact ⟨hs, hg⟩
  · obtain ⟨h1, h2⟩ := beamLoop_clean m hv scan ((transform2d pose.c0 pose.c1 pose.c2).mul m.Tbs) src scan.ranges 0
      hs hg (fun i r hr hv => by rw [Nat.zero_add]; exact he i r hr hv)
    refine ⟨Clean.bind h1 fun g1 _ => .ok _, fun r h => ?_⟩
    obtain ⟨g1, e, h⟩ := Res.bind_eq_ok.mp h
    simp only [Res.ok.injEq] at h
    rw [← h]; exact h2 g1 e

/-- C130, for every arithmetic, every map (also one whose data do not have the declared size), every mapper and every
scan: the update returns, throws, or one of the three conversions does not fit. -/
theorem C130_update (m : OccupancyMapper F) (g : GridMap F) (scan : LaserScan F) (pose : V3 F) :
    (∃ r, m.updateMap g scan pose = .ok r) ∨ (∃ e, m.updateMap g scan pose = .throw e) ∨
      ¬ PointFits g pose.c0 pose.c1 ∨ ¬ EndsFit m g scan pose ∨ ¬ ValuesFit m g := by
  by_cases h0 : PointFits g pose.c0 pose.c1
  · by_cases h1 : EndsFit m g scan pose
    · by_cases h2 : ValuesFit m g
      · rcases (updateMap_clean m h2 (g := g) rfl (fun v hv => .stored hv) scan pose ⟨h0, h1⟩).1 with h | h
        · exact .inl h
        · exact .inr (.inl h)
      · exact .inr (.inr (.inr (.inr h2)))
    · exact .inr (.inr (.inr (.inl h1)))
  · exact .inr (.inr (.inl h0))

theorem runScans_clean (m : OccupancyMapper F) {g0 : GridMap F} (hv : ValuesFit m g0) :
    ∀ (l : List (LaserScan F × V3 F)) {g : GridMap F}, SameGeometry g0 g → (∀ v ∈ g.data, Arises m g0 v) →
      (∀ sp ∈ l, ScanFits m g0 sp) → Clean (runScans m l g) := by
  intro l
  induction l with
  | nil => intro g _ _ _; exact .ok _
  | cons sp l ih =>
    intro g hs hg hf
    obtain ⟨h1, h2⟩ := updateMap_clean m hv hs hg sp.1 sp.2 (hf sp (List.mem_cons_self ..))
    exact h1.bind fun r e => ih (h2 r e).1 (h2 r e).2 fun q hq => hf q (List.mem_cons_of_mem _ hq)

/-- C130, for any number of scans: what the three conversions have to satisfy is about the first map alone. -/
theorem C130_mission (m : OccupancyMapper F) (g : GridMap F) (l : List (LaserScan F × V3 F)) :
    (∃ g', runScans m l g = .ok g') ∨ (∃ e, runScans m l g = .throw e) ∨
      (∃ sp ∈ l, ¬ ScanFits m g sp) ∨ ¬ ValuesFit m g := by
  by_cases h0 : ∃ sp ∈ l, ¬ ScanFits m g sp
  · exact .inr (.inr (.inl h0))
  · push Not at h0
    by_cases h1 : ValuesFit m g
    · rcases runScans_clean m h1 l (g := g) rfl (fun v hv => .stored hv) h0 with h | h
      · exact .inl h
      · exact .inr (.inl h)
    · exact .inr (.inr (.inr h1))

/-! ## On a well-formed map -/

theorem applyUpd_returns (m : OccupancyMapper F) {g0 : GridMap F} (hv : ValuesFit m g0) (l : List (Int × Int × F))
    {g : GridMap F} (hw : WellFormed g) (hin : ∀ p ∈ l, InGrid g p.1 p.2.1) (hl : ∀ p ∈ l, IsEvidence m p.2.2)
    (hg : ∀ v ∈ g.data, Arises m g0 v) : ∃ g', applyUpd m l g = .ok g' ∧ ∀ v ∈ g'.data, Arises m g0 v := by
  refine applyUpd_total m (Arises m g0) l hw hin hg fun p hp v ha => ?_
  obtain ⟨n, hn, h0, h1, hc⟩ := (hv v _ ha (hl p hp)).i8
  exact ⟨_, hc, .revised ha (hl p hp) hn h0 h1⟩

theorem beamLoop_returns (m : OccupancyMapper F) {g0 : GridMap F} (hv : ValuesFit m g0) (hsm : SmallGrid g0)
    (scan : LaserScan F) (Tms : M3 F) {src : UInt32 × UInt32} (hsrc : IsCell g0 src.1 src.2) :
    ∀ (rs : List F) (k : Nat) {g : GridMap F}, SameGeometry g0 g → WellFormed g → (∀ v ∈ g.data, Arises m g0 v) →
    (∀ i r, rs[i]? = some r → RangeValid scan r →
      PointFits g0 (beamEnd Tms scan (k + i) r).c0 (beamEnd Tms scan (k + i) r).c1) →
    ∃ g', m.beamLoop scan Tms src rs (beamAngle scan k) g = .ok g' ∧ SameGeometry g0 g' ∧ WellFormed g' ∧
      ∀ v ∈ g'.data, Arises m g0 v := by
  intro rs
  induction rs with
  | nil => intro k g hs hw hg _; exact ⟨g, rfl, hs, hw, hg⟩
  | cons r rs ih =>
    intro k g hs hw hg he
    have hsm' : SmallGrid g := by unfold SameGeometry at hs; rw [hs]; exact hsm
    have hsrc' : IsCell g src.1 src.2 := by unfold SameGeometry at hs; rw [hs]; exact hsrc
    have hb := beam_eq m scan Tms hsm' hsrc' k r (fun hr => ((PointFits.same hs).mpr (he 0 r rfl hr)).ok)
    have hin := beamUpd_inGrid m hsrc' Tms scan k r
    obtain ⟨g1, h1, h2⟩ := applyUpd_returns m hv (beamUpd m src (beamHit g Tms scan k r)) hw hin (by
      intro p hp
      unfold beamUpd at hp
      split at hp
      · simp at hp
      · rcases List.mem_append.mp hp with hp | hp
        · simp only [markFree, List.mem_map] at hp
          obtain ⟨c, -, rfl⟩ := hp
          exact .inl rfl
        · rw [List.mem_singleton.mp hp]
          exact .inr rfl) hg
    obtain ⟨w1, s1, -⟩ := applyUpd_spec m _ hw hin h1
    obtain ⟨g', e, h⟩ := ih (k + 1) (hs.trans s1) w1 h2 (fun i r' hr' => by
      have := he (i + 1) r' (by simpa using hr')
      rwa [show k + (i + 1) = k + 1 + i by omega] at this)
    refine ⟨g', ?_, h⟩
    rw [OccupancyMapper.beamLoop, hb, h1, Res.ok_bind, ← beamAngle_succ]
    exact e

theorem updateMap_returns (m : OccupancyMapper F) {g0 : GridMap F} (hv : ValuesFit m g0) (hsm : SmallGrid g0)
    (hx : g0.xsize ≠ 0) (hy : g0.ysize ≠ 0) {g : GridMap F} (hs : SameGeometry g0 g) (hw : WellFormed g)
    (hg : ∀ v ∈ g.data, Arises m g0 v) (scan : LaserScan F) (pose : V3 F) (hf : ScanFits m g0 (scan, pose)) :
    ∃ r, m.updateMap g scan pose = .ok r ∧ SameGeometry g0 r.2 ∧ WellFormed r.2 ∧ ∀ v ∈ r.2.data, Arises m g0 v := by
  obtain ⟨hp, he⟩ := hf
  obtain ⟨src, hsrc⟩ := ((PointFits.same hs).mpr hp).ok
  have hx' : g.xsize ≠ 0 := by unfold SameGeometry at hs; rw [hs]; exact hx
  have hy' : g.ysize ≠ 0 := by unfold SameGeometry at hs; rw [hs]; exact hy
  by_cases hc : IsCell g src.1 src.2
  · have hc0 : IsCell g0 src.1 src.2 := by unfold SameGeometry at hs; rw [hs] at hc; exact hc
    obtain ⟨g', e, h⟩ := beamLoop_returns m hv hsm scan ((transform2d pose.c0 pose.c1 pose.c2).mul m.Tbs) hc0
      scan.ranges 0 hs hw hg (fun i r hr hv => by rw [Nat.zero_add]; exact he i r hr hv)
    refine ⟨(true, g'), ?_, h⟩
    unfold OccupancyMapper.updateMap
    rw [hsrc, Res.ok_bind, if_neg (by simp [(C02_gridBounds_exact_partial g hx' hy' src.1 src.2).mpr hc])]
    have e' : m.beamLoop scan ((transform2d pose.c0 pose.c1 pose.c2).mul m.Tbs) src scan.ranges scan.angle_min g =
      .ok g' := e
    dsimp only
    rw [e']
    rfl
  · exact ⟨(false, g), (C36_outside m g hx' hy' scan pose src hsrc).1 hc, hs, hw, hg⟩

/-- C130: on a well-formed map with cells, whose cells have `int` coordinates, any number of scans that fit are taken in
without an exception. -/
theorem C130_returns (m : OccupancyMapper F) (g : GridMap F) (hw : WellFormed g) (hsm : SmallGrid g)
    (hx : g.xsize ≠ 0) (hy : g.ysize ≠ 0) (hv : ValuesFit m g) (l : List (LaserScan F × V3 F))
    (hf : ∀ sp ∈ l, ScanFits m g sp) : ∃ g', runScans m l g = .ok g' ∧ SameGeometry g g' ∧ WellFormed g' := by
  have key : ∀ (l : List (LaserScan F × V3 F)) {g1 : GridMap F}, SameGeometry g g1 → WellFormed g1 →
      (∀ v ∈ g1.data, Arises m g v) → (∀ sp ∈ l, ScanFits m g sp) →
      ∃ g', runScans m l g1 = .ok g' ∧ SameGeometry g g' ∧ WellFormed g' := by
    intro l
    induction l with
    | nil => intro g1 hs h1 _ _; exact ⟨g1, rfl, hs, h1⟩
    | cons sp l ih =>
      intro g1 hs h1 hg hf
      obtain ⟨r, e, s1, w1, a1⟩ := updateMap_returns m hv hsm hx hy hs h1 hg sp.1 sp.2 (hf sp (List.mem_cons_self ..))
      obtain ⟨g', e', h⟩ := ih s1 w1 a1 fun q hq => hf q (List.mem_cons_of_mem _ hq)
      refine ⟨g', ?_, h⟩
      rw [runScans, e, Res.ok_bind]
      exact e'
  exact key l rfl hw (fun v hv => .stored hv) hf

/-! ## The conversions are really made -/

/-- C130: with a pose that has no cell the update is undefined, whatever the scan. -/
theorem C130_pose (m : OccupancyMapper F) (g : GridMap F) (scan : LaserScan F) (pose : V3 F)
    (h : ¬ PointFits g pose.c0 pose.c1) : m.updateMap g scan pose = .ub := by
  unfold OccupancyMapper.updateMap
  rw [PointFits.misfit h]
  rfl

theorem beamLoop_points (m : OccupancyMapper F) (scan : LaserScan F) (Tms : M3 F) (src : UInt32 × UInt32) :
    ∀ (rs : List F) (k : Nat) {g g' : GridMap F}, m.beamLoop scan Tms src rs (beamAngle scan k) g = .ok g' →
    ∀ i r, rs[i]? = some r → RangeValid scan r →
      PointFits g (beamEnd Tms scan (k + i) r).c0 (beamEnd Tms scan (k + i) r).c1 := by
  intro rs
  induction rs with
  | nil => intro k g g' _ i r hr; simp at hr
  | cons r rs ih =>
    intro k g g' h i r' hr hv
    rw [OccupancyMapper.beamLoop] at h
    obtain ⟨g1, e, h⟩ := Res.bind_eq_ok.mp h
    rw [← beamAngle_succ] at h
    rcases i with _ | i
    · rw [List.getElem?_cons_zero, Option.some.injEq] at hr
      subst hr
      obtain ⟨p, hp⟩ := beam_ok m scan Tms e hv
      by_contra hn
      rw [Nat.add_zero] at hn
      rw [PointFits.misfit hn] at hp
      cases hp
    · have := ih (k + 1) h i r' (by simpa using hr) hv
      rw [show k + 1 + i = k + (i + 1) by omega] at this
      exact (PointFits.same (beam_geometry m scan Tms src _ _ e)).mp this

/-- C130: an update that takes in a scan has found a cell for the end of every beam with a valid range; with a beam of a
valid range that has none it does not return. -/
theorem C130_ends (m : OccupancyMapper F) (g g' : GridMap F) (scan : LaserScan F) (pose : V3 F)
    (h : m.updateMap g scan pose = .ok (true, g')) : PointFits g pose.c0 pose.c1 ∧ EndsFit m g scan pose := by
  refine ⟨?_, ?_⟩
  · by_contra hn
    rw [C130_pose m g scan pose hn] at h
    cases h
  · intro k r hr hv
    unfold OccupancyMapper.updateMap at h
    obtain ⟨src, -, h⟩ := Res.bind_eq_ok.mp h
    split at h
    · simp at h
    · obtain ⟨g1, e, -⟩ := Res.bind_eq_ok.mp h
      have := beamLoop_points m scan _ src scan.ranges 0 e k r hr hv
      rwa [Nat.zero_add] at this

/-- C130: evidence about a stored value that makes it leave `int8_t` is undefined. -/
theorem C130_value (m : OccupancyMapper F) (g : GridMap F) (hw : WellFormed g) (x y : Int) (hin : InGrid g x y)
    (v : Int8) (hc : cellAt g y.toNat x.toNat = some v) (log : F) (h : ¬ InRange32 (revised m log v) (-128) 128) :
    m.updateCell g x y log = .ub := by
  rw [updateCell_eq m hw hin log hc]
  have : observe m log v = .ub := castI8_misfit h
  rw [this]
  rfl

/-! ## Percentages -/

theorem observe_range {m : OccupancyMapper F} {log : F} {v v' : Int8} (h : observe m log v = .ok v') :
    InRange32 (revised m log v) (-128) 128 := by
  by_contra hn
  have : observe m log v = .ub := castI8_misfit hn
  rw [this] at h
  cases h

theorem valuesFit_of_keepsPct {m : OccupancyMapper F} (hm : KeepsPct m) {g : GridMap F} (hp : Percentages g) :
    (∀ v, Arises m g v → 0 ≤ v.toInt ∧ v.toInt ≤ 100) ∧ ValuesFit m g := by
  have step : ∀ v log, Pct v → IsEvidence m log → ∃ v', observe m log v = .ok v' ∧ Pct v' := by
    intro v log h hl
    rcases hl with rfl | rfl
    · exact (hm v h).1
    · exact (hm v h).2
  have key : ∀ v, Arises m g v → Pct v := by
    intro v ha
    induction ha with
    | stored h => exact hp _ h
    | @revised v log n _ hl hn h0 h1 ih =>
      obtain ⟨v', e, hv'⟩ := step v log ih hl
      have : observe m log v = .ok (Int8.ofInt n) := by
        show castI8 (revised m log v) = _
        unfold castI8
        rw [hn]
        exact if_pos ⟨h0, h1⟩
      rw [this, Res.ok.injEq] at e
      rw [e]; exact hv'
  refine ⟨key, fun v log ha hl => ?_⟩
  obtain ⟨v', e, -⟩ := step v log (key v ha) hl
  exact observe_range e

/-- C130, with exact values: the conversions of the values fit exactly if the map consists of percentages; no unknown
cell and no value above 100 is allowed anywhere a beam goes. -/
theorem C130_values (Tbs : M3 Dbl) (g : GridMap Dbl) : ValuesFit (OccupancyMapper.new Tbs) g ↔ Percentages g := by
  constructor
  · intro hf v hv
    by_contra hn
    obtain ⟨n, -, -, -, hc⟩ := (hf v _ (.stored hv) (.inl rfl)).i8
    have : observe (OccupancyMapper.new Tbs) (OccupancyMapper.new Tbs).log_odds_free v = .ok (Int8.ofInt n) := hc
    rw [observe_bad Tbs _ hn] at this
    cases this
  · refine fun hp => (valuesFit_of_keepsPct (fun v hv => ⟨?_, ?_⟩) hp).2
    · refine ⟨_, observe_free Tbs hv.1 hv.2, ?_⟩
      have hb := freeStep_range hv.1 hv.2
      have := hv.2
      unfold Pct
      rw [int8_ofInt hb.1 (by omega)]
      omega
    · refine ⟨_, observe_occ Tbs hv.1 hv.2, ?_⟩
      have hb := occStep_range hv.1 hv.2
      have := hv.1
      unfold Pct
      rw [int8_ofInt (by omega) hb.2]
      omega

/-- C130, with rounding by any machine: on a map of percentages the conversions of the values fit, and only those of the
poses and of the ends of the beams are left. -/
theorem C130_rounded {M : Machine} (Tbs : M3 (RDbl M)) (g : GridMap (RDbl M)) (hw : WellFormed g) (hsm : SmallGrid g)
    (hx : g.xsize ≠ 0) (hy : g.ysize ≠ 0) (hp : Percentages g) (l : List (LaserScan (RDbl M) × V3 (RDbl M)))
    (hf : ∀ sp ∈ l, ScanFits (OccupancyMapper.new Tbs) g sp) :
    ∃ g', runScans (OccupancyMapper.new Tbs) l g = .ok g' ∧ SameGeometry g g' ∧ WellFormed g' ∧ Percentages g' := by
  obtain ⟨g', h1, h2, h3⟩ := C130_returns (OccupancyMapper.new Tbs) g hw hsm hx hy
    (valuesFit_of_keepsPct (keepsPct_rd Tbs) hp).2 l hf
  exact ⟨g', h1, h2, h3, (runScans_keeps (keepsPct_rd Tbs) l g g' hw hsm hx hy hp h1).1⟩

/-- C130, with exact values: a point not below the lower edges of the map, and less than `2^32` cells from them, has a
cell. -/
theorem C130_points {g : GridMap Dbl} {x y x0 y0 res : ℝ} (hx : g.xmin = .fin x0) (hy : g.ymin = .fin y0)
    (hr : g.resolution = .fin res) (h0 : 0 < res) :
    PointFits g (.fin x) (.fin y) ↔
      (x0 ≤ x ∧ x < x0 + 4294967296 * res) ∧ (y0 ≤ y ∧ y < y0 + 4294967296 * res) := by
  have key : ∀ a b : ℝ, InRange32 (Flt.floor ((.fin a -. .fin b : Dbl) /. .fin res)) 0 4294967296 ↔
      (b ≤ a ∧ a < b + 4294967296 * res) := by
    intro a b
    rw [Dbl.sub_fin, Dbl.div_fin _ h0.ne', Dbl.floor_fin]
    have e : Flt.trunc? (Dbl.fin ((⌊(a - b) / res⌋ : Int) : ℝ)) = some ⌊(a - b) / res⌋ := by
      rw [Dbl.trunc_fin, realTrunc_intCast]
    have e1 : 0 ≤ ⌊(a - b) / res⌋ ↔ b ≤ a := by
      rw [Int.floor_nonneg, le_div_iff₀ h0, zero_mul, sub_nonneg]
    have e2 : ⌊(a - b) / res⌋ < 4294967296 ↔ a < b + 4294967296 * res := by
      rw [Int.floor_lt, div_lt_iff₀ h0, sub_lt_iff_lt_add']
      norm_num
    constructor
    · rintro ⟨n, hn, h1, h2⟩
      rw [e, Option.some.injEq] at hn
      rw [← hn] at h1 h2
      exact ⟨e1.mp h1, e2.mp h2⟩
    · rintro ⟨h1, h2⟩
      exact ⟨_, e, e1.mpr h1, e2.mpr h2⟩
  unfold PointFits
  rw [hx, hy, hr, key, key]

/-- The hypotheses are met: a strip of half-known cells takes in the one-beam scan of `strip_scan` any number of times. -/
example (n : Nat) : ∃ g', runScans (OccupancyMapper.new idT)
    (List.replicate n (oneBeam, ⟨.fin 0.5, .fin 0.5, .fin 0⟩)) (stripGrid 50 50 50) = .ok g' := by
  have hf : ScanFits (OccupancyMapper.new idT) (stripGrid 50 50 50) (oneBeam, ⟨.fin 0.5, .fin 0.5, .fin 0⟩) := by
    have hpt : ∀ x : ℝ, 0 ≤ x → x < 3 → PointFits (stripGrid 50 50 50) (.fin x) (.fin 0.5) := fun x h0 h1 =>
      (C130_points (g := stripGrid 50 50 50) (x0 := 0) (y0 := 0) (res := 1) rfl rfl rfl (by norm_num)).mpr
        ⟨⟨h0, by linarith⟩, by norm_num, by norm_num⟩
    refine ⟨hpt 0.5 (by norm_num) (by norm_num), ?_⟩
    intro k r hk hv
    have : k = 0 ∧ r = .fin 2 := by
      rcases k with _ | k
      · simp only [oneBeam, List.getElem?_cons_zero, Option.some.injEq] at hk
        exact ⟨rfl, hk.symm⟩
      · simp [oneBeam] at hk
    obtain ⟨rfl, rfl⟩ := this
    have hb := strip_beam
    unfold sensorPose at hb
    dsimp only at hb ⊢
    rw [show (OccupancyMapper.new idT).Tbs = idT from rfl, hb]
    exact hpt 2.5 (by norm_num) (by norm_num)
  have hp : Percentages (stripGrid 50 50 50) := by
    intro v hv
    have : v = 50 := by simpa [stripGrid] using hv
    subst this; decide
  obtain ⟨g', h, -⟩ := C130_returns (OccupancyMapper.new idT) (stripGrid 50 50 50) (stripGrid_wf _ _ _) (by
      show (3 : UInt32).toNat < 2147483648 ∧ (1 : UInt32).toNat < 2147483648
      decide) (by decide) (by decide) ((C130_values idT _).mpr hp)
      (List.replicate n (oneBeam, ⟨.fin 0.5, .fin 0.5, .fin 0⟩)) (fun sp hsp => by
        rw [List.eq_of_mem_replicate hsp]; exact hf)
  exact ⟨g', h⟩

end Ergodic
