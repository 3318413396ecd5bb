import Verif.Props.ExchangeWorld
import Verif.Props.Mapping

/-!
# Property C133, continued: mapping with the axes exchanged

Exact arithmetic.
-/

namespace Ergodic
open Real

namespace Exchange

theorem maps_wf {g g' : GridMap ℝ} (h : Maps g g') (hw : WellFormed g) : WellFormed g' := by
  obtain ⟨h1, h2⟩ := hw
  have e : numCells g' = numCells g := by simp only [numCells, h.xsize, h.ysize, Nat.mul_comm]
  exact ⟨by simpa only [Fits, e] using h1, by rw [h.size, h2, e]⟩

theorem inGrid_exchange {g g' : GridMap ℝ} (h : Maps g g') (x y : Int) : InGrid g' y x ↔ InGrid g x y := by
  simp only [InGrid, h.xsize, h.ysize]
  tauto

theorem isCell_exchange {g g' : GridMap ℝ} (h : Maps g g') (i j : UInt32) : IsCell g' j i ↔ IsCell g i j := by
  simp only [IsCell, h.xsize, h.ysize]
  tauto

theorem bounds_exchange {g g' : GridMap ℝ} (h : Maps g g') (i j : UInt32) : g'.gridBounds j i = g.gridBounds i j := by
  simp only [GridMap.gridBounds, h.xsize, h.ysize]
  exact Bool.and_comm _ _

theorem castU32_cases (x : ℝ) : (∃ n, castU32 x = .ok n) ∨ castU32 x = .ub := by
  unfold castU32
  split
  · split
    · exact .inl ⟨_, rfl⟩
    · exact .inr rfl
  · exact .inr rfl

theorem world2Grid_exchange {g g' : GridMap ℝ} (h : Maps g g') (x y : ℝ) :
    Alike (fun a b => b = a.swap) (g.world2Grid x y) (g'.world2Grid y x) := by
  simp only [GridMap.world2Grid, h.xmin, h.ymin, h.resolution, h.xsize, h.ysize]
  rcases castU32_cases (Flt.floor ((x -. g.xmin) /. g.resolution)) with ⟨j, hj⟩ | hj <;>
    rcases castU32_cases (Flt.floor ((y -. g.ymin) /. g.resolution)) with ⟨i, hi⟩ | hi <;> rw [hj, hi]
  · exact rfl
  · trivial
  · trivial
  · trivial

/-- maps that are exchanged and sound -/
def Twins (g0 : GridMap ℝ) (g g' : GridMap ℝ) : Prop := Maps g g' ∧ WellFormed g ∧ SameGeometry g0 g

theorem updateCell_exchange {g0 g g' : GridMap ℝ} (h : Twins g0 g g') (m : OccupancyMapper ℝ) {x y : Int}
    (hi : InGrid g0 x y) (log : ℝ) :
    Alike (Twins g0) (m.updateCell g x y log) ((mapper m).updateCell g' y x log) := by
  obtain ⟨hm, hw, hg⟩ := h
  have hi : InGrid g x y := hg.inGrid.mpr hi
  have hi' : InGrid g' y x := (inGrid_exchange hm x y).mpr hi
  have hw' := maps_wf hm hw
  obtain ⟨v, hv⟩ := hi.exists_cell hw
  have hb : y.toNat < g.ysize.toNat ∧ x.toNat < g.xsize.toNat := by
    obtain ⟨a, b, c, d⟩ := hi
    omega
  have hv' : cellAt g' x.toNat y.toNat = some v := by rw [hm.cells _ _ hb.1 hb.2]; exact hv
  rw [updateCell_eq m hw hi log hv, updateCell_eq (mapper m) hw' hi' log hv']
  show Alike _ (observe m log v >>= _) (observe m log v >>= _)
  refine Alike.same fun w _ => ⟨?_, setCell_wf hw x y w, hg.trans (setCell_geometry g x y w)⟩
  refine { hm with size := ?_, cells := ?_ }
  · simpa [setCell] using hm.size
  · intro i j h1 h2
    have h1 : i < g.ysize.toNat := h1
    have h2 : j < g.xsize.toNat := h2
    have k : InGrid g (j : Int) (i : Int) := ⟨by omega, by omega, by omega, by omega⟩
    have a := setCell_cellAt hw w hi k
    have b := setCell_cellAt hw' w hi' ((inGrid_exchange hm _ _).mpr k)
    simp only [Int.toNat_natCast] at a b
    rw [a, b, hm.cells i j h1 h2]
    simp only [and_comm]

theorem applyUpd_exchange {g0 : GridMap ℝ} (m : OccupancyMapper ℝ) (l : List (Int × Int × ℝ)) {g g' : GridMap ℝ}
    (h : Twins g0 g g') (hl : ∀ p ∈ l, InGrid g0 p.1 p.2.1) :
    Alike (Twins g0) (applyUpd m l g) (applyUpd (mapper m) (l.map fun p => (p.2.1, p.1, p.2.2)) g') := by
  induction l generalizing g g' with
  | nil => exact h
  | cons q t ih =>
    obtain ⟨x, y, log⟩ := q
    rw [List.map_cons]
    simp only [applyUpd]
    exact (updateCell_exchange h m (hl (x, y, log) (by simp)) log).bind fun a b hab =>
      ih hab fun p hp => hl p (by simp [hp])

theorem u2i_cell {g : GridMap ℝ} (hsm : SmallGrid g) {i j : UInt32} (h : IsCell g i j) :
    u2i i = i.toNat ∧ u2i j = j.toNat := by
  obtain ⟨s1, s2⟩ := hsm
  obtain ⟨h1, h2⟩ := h
  unfold u2i
  rw [if_pos (by omega), if_pos (by omega)]
  exact ⟨rfl, rfl⟩

theorem mark_exchange {g0 g g' : GridMap ℝ} (h : Twins g0 g g') (hsm : SmallGrid g0) (m : OccupancyMapper ℝ)
    {s p : UInt32 × UInt32} (hs : IsCell g0 s.1 s.2) (hp : IsCell g0 p.1 p.2) :
    Alike (Twins g0)
      (do let g ← m.rayTrace g (u2i s.2) (u2i s.1) (u2i p.2) (u2i p.1)
          m.updateCell g (u2i p.2) (u2i p.1) m.log_odds_occ)
      (do let g ← (mapper m).rayTrace g' (u2i s.1) (u2i s.2) (u2i p.1) (u2i p.2)
          (mapper m).updateCell g (u2i p.1) (u2i p.2) (mapper m).log_odds_occ) := by
  obtain ⟨s1, s2⟩ := u2i_cell hsm hs
  obtain ⟨p1, p2⟩ := u2i_cell hsm hp
  rw [s1, s2, p1, p2, rayTrace_eq, rayTrace_eq, rayCells_exchange s.2.toNat s.1.toNat p.2.toNat p.1.toNat]
  refine Alike.bind (R := Twins g0) ?_ fun a b hab => ?_
  · have e : markFree (mapper m) ((rayCells s.2.toNat s.1.toNat p.2.toNat p.1.toNat).map Prod.swap) =
        (markFree m (rayCells s.2.toNat s.1.toNat p.2.toNat p.1.toNat)).map fun p => (p.2.1, p.1, p.2.2) := by
      unfold markFree
      rw [List.map_map, List.map_map]
      rfl
    rw [e]
    refine applyUpd_exchange m _ h fun q hq => ?_
    simp only [markFree, List.mem_map, Prod.exists] at hq
    obtain ⟨x, y, hxy, rfl⟩ := hq
    have := onRay_box (mem_rayCells.mp hxy).1
    obtain ⟨a1, a2⟩ := hs
    obtain ⟨b1, b2⟩ := hp
    show InGrid g0 x y
    unfold InGrid
    omega
  · refine updateCell_exchange hab m ?_ _
    obtain ⟨b1, b2⟩ := hp
    unfold InGrid
    omega

theorem beam_point {x x' : V3 ℝ} (hx : Poses x x') (T : M3 ℝ) (a r : ℝ) :
    let q := ((transform2d x.c0 x.c1 x.c2).mul T).mulVec (polar2CartesianHomo a r)
    let q' := ((transform2d x'.c0 x'.c1 x'.c2).mul (mount T)).mulVec (polar2CartesianHomo (-a) r)
    q'.c0 = q.c1 ∧ q'.c1 = q.c0 := by
  obtain ⟨h0, h1, h2, h3⟩ := hx
  simp only [M3.mulVec, M3.mul, M3.t, V3.dot, transform2d, polar2CartesianHomo, mount, real_add, real_mul, real_neg,
    real_cos, real_sin, real_lit, Real.cos_neg, Real.sin_neg, h0, h1, h2, h3]
  constructor <;> ring

theorem beam_exchange {g0 g g' : GridMap ℝ} (h : Twins g0 g g') (hsm : SmallGrid g0) (m : OccupancyMapper ℝ)
    (sc : LaserScan ℝ) {x x' : V3 ℝ} (hx : Poses x x') {s : UInt32 × UInt32} (hs : IsCell g0 s.1 s.2) (a r : ℝ) :
    Alike (Twins g0) (m.beam sc ((transform2d x.c0 x.c1 x.c2).mul m.Tbs) s a r g)
      ((mapper m).beam (scan sc) ((transform2d x'.c0 x'.c1 x'.c2).mul (mount m.Tbs)) s.swap (-a) r g') := by
  have n0 : g0.xsize ≠ 0 ∧ g0.ysize ≠ 0 := by
    obtain ⟨a1, a2⟩ := hs
    constructor <;> intro e
    · rw [e] at a2; simp at a2
    · rw [e] at a1; simp at a1
  obtain ⟨e0, e1⟩ := beam_point hx m.Tbs a r
  unfold OccupancyMapper.beam
  dsimp only at e0 e1 ⊢
  rw [e0, e1]
  by_cases hr : (Flt.lt sc.range_max r || Flt.lt r sc.range_min) = true
  · rw [if_pos hr, if_pos (show (Flt.lt (scan sc).range_max r || Flt.lt r (scan sc).range_min) = true from hr)]
    exact h
  · rw [if_neg hr, if_neg (show ¬(Flt.lt (scan sc).range_max r || Flt.lt r (scan sc).range_min) = true from hr)]
    refine (world2Grid_exchange h.1 _ _).bind fun p p' hp => ?_
    subst hp
    rw [Prod.fst_swap, Prod.snd_swap, bounds_exchange h.1, h.2.2.gridBounds]
    by_cases hb : g0.gridBounds p.1 p.2 = true
    · rw [if_pos hb, if_pos hb]
      exact mark_exchange h hsm m hs ((C02_gridBounds_exact_partial g0 n0.1 n0.2 p.1 p.2).mp hb)
    · rw [if_neg hb, if_neg hb]
      exact h

theorem beamLoop_exchange {g0 : GridMap ℝ} (hsm : SmallGrid g0) (m : OccupancyMapper ℝ) (sc : LaserScan ℝ)
    {x x' : V3 ℝ} (hx : Poses x x') {s : UInt32 × UInt32} (hs : IsCell g0 s.1 s.2) :
    ∀ (rs : List ℝ) (a : ℝ) {g g' : GridMap ℝ}, Twins g0 g g' →
    Alike (Twins g0) (m.beamLoop sc ((transform2d x.c0 x.c1 x.c2).mul m.Tbs) s rs a g)
      ((mapper m).beamLoop (scan sc) ((transform2d x'.c0 x'.c1 x'.c2).mul (mount m.Tbs)) s.swap rs (-a) g')
  | [], _, _, _, h => h
  | r :: rs, a, g, g', h => by
    unfold OccupancyMapper.beamLoop
    refine (beam_exchange h hsm m sc hx hs a r).bind fun b b' hb => ?_
    have : -a +. (scan sc).angle_increment = -(a +. sc.angle_increment) := by
      simp only [scan, real_add]
      ring
    rw [this]
    exact beamLoop_exchange hsm m sc hx hs rs _ hb

theorem updateMap_exchange {g g' : GridMap ℝ} (h : Maps g g') (hw : WellFormed g) (hsm : SmallGrid g)
    (hx : g.xsize ≠ 0) (hy : g.ysize ≠ 0) (m : OccupancyMapper ℝ) (sc : LaserScan ℝ) {p p' : V3 ℝ} (hp : Poses p p') :
    Alike (fun r r' => r'.1 = r.1 ∧ Twins g r.2 r'.2) (m.updateMap g sc p)
      ((mapper m).updateMap g' (scan sc) p') := by
  unfold OccupancyMapper.updateMap
  have e : g'.world2Grid p'.c0 p'.c1 = g'.world2Grid p.c1 p.c0 := by rw [hp.1, hp.2.1]
  rw [e]
  refine (world2Grid_exchange h _ _).bind fun s s' hs => ?_
  subst hs
  rw [Prod.fst_swap, Prod.snd_swap, bounds_exchange h]
  by_cases hb : g.gridBounds s.1 s.2 = true
  · rw [if_neg (by simp [hb]), if_neg (by simp [hb])]
    have hc := (C02_gridBounds_exact_partial g hx hy s.1 s.2).mp hb
    refine (beamLoop_exchange hsm m sc hp hc sc.ranges sc.angle_min ⟨h, hw, .refl _⟩).bind fun a b hab => ?_
    exact ⟨rfl, hab⟩
  · rw [if_pos hb, if_pos hb]
    exact ⟨rfl, h, hw, .refl _⟩

end Exchange

/-- C133: the mapper treats the axes alike.  With the map, the pose and the mounting of the sensor exchanged
and the scan taken the other way round, it ends alike, and the maps are exchanged again. -/
theorem C133_scan {g g' : GridMap ℝ} (h : Exchange.Maps g g') (hw : WellFormed g) (hsm : SmallGrid g)
    (hx : g.xsize ≠ 0) (hy : g.ysize ≠ 0) (m : OccupancyMapper ℝ) (scan : LaserScan ℝ) {p p' : V3 ℝ}
    (hp : Exchange.Poses p p') :
    Alike (fun r r' => r'.1 = r.1 ∧ Exchange.Maps r.2 r'.2) (m.updateMap g scan p)
      ((Exchange.mapper m).updateMap g' (Exchange.scan scan) p') :=
  (Exchange.updateMap_exchange h hw hsm hx hy m scan hp).mono fun _ _ ⟨a, b, _⟩ => ⟨a, b⟩

/-- C133: so it is after any number of scans. -/
theorem C133_scans {m : OccupancyMapper ℝ} {l l' : List (LaserScan ℝ × V3 ℝ)}
    (hl : List.Forall₂ (fun a b => b.1 = Exchange.scan a.1 ∧ Exchange.Poses a.2 b.2) l l') :
    ∀ {g g' : GridMap ℝ}, Exchange.Maps g g' → WellFormed g → SmallGrid g → g.xsize ≠ 0 → g.ysize ≠ 0 →
    Alike Exchange.Maps (runScans m l g) (runScans (Exchange.mapper m) l' g') := by
  induction hl with
  | nil => exact fun h _ _ _ _ => h
  | @cons a b _ _ hab _ ih =>
    intro g g' h hw hsm hx hy
    unfold runScans
    rw [hab.1]
    refine (Exchange.updateMap_exchange h hw hsm hx hy m a.1 hab.2).bind fun r r' ⟨_, k1, k2, k3⟩ => ?_
    have e : r.2.xsize = g.xsize ∧ r.2.ysize = g.ysize := by
      unfold SameGeometry at k3
      rw [k3]
      exact ⟨rfl, rfl⟩
    exact ih k1 k2 (by unfold SmallGrid; rw [e.1, e.2]; exact hsm) (by rw [e.1]; exact hx) (by rw [e.2]; exact hy)

/-- Case: a strip of three cells lying and standing, and a sensor mounted to the left of the robot's middle. -/
example (sc : LaserScan ℝ) : ∃ (g g' : GridMap ℝ) (m : OccupancyMapper ℝ) (p p' : V3 ℝ), Exchange.Maps g g' ∧ WellFormed g ∧
    SmallGrid g ∧ g.xsize ≠ 0 ∧ g.ysize ≠ 0 ∧ Exchange.Poses p p' ∧ p ≠ p' ∧ Exchange.mapper m ≠ m ∧
    List.Forall₂ (fun a b => b.1 = Exchange.scan a.1 ∧ Exchange.Poses a.2 b.2) [(sc, p)] [(Exchange.scan sc, p')] := by
  have hp : Exchange.Poses (⟨5 / 2, 1 / 2, 0⟩ : V3 ℝ) ⟨1 / 2, 5 / 2, π / 2⟩ := by
    simp only [Exchange.Poses]
    norm_num
  refine ⟨⟨3, 1, 1, 0, 0, 3, 1, [50, 50, 0]⟩, ⟨1, 3, 1, 0, 0, 1, 3, [50, 50, 0]⟩,
    OccupancyMapper.new ⟨⟨1, 0, 0⟩, ⟨0, 1, 1⟩, ⟨0, 0, 1⟩⟩, ⟨5 / 2, 1 / 2, 0⟩, ⟨1 / 2, 5 / 2, π / 2⟩,
    ⟨⟨rfl, rfl, rfl, rfl⟩, rfl, rfl, rfl, rfl, ?_⟩, ⟨by decide, by decide⟩, ⟨by decide, by decide⟩, by decide,
    by decide, hp, ?_, ?_, .cons ⟨rfl, hp⟩ .nil⟩
  · intro i j hi hj
    have hi' : i < 1 := hi
    have hj' : j < 3 := hj
    obtain rfl : i = 0 := by omega
    have : j = 0 ∨ j = 1 ∨ j = 2 := by omega
    rcases this with rfl | rfl | rfl <;> rfl
  · intro h
    have : (5 / 2 : ℝ) = 1 / 2 := congrArg V3.c0 h
    norm_num at this
  · intro h
    have : (-1 : ℝ) = 1 := congrArg (fun m => m.Tbs.r1.c2) h
    norm_num at this

end Ergodic
