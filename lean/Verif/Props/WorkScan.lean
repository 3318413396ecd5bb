import Verif.Props.Work
import Verif.Props.ScanSingle

/-!
# C131: the work of a scan
-/

namespace Ergodic
variable {F : Type} [Flt F]
open Metered

namespace Meter
variable (p : Prices)

theorem vertLoop_res (m : OccupancyMapper F) (x0 s : Int) : ∀ (n : Nat) (y : Int) (g : GridMap F),
    (vertLoop p m x0 s n y g).res = m.vertLoop x0 s n y g := by
  intro n
  induction n with
  | zero => intros; rfl
  | succ n ih => intro y g; simp only [vertLoop, OccupancyMapper.vertLoop, bind_res, charge_res, ih]

theorem vertLoop_work (m : OccupancyMapper F) (x0 s : Int) : ∀ (n : Nat) (y : Int) (g : GridMap F),
    (vertLoop p m x0 s n y g).work ≤ p.update * n := by
  intro n
  induction n with
  | zero => intros; exact Nat.zero_le _
  | succ n ih =>
    intro y g
    rw [vertLoop, Nat.mul_succ, Nat.add_comm]
    exact charge_bind_work_le fun g' _ => ih _ _

theorem horzLoop_res (m : OccupancyMapper F) (y0 s : Int) : ∀ (n : Nat) (x : Int) (g : GridMap F),
    (horzLoop p m y0 s n x g).res = m.horzLoop y0 s n x g := by
  intro n
  induction n with
  | zero => intros; rfl
  | succ n ih => intro y g; simp only [horzLoop, OccupancyMapper.horzLoop, bind_res, charge_res, ih]

theorem horzLoop_work (m : OccupancyMapper F) (y0 s : Int) : ∀ (n : Nat) (x : Int) (g : GridMap F),
    (horzLoop p m y0 s n x g).work ≤ p.update * n := by
  intro n
  induction n with
  | zero => intros; exact Nat.zero_le _
  | succ n ih =>
    intro y g
    rw [horzLoop, Nat.mul_succ, Nat.add_comm]
    exact charge_bind_work_le fun g' _ => ih _ _

theorem lineLowLoop_res (m : OccupancyMapper F) (dx dy yi : Int) : ∀ (n : Nat) (x y D c : Int) (g : GridMap F),
    (lineLowLoop p m dx dy yi n x y D c g).res = m.lineLowLoop dx dy yi n x y D c g := by
  intro n
  induction n with
  | zero => intros; rfl
  | succ n ih =>
    intro x y D c g
    simp only [lineLowLoop, OccupancyMapper.lineLowLoop, bind_res, ite_res, charge_res, free_res, ih]

/-- The first cell of the line is skipped. -/
theorem lineLowLoop_work (m : OccupancyMapper F) (dx dy yi : Int) : ∀ (n : Nat) (x y D c : Int) (g : GridMap F), 0 ≤ c →
    (lineLowLoop p m dx dy yi n x y D c g).work ≤ p.update * (if c = 0 then n - 1 else n) := by
  intro n
  induction n with
  | zero => intros; exact Nat.zero_le _
  | succ n ih =>
    intro x y D c g hc
    rw [lineLowLoop]
    have hi := fun x y D g => ih x y D (c + 1) g (by omega)
    rw [if_neg (by omega)] at hi
    by_cases h0 : c = 0
    · rw [if_neg (by simpa using h0), if_pos h0, Nat.add_sub_cancel]
      exact free_bind_work_le fun g' _ => hi _ _ _ _
    · rw [if_pos h0, if_neg h0, Nat.mul_succ, Nat.add_comm]
      exact charge_bind_work_le fun g' _ => hi _ _ _ _

theorem lineHighLoop_res (m : OccupancyMapper F) (dx dy xi : Int) : ∀ (n : Nat) (x y D c : Int) (g : GridMap F),
    (lineHighLoop p m dx dy xi n x y D c g).res = m.lineHighLoop dx dy xi n x y D c g := by
  intro n
  induction n with
  | zero => intros; rfl
  | succ n ih =>
    intro x y D c g
    simp only [lineHighLoop, OccupancyMapper.lineHighLoop, bind_res, ite_res, charge_res, free_res, ih]

theorem lineHighLoop_work (m : OccupancyMapper F) (dx dy xi : Int) : ∀ (n : Nat) (x y D c : Int) (g : GridMap F), 0 ≤ c →
    (lineHighLoop p m dx dy xi n x y D c g).work ≤ p.update * (if c = 0 then n - 1 else n) := by
  intro n
  induction n with
  | zero => intros; exact Nat.zero_le _
  | succ n ih =>
    intro x y D c g hc
    rw [lineHighLoop]
    have hi := fun x y D g => ih x y D (c + 1) g (by omega)
    rw [if_neg (by omega)] at hi
    by_cases h0 : c = 0
    · rw [if_neg (by simpa using h0), if_pos h0, Nat.add_sub_cancel]
      exact free_bind_work_le fun g' _ => hi _ _ _ _
    · rw [if_pos h0, if_neg h0, Nat.mul_succ, Nat.add_comm]
      exact charge_bind_work_le fun g' _ => hi _ _ _ _

theorem lineDiagLoop_res (m : OccupancyMapper F) (xi yi x1 y1 : Int) : ∀ (n : Nat) (x y : Int) (g : GridMap F),
    (lineDiagLoop p m xi yi x1 y1 n x y g).res = m.lineDiagLoop xi yi x1 y1 n x y g := by
  intro n
  induction n with
  | zero => intros; rfl
  | succ n ih =>
    intro x y g
    simp only [lineDiagLoop, OccupancyMapper.lineDiagLoop, bind_res, ite_res, charge_res, free_res, ih]

theorem lineDiagLoop_work (m : OccupancyMapper F) (xi yi x1 y1 : Int) : ∀ (n k : Nat) (x y : Int) (g : GridMap F),
    x1 - x = xi * k → (lineDiagLoop p m xi yi x1 y1 n x y g).work ≤ p.update * k := by
  intro n
  induction n with
  | zero => intros; exact Nat.zero_le _
  | succ n ih =>
    intro k x y g hk
    rw [lineDiagLoop]
    split
    case isFalse => exact Nat.zero_le _
    case isTrue hx =>
    cases k with
    | zero => exact absurd (by push_cast at hk; omega) hx.1
    | succ k =>
      rw [Nat.mul_succ, Nat.add_comm]
      exact charge_bind_work_le fun g' _ => ih k _ _ _ (by push_cast at hk ⊢; linarith)

theorem rayTrace_res (m : OccupancyMapper F) (g : GridMap F) (x0 y0 x1 y1 : Int) :
    (rayTrace p m g x0 y0 x1 y1).res = m.rayTrace g x0 y0 x1 y1 := by
  simp only [rayTrace, OccupancyMapper.rayTrace, ite_res, bind_res, charge_res, free_res, vertLoop_res, horzLoop_res,
    lineLow, OccupancyMapper.lineLow, lineLowLoop_res, lineHigh, OccupancyMapper.lineHigh, lineHighLoop_res,
    lineDiag, OccupancyMapper.lineDiag, lineDiagLoop_res]

/-- A ray costs as many updates as it is long, in cells along its longer side. -/
theorem rayTrace_work (m : OccupancyMapper F) (g : GridMap F) (x0 y0 x1 y1 : Int) :
    (rayTrace p m g x0 y0 x1 y1).work ≤ p.update * max (x1 - x0).natAbs (y1 - y0).natAbs := by
  have hlow : ∀ (a b c d : Int) (g : GridMap F), 1 ≤ c - a →
      (lineLow p m g a b c d).work ≤ p.update * ((c - a).natAbs - 1) := by
    intro a b c d g h
    refine le_trans (lineLowLoop_work p m _ _ _ _ _ _ _ _ _ le_rfl) (Nat.mul_le_mul_left _ ?_)
    rw [if_pos rfl]; omega
  have hhigh : ∀ (a b c d : Int) (g : GridMap F), 1 ≤ d - b →
      (lineHigh p m g a b c d).work ≤ p.update * ((d - b).natAbs - 1) := by
    intro a b c d g h
    refine le_trans (lineHighLoop_work p m _ _ _ _ _ _ _ _ _ le_rfl) (Nat.mul_le_mul_left _ ?_)
    rw [if_pos rfl]; omega
  have hone : ∀ (r : Res (GridMap F)) (f : GridMap F → Metered (GridMap F)) (n : Nat), 1 ≤ n →
      n ≤ max (x1 - x0).natAbs (y1 - y0).natAbs → (∀ g', (f g').work ≤ p.update * (n - 1)) →
      (charge p.update r >>= f).work ≤ p.update * max (x1 - x0).natAbs (y1 - y0).natAbs := by
    intro r f n h1 h2 hf
    refine le_trans (charge_bind_work_le fun g' _ => hf g') ?_
    obtain ⟨k, rfl⟩ : ∃ k, n = k + 1 := ⟨n - 1, by omega⟩
    rw [Nat.add_sub_cancel]
    refine le_trans (le_of_eq ?_) (Nat.mul_le_mul_left _ h2)
    ring
  rw [rayTrace]
  split_ifs
  · exact le_trans (vertLoop_work p m _ _ _ _ _) (Nat.mul_le_mul_left _ (by omega))
  · exact le_trans (vertLoop_work p m _ _ _ _ _) (Nat.mul_le_mul_left _ (by omega))
  · exact le_trans (horzLoop_work p m _ _ _ _ _) (Nat.mul_le_mul_left _ (by omega))
  · exact le_trans (horzLoop_work p m _ _ _ _ _) (Nat.mul_le_mul_left _ (by omega))
  · exact hone _ _ (x0 - x1).natAbs (by omega) (by omega) fun g' => hlow _ _ _ _ _ (by omega)
  · exact hone _ _ (x1 - x0).natAbs (by omega) (by omega) fun g' => hlow _ _ _ _ _ (by omega)
  · exact hone _ _ (y0 - y1).natAbs (by omega) (by omega) fun g' => hhigh _ _ _ _ _ (by omega)
  · exact hone _ _ (y1 - y0).natAbs (by omega) (by omega) fun g' => hhigh _ _ _ _ _ (by omega)
  · refine le_trans (lineDiagLoop_work p m _ _ _ _ _ (x1 - x0).natAbs _ _ _ ?_) (Nat.mul_le_mul_left _ (by omega))
    split <;> omega
  · exact Nat.zero_le _

theorem beam_res (m : OccupancyMapper F) (scan : LaserScan F) (T : M3 F) (psg : UInt32 × UInt32) (a r : F) (g : GridMap F) :
    (beam p m scan T psg a r g).res = m.beam scan T psg a r g := by
  simp only [beam, OccupancyMapper.beam, ite_res, bind_res, charge_res, free_res, rayTrace_res]

theorem beamLoop_res (m : OccupancyMapper F) (scan : LaserScan F) (T : M3 F) (psg : UInt32 × UInt32) : ∀ (rs : List F)
    (a : F) (g : GridMap F), (beamLoop p m scan T psg rs a g).res = m.beamLoop scan T psg rs a g := by
  intro rs
  induction rs with
  | nil => intros; rfl
  | cons r rs ih => intro a g; simp only [beamLoop, OccupancyMapper.beamLoop, bind_res, beam_res, ih]

theorem updateMap_res (m : OccupancyMapper F) (g : GridMap F) (scan : LaserScan F) (pose : V3 F) :
    (updateMap p m g scan pose).res = m.updateMap g scan pose := by
  simp only [updateMap, OccupancyMapper.updateMap, bind_res, ite_res, free_res, beamLoop_res]

theorem u2i_small {n : UInt32} (h : n.toNat < 2 ^ 31) : u2i n = n.toNat := by
  unfold u2i
  rw [if_pos (by omega)]

omit [Flt F] in
theorem gridBounds_lt {g : GridMap F} (hx : 0 < g.xsize.toNat) (hy : 0 < g.ysize.toNat) {i j : UInt32}
    (h : g.gridBounds i j = true) : i.toNat < g.ysize.toNat ∧ j.toNat < g.xsize.toNat := by
  simp only [GridMap.gridBounds, Bool.and_eq_true, decide_eq_true_eq] at h
  obtain ⟨h1, h2⟩ := h
  have e : ∀ n : UInt32, 0 < n.toNat → (n - 1).toNat = n.toNat - 1 := fun n hn =>
    UInt32.toNat_sub_of_le _ _ (UInt32.le_iff_toNat_le.mpr hn)
  rw [UInt32.le_iff_toNat_le, e _ hy] at h1
  rw [UInt32.le_iff_toNat_le, e _ hx] at h2
  omega

/-- A beam from one cell of the map to another. -/
theorem beam_work (m : OccupancyMapper F) (scan : LaserScan F) (T : M3 F) (psg : UInt32 × UInt32) (a r : F) {g : GridMap F}
    (hx : 0 < g.xsize.toNat) (hy : 0 < g.ysize.toNat) (hx' : g.xsize.toNat ≤ 2 ^ 31) (hy' : g.ysize.toNat ≤ 2 ^ 31)
    (hp : g.gridBounds psg.1 psg.2 = true) : (beam p m scan T psg a r g).work ≤
      p.update * ((if decide (RangeValid scan r) = true then 1 else 0) * max g.xsize.toNat g.ysize.toNat) := by
  rw [beam]
  by_cases hv : (Flt.lt scan.range_max r || Flt.lt r scan.range_min) = true
  · rw [if_pos hv]; exact Nat.zero_le _
  rw [if_neg hv, if_pos (decide_eq_true (by simpa [RangeValid] using hv)), Nat.one_mul]
  refine free_bind_work_le fun q _ => ?_
  split
  case isFalse => exact Nat.zero_le _
  case isTrue hq =>
  have h1 := gridBounds_lt hx hy hp
  have h2 := gridBounds_lt hx hy hq
  rw [u2i_small (n := psg.1) (by omega), u2i_small (n := psg.2) (by omega), u2i_small (n := q.1) (by omega),
    u2i_small (n := q.2) (by omega)]
  refine le_trans (bind_work_le (rayTrace_work p m g _ _ _ _) fun g' _ => le_of_eq (charge_work _ _)) ?_
  rw [← Nat.mul_succ]
  exact Nat.mul_le_mul_left _ (by omega)

theorem beamLoop_work (m : OccupancyMapper F) (scan : LaserScan F) (T : M3 F) (psg : UInt32 × UInt32) :
    ∀ (rs : List F) (a : F) (g : GridMap F), 0 < g.xsize.toNat → 0 < g.ysize.toNat → g.xsize.toNat ≤ 2 ^ 31 →
      g.ysize.toNat ≤ 2 ^ 31 → g.gridBounds psg.1 psg.2 = true → (beamLoop p m scan T psg rs a g).work ≤
        p.update * (rs.countP (fun r => decide (RangeValid scan r)) * max g.xsize.toNat g.ysize.toNat) := by
  intro rs
  induction rs with
  | nil => intros; exact Nat.zero_le _
  | cons r rs ih =>
    intro a g hx hy hx' hy' hp
    rw [beamLoop, List.countP_cons, Nat.add_comm, Nat.add_mul, Nat.mul_add]
    refine bind_work_le (beam_work p m scan T psg a r hx hy hx' hy' hp) fun g' hg => ?_
    rw [beam_res] at hg
    have e : g' = { g with data := g'.data } := beam_geometry m scan T psg a r hg
    have ex : g'.xsize = g.xsize := by rw [e]
    have ey : g'.ysize = g.ysize := by rw [e]
    have := ih (a +. scan.angle_increment) g' (by rwa [ex]) (by rwa [ey]) (by rwa [ex]) (by rwa [ey])
      (by unfold GridMap.gridBounds at hp ⊢; rwa [ex, ey])
    rwa [ex, ey] at this

end Meter

open Meter

/-- **C131** (scan): taking in a scan updates at most as many cells as there are valid returns times the longer side of
the map, whatever the map holds and whether the scan is taken in, throws or becomes undefined. -/
theorem C131_scan (p : Prices) (m : OccupancyMapper F) {g : GridMap F} (scan : LaserScan F) (pose : V3 F)
    (hx : 0 < g.xsize.toNat) (hy : 0 < g.ysize.toNat) (hx' : g.xsize.toNat ≤ 2 ^ 31) (hy' : g.ysize.toNat ≤ 2 ^ 31) :
    (Meter.updateMap p m g scan pose).res = m.updateMap g scan pose ∧
      (Meter.updateMap p m g scan pose).work ≤ scanPrice p g.xsize.toNat g.ysize.toNat scan := by
  refine ⟨updateMap_res p m g scan pose, ?_⟩
  rw [Meter.updateMap]
  refine free_bind_work_le fun q _ => ?_
  split
  case isTrue => exact Nat.zero_le _
  case isFalse hq =>
  refine le_trans (bind_work_le (B := 0) (beamLoop_work p m scan _ q _ _ g hx hy hx' hy' (by simpa using hq))
    fun _ _ => le_of_eq (free_work _)) ?_
  rw [Nat.add_zero]
  rfl

/-- A 4 × 3 map and a scan with one return beyond the longest range: at most four updates for the other. -/
example (m : OccupancyMapper ℝ) (pose : V3 ℝ) : ∃ (g : GridMap ℝ) (scan : LaserScan ℝ), scan.ranges.length = 2 ∧
    (Meter.updateMap ⟨0, 0, 0, 0, 0, 1⟩ m g scan pose).work ≤ 4 := by
  refine ⟨GridMap.mk 4 3 1 0 0 4 3 (List.replicate 12 50), LaserScan.mk 0 1 1 2 [3 / 2, 5], rfl, ?_⟩
  refine le_trans (C131_scan _ m _ pose (by decide) (by decide) (by decide) (by decide)).2 ?_
  have h1 : decide (RangeValid (LaserScan.mk (0 : ℝ) 1 1 2 [3 / 2, 5]) (3 / 2)) = true := by
    simp only [RangeValid, Flt.lt]
    norm_num
  have h2 : decide (RangeValid (LaserScan.mk (0 : ℝ) 1 1 2 [3 / 2, 5]) 5) = false := by
    simp only [RangeValid, Flt.lt]
    norm_num
  rw [scanPrice, List.countP_cons, List.countP_cons, List.countP_nil, h1, h2]
  decide

end Ergodic
