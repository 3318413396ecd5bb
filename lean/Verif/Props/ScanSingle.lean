import Verif.Model.ScanSingle
import Verif.Spec.ScanSingle
import Verif.Props.Mapping
import Mathlib.Analysis.SpecialFunctions.Trigonometric.Bounds
import Mathlib.Analysis.Real.Pi.Bounds

/-!
# C120: beam angles in single precision
-/

namespace Ergodic
open OccupancyMapper

/-! ## The arithmetic -/

/-- there are single-precision roundings -/
theorem single_rounding_exists : ∃ rnd : ℝ → ℝ, SingleRounding rnd := by
  have hfin : {x : ℝ | IsSingle x}.Finite := by
    refine ((Set.finite_Icc (-2 ^ 24 : ℤ) (2 ^ 24)).image2 (fun (m e : ℤ) => (m : ℝ) * 2 ^ e)
      (Set.finite_Icc (-149 : ℤ) 104)).subset ?_
    rintro x ⟨m, e, hm, h1, h2, rfl⟩
    have := abs_lt.mp hm
    exact ⟨m, ⟨this.1.le, this.2.le⟩, e, ⟨h1, h2⟩, rfl⟩
  have hne : {x : ℝ | IsSingle x}.Nonempty := ⟨0, 0, 0, by norm_num, by norm_num, by norm_num, by simp⟩
  have h : ∀ x : ℝ, ∃ y, IsSingle y ∧ ∀ z, IsSingle z → |y - x| ≤ |z - x| := by
    intro x
    obtain ⟨y, hy, hm⟩ := Set.exists_min_image {x : ℝ | IsSingle x} (fun y => |y - x|) hfin hne
    exact ⟨y, hy, hm⟩
  choose rnd h1 h2 using h
  exact ⟨rnd, fun x _ => h1 x, fun x y => h2 x y⟩

/-- up to 4 the error of a rounding is at most `2^-23` -/
theorem single_error {rnd : ℝ → ℝ} (h : SingleRounding rnd) {x : ℝ} (hx : |x| ≤ 4) :
    |rnd x - x| ≤ 1 / 2 ^ 23 := by
  -- the nearest multiple of 2^-22
  have hr := abs_sub_round (x * 2 ^ 22)
  have hb : |(round (x * 2 ^ 22) : ℤ)| ≤ 2 ^ 24 := by
    have h1 := abs_le.mp hr
    have h2 := abs_le.mp hx
    have : |((round (x * 2 ^ 22) : ℤ) : ℝ)| < 2 ^ 24 + 1 := by
      rw [abs_lt]
      constructor <;> norm_num at h1 ⊢ <;> linarith [h1.1, h1.2, h2.1, h2.2]
    have : |(round (x * 2 ^ 22) : ℤ)| < 2 ^ 24 + 1 := by exact_mod_cast this
    omega
  have hs : IsSingle (round (x * 2 ^ 22) * 2 ^ (-22 : ℤ)) := by
    rcases hb.lt_or_eq with hb | hb
    · exact ⟨_, -22, hb, by norm_num, by norm_num, rfl⟩
    · rcases abs_choice (round (x * 2 ^ 22) : ℤ) with hc | hc
      · refine ⟨1, 2, by norm_num, by norm_num, by norm_num, ?_⟩
        rw [← hc, hb]; norm_num
      · refine ⟨-1, 2, by norm_num, by norm_num, by norm_num, ?_⟩
        rw [show (round (x * 2 ^ 22) : ℤ) = -2 ^ 24 by omega]; norm_num
  refine (h.nearest x _ hs).trans ?_
  have e : (round (x * 2 ^ 22) : ℝ) * 2 ^ (-22 : ℤ) - x = -(x * 2 ^ 22 - round (x * 2 ^ 22)) / 2 ^ 22 := by
    rw [zpow_neg]; norm_num; ring
  rw [e, abs_div, abs_neg]
  norm_num at hr ⊢
  linarith

/-- a single-precision number between 2 and 4 is a multiple of `2^-22` -/
theorem single_grid {y : ℝ} (h : IsSingle y) (h2 : 2 ≤ y) (h4 : y < 4) : ∃ k : ℤ, y = k / 2 ^ 22 := by
  obtain ⟨m, e, hm, -, -, rfl⟩ := h
  have hm0 : 0 < m := by
    by_contra hc
    have : (m : ℝ) ≤ 0 := by exact_mod_cast not_lt.mp hc
    have : (m : ℝ) * 2 ^ e ≤ 0 := mul_nonpos_of_nonpos_of_nonneg this (by positivity)
    linarith
  have he : -22 ≤ e := by
    by_contra hc
    have hpow : (2 : ℝ) ^ e ≤ 2 ^ (-23 : ℤ) := zpow_le_zpow_right₀ (by norm_num) (by omega)
    have hm' : (m : ℝ) < 2 ^ 24 := by exact_mod_cast (abs_lt.mp hm).2
    have hm1 : (0 : ℝ) < m := by exact_mod_cast hm0
    have : (m : ℝ) * 2 ^ e < 2 ^ 24 * 2 ^ (-23 : ℤ) :=
      lt_of_le_of_lt (mul_le_mul_of_nonneg_left hpow hm1.le) (mul_lt_mul_of_pos_right hm' (by positivity))
    norm_num at this
    linarith
  obtain ⟨n, rfl⟩ : ∃ n : ℕ, e = n - 22 := ⟨(e + 22).toNat, by omega⟩
  refine ⟨m * 2 ^ n, ?_⟩
  rw [zpow_sub₀ (by norm_num), zpow_natCast]
  push_cast
  norm_num
  ring

/-- rounding a number close to a multiple of `2^-22` between 2 and 4 -/
theorem single_to_grid {rnd : ℝ → ℝ} (h : SingleRounding rnd) {k : ℤ} (h2 : 2 ^ 23 < k) (h4 : k < 2 ^ 24) {x : ℝ}
    (hx : |x - k / 2 ^ 22| < 1 / 2 ^ 23) : rnd x = k / 2 ^ 22 := by
  have hk2 : (2 ^ 23 + 1 : ℝ) ≤ k := by exact_mod_cast h2
  have hk4 : (k : ℝ) + 1 ≤ 2 ^ 24 := by exact_mod_cast h4
  have hs : IsSingle (k / 2 ^ 22) := by
    refine ⟨k, -22, by rw [abs_lt]; omega, by norm_num, by norm_num, ?_⟩
    rw [zpow_neg]; norm_num; ring
  have hn := h.nearest x _ hs
  rw [abs_sub_comm (_ / _)] at hn
  have hx' := abs_lt.mp hx
  have hn' := abs_lt.mp (hn.trans_lt hx)
  norm_num at hx' hn' hk2 hk4
  have hsx := h.single x (by
    rw [abs_lt]
    have : (4:ℝ) < 2 ^ 127 := by norm_num
    constructor <;> linarith [hx'.1, hx'.2])
  obtain ⟨n, hr⟩ := single_grid hsx (by linarith [hx'.1, hn'.1]) (by linarith [hx'.2, hn'.2])
  have : |(n : ℝ) - k| < 1 := by
    rw [hr] at hn'
    norm_num at hn'
    rw [abs_lt]
    constructor <;> linarith [hx'.1, hx'.2, hn'.1, hn'.2]
  have : |n - k| < 1 := by exact_mod_cast this
  have : n = k := by have := abs_lt.mp this; omega
  rw [hr, this]

/-! ## The angles -/

/-- the angle of beam `k` accumulated in single precision -/
noncomputable def singleAngle (rnd : ℝ → ℝ) (a d : ℝ) (k : Nat) : ℝ := (fun t => rnd (t + d))^[k] a

/-- C120, the directions: while the angles stay between -4 and 4 radians, the direction used for beam `k` differs
from `angle_min + k * angle_increment` by at most `k * 2^-23`. -/
theorem C120_angle {rnd : ℝ → ℝ} (h : SingleRounding rnd) (a d : ℝ) (n : Nat)
    (hr : ∀ k ≤ n, |a + k * d| + k / 2 ^ 23 ≤ 4) : ∀ k ≤ n, |singleAngle rnd a d k - (a + k * d)| ≤ k / 2 ^ 23 := by
  intro k
  induction k with
  | zero => intro _; simp [singleAngle]
  | succ k ih =>
    intro hk
    have h1 := ih (by omega)
    have h2 := hr (k + 1) hk
    unfold singleAngle at h1 ⊢
    rw [Function.iterate_succ_apply']
    generalize (fun t => rnd (t + d))^[k] a = t at h1 ⊢
    have hs : |t + d| ≤ 4 := by
      have e : t + d = (t - (a + k * d)) + (a + (k + 1 : ℕ) * d) := by push_cast; ring
      rw [e]
      refine (abs_add_le _ _).trans ?_
      push_cast at h2 ⊢
      have : (k : ℝ) / 2 ^ 23 ≤ ((k : ℝ) + 1) / 2 ^ 23 := by
        apply div_le_div_of_nonneg_right _ (by positivity); linarith
      linarith
    have h3 := single_error h hs
    have e : rnd (t + d) - (a + (k + 1 : ℕ) * d) = (rnd (t + d) - (t + d)) + (t - (a + k * d)) := by push_cast; ring
    rw [e]
    refine (abs_add_le _ _).trans ?_
    push_cast
    rw [add_div]
    linarith

/-- C120, the bound is met up to a factor of two: with these numbers, which are single-precision numbers, beam
`k` is entered `k * 2^-24` away from where it points. -/
theorem C120_drift {rnd : ℝ → ℝ} (h : SingleRounding rnd) (k : Nat) (hk : k < 2048) :
    singleAngle rnd 2 (1 / 2 ^ 10 + 1 / 2 ^ 24) k = 2 + k / 2 ^ 10 := by
  induction k with
  | zero => simp [singleAngle]
  | succ k ih =>
    have h1 := ih (by omega)
    unfold singleAngle at h1 ⊢
    rw [Function.iterate_succ_apply', h1]
    have := single_to_grid h (k := 2 ^ 23 + (k + 1 : ℕ) * 2 ^ 12) (by omega) (by omega)
      (x := 2 + (k : ℝ) / 2 ^ 10 + (1 / 2 ^ 10 + 1 / 2 ^ 24)) (by
        push_cast
        rw [abs_lt]
        constructor <;> norm_num <;> linarith)
    rw [this]
    push_cast
    norm_num
    ring

/-! ## The end points and the map -/

theorem endPoint_near (px py pt sx sy st r a b : ℝ) :
    |(endPoint px py pt sx sy st r a).1 - (endPoint px py pt sx sy st r b).1| ≤ |r| * |a - b| ∧
    |(endPoint px py pt sx sy st r a).2 - (endPoint px py pt sx sy st r b).2| ≤ |r| * |a - b| := by
  constructor
  · rw [show (endPoint px py pt sx sy st r a).1 - (endPoint px py pt sx sy st r b).1 =
      r * (Real.cos (pt + st + a) - Real.cos (pt + st + b)) by unfold endPoint; dsimp only; ring, abs_mul]
    refine mul_le_mul_of_nonneg_left ?_ (abs_nonneg r)
    have := Real.abs_cos_sub_cos_le (pt + st + a) (pt + st + b)
    rwa [show pt + st + a - (pt + st + b) = a - b by ring] at this
  · rw [show (endPoint px py pt sx sy st r a).2 - (endPoint px py pt sx sy st r b).2 =
      r * (Real.sin (pt + st + a) - Real.sin (pt + st + b)) by unfold endPoint; dsimp only; ring, abs_mul]
    refine mul_le_mul_of_nonneg_left ?_ (abs_nonneg r)
    have := Real.abs_sin_sub_sin_le (pt + st + a) (pt + st + b)
    rwa [show pt + st + a - (pt + st + b) = a - b by ring] at this

theorem updateCell_geometry {F : Type} [Flt F] (m : OccupancyMapper F) {g g' : GridMap F} {x y : Int} {l : F}
    (h : m.updateCell g x y l = .ok g') : SameGeometry g g' := by
  unfold OccupancyMapper.updateCell at h
  obtain ⟨p, -, h⟩ := Res.bind_eq_ok.mp h
  obtain ⟨v, -, h⟩ := Res.bind_eq_ok.mp h
  split at h
  · simp only [Res.ok.injEq] at h; rw [← h]; rfl
  · cases h

theorem beam_geometry {F : Type} [Flt F] (m : OccupancyMapper F) (scan : LaserScan F) (Tms : M3 F)
    (psg : UInt32 × UInt32) (a r : F) {g g' : GridMap F} (h : m.beam scan Tms psg a r g = .ok g') :
    SameGeometry g g' := by
  unfold OccupancyMapper.beam at h
  split at h
  · simp only [Res.ok.injEq] at h; rw [← h]; rfl
  · obtain ⟨p, -, h⟩ := Res.bind_eq_ok.mp h
    split at h
    · obtain ⟨g1, h1, h⟩ := Res.bind_eq_ok.mp h
      obtain ⟨l, -, -, -, -, -, hl⟩ := C32_ray_cells (F := F) (u2i psg.2) (u2i psg.1) (u2i p.2) (u2i p.1)
      rw [hl] at h1
      have key : ∀ (l : List (Int × Int)) (g g1 : GridMap F),
          l.foldlM (fun g p => m.updateCell g p.1 p.2 m.log_odds_free) g = .ok g1 → SameGeometry g g1 := by
        intro l
        induction l with
        | nil =>
          intro g g1 h
          have h : Res.ok g = .ok g1 := h
          simp only [Res.ok.injEq] at h
          rw [← h]; rfl
        | cons p l ih =>
          intro g g1 h
          rw [List.foldlM_cons] at h
          obtain ⟨g2, h2, h⟩ := Res.bind_eq_ok.mp h
          exact (updateCell_geometry m h2).trans (ih _ _ h)
      exact (key l g g1 h1).trans (updateCell_geometry m h)
    · simp only [Res.ok.injEq] at h; rw [← h]; rfl

/-- with the addition of the rest of the program it is the same loop -/
theorem updateMapF_add {F : Type} [Flt F] (m : OccupancyMapper F) (g : GridMap F) (scan : LaserScan F) (pose : V3 F) :
    m.updateMapF Flt.add g scan pose = m.updateMap g scan pose := by
  have key : ∀ Tms psg (rs : List F) a g, m.beamLoopF Flt.add scan Tms psg rs a g = m.beamLoop scan Tms psg rs a g := by
    intro Tms psg rs
    induction rs with
    | nil => intro a g; rfl
    | cons r rs ih =>
      intro a g
      rw [OccupancyMapper.beamLoopF, OccupancyMapper.beamLoop]
      congr 1
      funext g1
      exact ih _ _
  unfold OccupancyMapper.updateMapF OccupancyMapper.updateMap
  simp only [key]

/-- two loops whose beams do the same in every map of the geometry of `g0` give the same map -/
theorem beamLoopF_congr {F : Type} [Flt F] {addF addF' : F → F → F} (m : OccupancyMapper F) (scan : LaserScan F)
    (Tms : M3 F) (psg : UInt32 × UInt32) (g0 : GridMap F) : ∀ (rs : List F) (a b : F),
    (∀ k r, rs[k]? = some r → ∀ g, SameGeometry g0 g →
      m.beam scan Tms psg ((fun t => addF t scan.angle_increment)^[k] a) r g =
        m.beam scan Tms psg ((fun t => addF' t scan.angle_increment)^[k] b) r g) →
    ∀ g, SameGeometry g0 g → m.beamLoopF addF scan Tms psg rs a g = m.beamLoopF addF' scan Tms psg rs b g := by
  intro rs
  induction rs with
  | nil => intro a b _ g _; rfl
  | cons r rs ih =>
    intro a b h g hg
    have h0 := h 0 r rfl g hg
    simp only [Function.iterate_zero, id] at h0
    rw [OccupancyMapper.beamLoopF, OccupancyMapper.beamLoopF, h0]
    cases hb : m.beam scan Tms psg b r g with
    | ok g1 =>
      simp only [Res.ok_bind]
      refine ih _ _ ?_ g1 (hg.trans (beam_geometry m scan Tms psg b r hb))
      intro k r' hk g2 hg2
      exact h (k + 1) r' hk g2 hg2
    | throw e => rfl
    | ub => rfl
    | timeout => rfl

/-- where the program puts the end of a beam -/
theorem end_eq (px py pt sx sy st r a : ℝ) :
    ((transform2d (.fin px) (.fin py) (.fin pt)).mul (transform2d (.fin sx) (.fin sy) (.fin st)) : M3 Dbl).mulVec
      (polar2CartesianHomo (.fin a) (.fin r)) =
    ⟨.fin (endPoint px py pt sx sy st r a).1, .fin (endPoint px py pt sx sy st r a).2, .fin 1⟩ := by
  simp only [polar2CartesianHomo, transform2d, M3.mulVec, M3.mul, M3.t, V3.dot, Dbl.cos_fin, Dbl.sin_fin,
    Dbl.mul_fin, Dbl.add_fin, Dbl.neg_fin, Dbl.lit_eq, endPoint, Real.cos_add, Real.sin_add]
  congr 2 <;> push_cast <;> ring

/-- the cell of a point that is not near a line between cells is that of all points nearby -/
theorem same_cell {g : GridMap Dbl} {ax ay res : ℝ} (hg : LaidOut g ax ay res) {p q : ℝ × ℝ} {δ : ℝ}
    (h : OffLines ax ay res p δ) (h1 : |q.1 - p.1| ≤ δ) (h2 : |q.2 - p.2| ≤ δ) :
    g.world2Grid (.fin q.1) (.fin q.2) = g.world2Grid (.fin p.1) (.fin p.2) := by
  have key : ∀ (a x y : ℝ), (∀ j : ℤ, δ < |x - (a + j * res)|) → |y - x| ≤ δ → ⌊(y - a) / res⌋ = ⌊(x - a) / res⌋ := by
    intro a x y hx hy
    have hp := hg.positive
    have hf := Int.floor_le ((x - a) / res)
    have hl := Int.lt_floor_add_one ((x - a) / res)
    rw [le_div_iff₀ hp] at hf
    rw [div_lt_iff₀ hp] at hl
    have g1 := hx ⌊(x - a) / res⌋
    have g2 := hx (⌊(x - a) / res⌋ + 1)
    rw [abs_of_nonneg (by linarith)] at g1
    rw [abs_of_neg (by push_cast; linarith)] at g2
    push_cast at g2
    have hy := abs_le.mp hy
    rw [Int.floor_eq_iff, le_div_iff₀ hp, div_lt_iff₀ hp]
    constructor <;> linarith [hy.1, hy.2]
  unfold GridMap.world2Grid
  rw [hg.xmin, hg.ymin, hg.resolution]
  simp only [Dbl.sub_fin, Dbl.div_fin _ hg.positive.ne', Dbl.floor_fin]
  rw [key ax p.1 q.1 (fun j => (h j).1) h1, key ay p.2 q.2 (fun j => (h j).2) h2]

theorem iterate_single (rnd : ℝ → ℝ) (a d : ℝ) (k : Nat) :
    (fun t : Dbl => addSingle rnd t (.fin d))^[k] (.fin a) = .fin (singleAngle rnd a d k) := by
  induction k with
  | zero => rfl
  | succ k ih =>
    rw [Function.iterate_succ_apply', ih]
    unfold singleAngle
    rw [Function.iterate_succ_apply']
    rfl

theorem iterate_exact (a d : ℝ) (k : Nat) :
    (fun t : Dbl => Flt.add t (.fin d))^[k] (.fin a) = .fin (a + k * d) := by
  induction k with
  | zero => simp
  | succ k ih =>
    rw [Function.iterate_succ_apply', ih, Dbl.add_fin]
    push_cast
    congr 1; ring

/-- C120 in full: rounding the beam angles to single precision does not change the map. -/
def C120_statement : Prop :=
  ∀ (rnd : ℝ → ℝ), SingleRounding rnd → ∀ (Tbs : M3 Dbl) (g : GridMap Dbl) (scan : LaserScan Dbl) (pose : V3 Dbl),
    (∃ a d, scan.angle_min = .fin a ∧ scan.angle_increment = .fin d ∧ IsSingle a ∧ IsSingle d) →
    (∀ r ∈ scan.ranges, ∃ x, r = .fin x ∧ IsSingle x) →
    (OccupancyMapper.new Tbs).updateMapF (addSingle rnd) g scan pose =
      (OccupancyMapper.new Tbs).updateMap g scan pose

/-- C120 (missing: readings that end close to a line between cells, see `C120_refuted`): while the angles stay
between -4 and 4 radians, accumulating them in single precision does not change the outcome of a scan if every
reading, the `k`-th of length `r`, ends farther than `r * k * 2^-23` from the lines between cells. -/
theorem C120_same_map_partial {rnd : ℝ → ℝ} (h : SingleRounding rnd) {g : GridMap Dbl} {ax ay res : ℝ}
    (hg : LaidOut g ax ay res) (px py pt sx sy st : ℝ) {scan : LaserScan Dbl} {a d : ℝ}
    (ha : scan.angle_min = .fin a) (hd : scan.angle_increment = .fin d)
    (hr : ∀ k < scan.ranges.length, |a + k * d| + k / 2 ^ 23 ≤ 4)
    (hoff : ∀ (k : Nat) r, scan.ranges[k]? = some r → RangeValid scan r → ∃ x, r = .fin x ∧
      OffLines ax ay res (endPoint px py pt sx sy st x (a + k * d)) (|x| * (k / 2 ^ 23))) :
    (OccupancyMapper.new (transform2d (.fin sx) (.fin sy) (.fin st))).updateMapF (addSingle rnd) g scan
        ⟨.fin px, .fin py, .fin pt⟩ =
      (OccupancyMapper.new (transform2d (.fin sx) (.fin sy) (.fin st))).updateMap g scan
        ⟨.fin px, .fin py, .fin pt⟩ := by
  rw [← updateMapF_add]
  unfold OccupancyMapper.updateMapF
  congr 1
  funext psg
  split
  · rfl
  · dsimp only
    congr 1
    refine beamLoopF_congr _ scan _ psg g scan.ranges _ _ ?_ g (SameGeometry.refl _)
    intro k r hk g1 hg1
    rw [ha, hd, iterate_single, iterate_exact]
    unfold OccupancyMapper.beam
    by_cases hv : RangeValid scan r
    · rw [if_neg (by simp [hv.1, hv.2]), if_neg (by simp [hv.1, hv.2])]
      obtain ⟨x, rfl, ho⟩ := hoff k r hk hv
      have hlt : k < scan.ranges.length := by
        by_contra hc
        rw [List.getElem?_eq_none (by omega)] at hk; cases hk
      have hang := C120_angle h a d k (fun j hj => hr j (by omega)) k le_rfl
      have hend := endPoint_near px py pt sx sy st x (singleAngle rnd a d k) (a + k * d)
      have hl1 : LaidOut g1 ax ay res := by
        unfold SameGeometry at hg1
        rw [hg1]
        exact ⟨hg.xmin, hg.ymin, hg.resolution, hg.positive⟩
      have hm := mul_le_mul_of_nonneg_left hang (abs_nonneg x)
      have hsame := same_cell hl1 ho (hend.1.trans hm) (hend.2.trans hm)
      dsimp only
      rw [show (OccupancyMapper.new (transform2d (.fin sx) (.fin sy) (.fin st)) : OccupancyMapper Dbl).Tbs =
        transform2d (.fin sx) (.fin sy) (.fin st) from rfl, end_eq, end_eq]
      dsimp only
      rw [hsame]
    · have hc : (Flt.lt scan.range_max r || Flt.lt r scan.range_min) = true := by
        unfold RangeValid at hv
        rcases h1 : Flt.lt scan.range_max r <;> rcases h2 : Flt.lt r scan.range_min <;> simp_all
      rw [if_pos hc, if_pos hc]

/-! ## A reading that ends close to a line -/

/-- readings out of range only advance the angle -/
theorem beamLoopF_skip {F : Type} [Flt F] (addF : F → F → F) (m : OccupancyMapper F) (scan : LaserScan F)
    (Tms : M3 F) (psg : UInt32 × UInt32) (r : F) (hr : Flt.lt scan.range_max r = true) (rs : List F) :
    ∀ (n : Nat) (a : F) (g : GridMap F), m.beamLoopF addF scan Tms psg (List.replicate n r ++ rs) a g =
      m.beamLoopF addF scan Tms psg rs ((fun t => addF t scan.angle_increment)^[n] a) g := by
  intro n
  induction n with
  | zero => intro a g; rfl
  | succ n ih =>
    intro a g
    rw [List.replicate_succ, List.cons_append, OccupancyMapper.beamLoopF]
    have : m.beam scan Tms psg a r g = .ok g := by
      unfold OccupancyMapper.beam
      rw [if_pos (by rw [hr]; rfl)]
    rw [this, Res.ok_bind, ih, Function.iterate_succ_apply]

/-- a scan with one reading in range -/
noncomputable def lateScan (n : Nat) (a : ℝ) : LaserScan Dbl :=
  { angle_min := .fin a, angle_increment := .fin (1 / 2 ^ 10 + 1 / 2 ^ 24), range_min := .fin 0, range_max := .fin 1,
    ranges := List.replicate n (.fin 2) ++ [.fin 1] }

/-- only the angle reached at the reading matters -/
theorem late_eq (addF : Dbl → Dbl → Dbl) (m : OccupancyMapper Dbl) (n : Nat) (a b : ℝ)
    (h : (fun t => addF t (.fin (1 / 2 ^ 10 + 1 / 2 ^ 24)))^[n] (.fin a) = .fin b) (g : GridMap Dbl) (pose : V3 Dbl) :
    m.updateMapF addF g (lateScan n a) pose = m.updateMap g (lateScan 0 b) pose := by
  unfold OccupancyMapper.updateMapF OccupancyMapper.updateMap
  congr 1
  funext psg
  split
  · rfl
  · dsimp only
    congr 1
    rw [show (lateScan n a).ranges = List.replicate n (.fin 2) ++ [.fin 1] from rfl,
      beamLoopF_skip addF m (lateScan n a) _ psg (.fin 2) (by
        show Flt.lt (Dbl.fin 1) (Dbl.fin 2) = true
        rw [Dbl.lt_fin]; norm_num)]
    rw [show (lateScan n a).angle_increment = .fin (1 / 2 ^ 10 + 1 / 2 ^ 24) from rfl,
      show (lateScan n a).angle_min = .fin a from rfl, h]
    rfl

/-- the robot of the example -/
noncomputable def latePose : V3 Dbl := ⟨.fin (1 - Real.cos 3), .fin 0.5, .fin 0⟩

theorem cos_three : -1 < Real.cos 3 ∧ Real.cos 3 < 0 := by
  have hp := Real.pi_gt_three
  have hq := Real.pi_le_four
  constructor
  · rw [← Real.cos_pi]
    exact Real.cos_lt_cos_of_nonneg_of_le_pi (by norm_num) le_rfl hp
  · exact Real.cos_neg_of_pi_div_two_lt_of_lt (by linarith) (by linarith)

theorem late_src : (stripGrid 50 50 50).world2Grid latePose.c0 latePose.c1 = .ok (0, 1) := by
  have := cos_three
  exact strip_world (i := 0) (j := 1) (by norm_num; linarith) (by norm_num; linarith) (by norm_num) (by norm_num)
      (by norm_num) (by norm_num)

theorem late_end (b : ℝ) : beamEnd (sensorPose (transform2d (.fin 0) (.fin 0) (.fin 0)) latePose) (lateScan 0 b) 0 (.fin 1) =
    ⟨.fin (1 - Real.cos 3 + Real.cos b), .fin (1 / 2 + Real.sin b), .fin 1⟩ := by
  have := end_eq (1 - Real.cos 3) 0.5 0 0 0 0 1 b
  unfold beamEnd sensorPose latePose
  rw [show beamAngle (lateScan 0 b) 0 = .fin b from rfl, this]
  unfold endPoint
  norm_num

/-- the outcome of the one-beam scan -/
theorem late_scan (b : ℝ) (j : Nat) (hj : j < 3) (h1 : (j:ℝ) ≤ 1 - Real.cos 3 + Real.cos b)
    (h2 : 1 - Real.cos 3 + Real.cos b < j + 1) (h3 : |Real.sin b| < 1 / 2) :
    ∃ g' v, (OccupancyMapper.new (transform2d (.fin 0) (.fin 0) (.fin 0))).updateMap (stripGrid 50 50 50) (lateScan 0 b)
      latePose = .ok (true, g') ∧ cellAt g' 0 0 = some v ∧
      v.toInt = beamEvidence (0, 1) (some (0, UInt32.ofNat j)) 0 0 50 := by
  have h3 := abs_lt.mp h3
  have hw : (stripGrid 50 50 50).world2Grid (.fin (1 - Real.cos 3 + Real.cos b)) (.fin (1 / 2 + Real.sin b)) =
      .ok (UInt32.ofNat 0, UInt32.ofNat j) :=
    strip_world (i := 0) (j := j) h1 h2 (by push_cast; linarith) (by push_cast; linarith) hj (by norm_num)
  have hsm : SmallGrid (stripGrid 50 50 50) := by
    show (3 : UInt32).toNat < 2147483648 ∧ (1 : UInt32).toNat < 2147483648
    decide
  have hc : IsCell (stripGrid 50 50 50) 0 1 := by
    show (0 : UInt32).toNat < (1 : UInt32).toNat ∧ (1 : UInt32).toNat < (3 : UInt32).toNat
    decide
  have hp : Percentages (stripGrid 50 50 50) := by
    intro v hv
    have : v = 50 := by simpa [stripGrid] using hv
    subst this; decide
  obtain ⟨g', e1, -, -, -, e5⟩ := C36_evidence (transform2d (.fin 0) (.fin 0) (.fin 0)) (stripGrid 50 50 50)
    (stripGrid_wf _ _ _) hsm hp (lateScan 0 b) latePose (0, 1) late_src hc (by
      intro k r hk hv
      have : k = 0 ∧ r = .fin 1 := by
        rcases k with _ | k
        · simp only [lateScan, List.replicate_zero, List.nil_append, List.getElem?_cons_zero, Option.some.injEq] at hk
          exact ⟨rfl, hk.symm⟩
        · simp [lateScan] at hk
      obtain ⟨rfl, rfl⟩ := this
      rw [late_end]
      exact ⟨_, hw⟩)
  obtain ⟨v, hv1, hv2⟩ := e5 0 0 (by
    show (0:ℤ) ≤ 0 ∧ (0:ℤ) < ((3 : UInt32).toNat : ℤ) ∧ (0:ℤ) ≤ 0 ∧ (0:ℤ) < ((1 : UInt32).toNat : ℤ)
    decide) 50 rfl
  refine ⟨g', v, e1, hv1, ?_⟩
  rw [hv2]
  show scanEvidence (stripGrid 50 50 50) _ (lateScan 0 b) (0, 1) 0 0 [.fin 1] 0 50 = _
  rw [scanEvidence, scanEvidence]
  congr 1
  unfold beamHit
  rw [if_pos (by
    unfold RangeValid
    show Flt.lt (Dbl.fin 1) (Dbl.fin 1) = false ∧ Flt.lt (Dbl.fin 1) (Dbl.fin 0) = false
    rw [Dbl.lt_fin_false, Dbl.lt_fin_false]; norm_num), late_end]
  simp only
  rw [hw]
  simp only
  rw [if_pos]
  · rfl
  · refine ⟨by decide, ?_⟩
    show (UInt32.ofNat j).toNat < (3 : UInt32).toNat
    rw [ofNat_toNat (by omega)]
    exact hj

/-- the sine between 3 and 3.001 -/
theorem late_sin {b : ℝ} (h0 : 3 ≤ b) (h1 : b ≤ 3.001) : |Real.sin b| < 1 / 2 := by
  have hp := Real.pi_gt_d2
  have hq := Real.pi_lt_d2
  rw [← Real.sin_pi_sub, abs_of_pos (Real.sin_pos_of_pos_of_lt_pi (by linarith) (by linarith))]
  exact lt_of_lt_of_le (Real.sin_lt (by linarith)) (by linarith)

theorem occ_fifty : occStep 50 = 90 := by decide

/-- C120 is false: after 1024 beams the direction is off by `2^-14` radians, and a reading of 1 m that ends within
`2^-14` m of a line is entered into the wrong cell: the cell it ends in is not touched. -/
theorem C120_refuted : ¬ C120_statement := by
  intro hst
  obtain ⟨rnd, hrnd⟩ := single_rounding_exists
  have h := hst rnd hrnd (transform2d (.fin 0) (.fin 0) (.fin 0)) (stripGrid 50 50 50) (lateScan 1024 2) latePose
    ⟨2, _, rfl, rfl, ⟨2, 0, by norm_num, by norm_num, by norm_num, by norm_num⟩,
      ⟨2 ^ 14 + 1, -24, by norm_num, by norm_num, by norm_num, by rw [zpow_neg]; norm_num⟩⟩
    (by
      intro r hr
      rcases List.mem_append.mp hr with hr | hr
      · rw [List.eq_of_mem_replicate hr]
        exact ⟨2, rfl, 2, 0, by norm_num, by norm_num, by norm_num, by norm_num⟩
      · rw [List.mem_singleton.mp hr]
        exact ⟨1, rfl, 1, 0, by norm_num, by norm_num, by norm_num, by norm_num⟩)
  rw [← updateMapF_add, late_eq _ _ 1024 2 3 (by
      rw [iterate_single, C120_drift hrnd 1024 (by norm_num)]; norm_num),
    late_eq _ _ 1024 2 (3 + 1 / 2 ^ 14) (by rw [iterate_exact]; norm_num)] at h
  have hp := Real.pi_gt_d2
  have hlt : Real.cos (3 + 1 / 2 ^ 14) < Real.cos 3 :=
    Real.cos_lt_cos_of_nonneg_of_le_pi (by norm_num) (by norm_num; linarith) (by norm_num)
  have hge := Real.abs_cos_sub_cos_le (3 + 1 / 2 ^ 14) 3
  rw [show (3 + 1 / 2 ^ 14 - 3 : ℝ) = 1 / 2 ^ 14 by ring, abs_of_pos (by positivity : (0:ℝ) < 1 / 2 ^ 14)] at hge
  have hge := (abs_le.mp hge).1
  obtain ⟨g1, v1, a1, a2, a3⟩ := late_scan 3 1 (by norm_num) (by norm_num) (by norm_num)
    (late_sin (by norm_num) (by norm_num))
  obtain ⟨g2, v2, b1, b2, b3⟩ := late_scan (3 + 1 / 2 ^ 14) 0 (by norm_num) (by norm_num at hge ⊢; linarith)
    (by push_cast; linarith) (late_sin (by norm_num) (by norm_num))
  rw [a1, b1, Res.ok.injEq, Prod.mk.injEq] at h
  rw [h.2, b2, Option.some.injEq] at a2
  rw [← a2, b3] at a3
  revert a3
  decide

/-- Non-vacuity of `C120_same_map_partial`: a scan of two beams, straight ahead and a little to the left, that end
in the middle of a cell. -/
example : ∃ (rnd : ℝ → ℝ) (scan : LaserScan Dbl), SingleRounding rnd ∧
    LaidOut (stripGrid 50 50 50) 0 0 1 ∧ scan.angle_min = .fin 0 ∧ scan.angle_increment = .fin (1 / 1000) ∧
    scan.ranges.length = 2 ∧
    (∀ k < scan.ranges.length, |(0:ℝ) + k * (1 / 1000)| + k / 2 ^ 23 ≤ 4) ∧
    (∀ (k : Nat) r, scan.ranges[k]? = some r → RangeValid scan r ∧ ∃ x, r = .fin x ∧
      OffLines 0 0 1 (endPoint 0.5 0.5 0 0 0 0 x (0 + k * (1 / 1000))) (|x| * (k / 2 ^ 23))) := by
  obtain ⟨rnd, h⟩ := single_rounding_exists
  refine ⟨rnd, (⟨.fin 0, .fin (1 / 1000), .fin 0, .fin 2, [.fin 2, .fin 2]⟩ : LaserScan Dbl), h, ⟨rfl, rfl, rfl, one_pos⟩, rfl, rfl, rfl, ?_, ?_⟩
  · intro k hk
    have hk : k < 2 := hk
    rcases (by omega : k = 0 ∨ k = 1) with rfl | rfl <;> norm_num
  · intro k r hk
    have hrk : r = .fin 2 ∧ k < 2 := by
      rcases k with _ | _ | k
      · simp at hk; exact ⟨hk.symm, by norm_num⟩
      · simp at hk; exact ⟨hk.symm, by norm_num⟩
      · simp at hk
    obtain ⟨rfl, hk2⟩ := hrk
    refine ⟨?_, 2, rfl, ?_⟩
    · unfold RangeValid
      rw [Dbl.lt_fin_false, Dbl.lt_fin_false]; norm_num
    · have hkr : (k:ℝ) ≤ 1 := by exact_mod_cast (by omega : k ≤ 1)
      have hk0 : (0:ℝ) ≤ k := by positivity
      have hc := Real.abs_cos_sub_cos_le (k * (1 / 1000)) 0
      have hs := Real.abs_sin_sub_sin_le (k * (1 / 1000)) 0
      have e : |(k:ℝ) * (1 / 1000) - 0| ≤ 1 / 1000 := by
        rw [sub_zero, abs_of_nonneg (by positivity)]; linarith
      replace hc := hc.trans e
      replace hs := hs.trans e
      rw [Real.cos_zero] at hc
      rw [Real.sin_zero] at hs
      have hc := abs_le.mp hc
      have hs := abs_le.mp hs
      intro j
      have hδ : |(2:ℝ)| * (k / 2 ^ 23) < 1 / 100 := by norm_num; linarith
      unfold endPoint
      dsimp only
      rw [show (0:ℝ) + 0 + (0 + k * (1 / 1000)) = k * (1 / 1000) by ring, zero_add, mul_one]
      constructor
      · refine lt_of_lt_of_le hδ ?_
        rcases le_or_gt j 2 with hj | hj
        · have : (j:ℝ) ≤ 2 := by exact_mod_cast hj
          refine le_trans ?_ (le_abs_self _)
          norm_num at hc ⊢
          linarith [hc.1, hc.2]
        · have : (3:ℝ) ≤ j := by exact_mod_cast hj
          refine le_trans ?_ (neg_le_abs _)
          norm_num at hc ⊢
          linarith [hc.1, hc.2]
      · refine lt_of_lt_of_le hδ ?_
        rcases le_or_gt j 0 with hj | hj
        · have : (j:ℝ) ≤ 0 := by exact_mod_cast hj
          refine le_trans ?_ (le_abs_self _)
          norm_num at hs ⊢
          linarith [hs.1, hs.2]
        · have : (1:ℝ) ≤ j := by exact_mod_cast hj
          refine le_trans ?_ (neg_le_abs _)
          norm_num at hs ⊢
          linarith [hs.1, hs.2]

end Ergodic
