import Verif.Lemmas.Ray
import Verif.Lemmas.Dbl
import Verif.Props.Grid
import Mathlib.Analysis.SpecialFunctions.Log.Basic

/-!
# Effect of cell updates on the map
-/

namespace Ergodic
variable {F : Type} [Flt F]

/-- New stored value of a cell with stored value `c` after evidence `log`. -/
def observe (m : OccupancyMapper F) (log : F) (c : Int8) : Res Int8 :=
  castI8 (logOdds2Prob (prob2LogOdds (Flt.ofInt c.toInt /. lit 100 0) +. log -. m.log_odds_prior)
    *. lit 100 0)

/-- Store a value. -/
def setCell (g : GridMap F) (x y : Int) (v : Int8) : GridMap F :=
  { g with data := g.data.set (y.toNat * g.xsize.toNat + x.toNat) v }

omit [Flt F] in
theorem InGrid.isCell {g : GridMap F} {x y : Int} (h : InGrid g x y) :
    IsCell g (i2u y) (i2u x) ∧ (i2u y).toNat = y.toNat ∧ (i2u x).toNat = x.toNat := by
  obtain ⟨h0, h1, h2, h3⟩ := h
  have a := uint32_lt g.xsize
  have b := uint32_lt g.ysize
  have e1 := i2u_toNat h0 (by omega)
  have e2 := i2u_toNat h2 (by omega)
  exact ⟨⟨by omega, by omega⟩, by omega, by omega⟩

omit [Flt F] in
theorem InGrid.lt {g : GridMap F} {x y : Int} (h : InGrid g x y) :
    y.toNat * g.xsize.toNat + x.toNat < numCells g := by
  obtain ⟨h0, h1, h2, h3⟩ := h
  have e1 : x.toNat < g.xsize.toNat := by omega
  have e2 : y.toNat + 1 ≤ g.ysize.toNat := by omega
  unfold numCells
  calc y.toNat * g.xsize.toNat + x.toNat < (y.toNat + 1) * g.xsize.toNat := by
        rw [Nat.add_mul]; omega
    _ ≤ g.ysize.toNat * g.xsize.toNat := Nat.mul_le_mul_right _ e2
    _ = _ := Nat.mul_comm _ _

omit [Flt F] in
theorem InGrid.exists_cell {g : GridMap F} (hw : WellFormed g) {x y : Int} (h : InGrid g x y) :
    ∃ v, cellAt g y.toNat x.toNat = some v := by
  have := h.lt
  rw [← hw.size] at this
  exact ⟨_, List.getElem?_eq_getElem this⟩

theorem updateCell_eq (m : OccupancyMapper F) {g : GridMap F} (hw : WellFormed g) {x y : Int}
    (h : InGrid g x y) (log : F) {v : Int8} (hv : cellAt g y.toNat x.toNat = some v) :
    m.updateCell g x y log = (observe m log v >>= fun v' => .ok (setCell g x y v')) := by
  obtain ⟨hc, ey, ex⟩ := h.isCell
  obtain ⟨e, hlt⟩ := rowMajor_toNat hw.fits hc
  rw [ey, ex] at e hlt
  have hlen : y.toNat * g.xsize.toNat + x.toNat < g.data.length := by rw [hw.size]; exact hlt
  have hb : g.gridBoundsIdx (g.grid2RowMajor (i2u y) (i2u x)) = true :=
    (C03_gridBoundsIdx_exact_partial g hw.fits (by omega) _).mpr (by omega)
  unfold cellAt at hv
  simp only [OccupancyMapper.updateCell, GridMap.getCellIdx, hb, e, hv, not_true_eq_false,
    if_false, Res.ok_bind, hlen, if_true, observe, setCell]

omit [Flt F] in
theorem setCell_wf {g : GridMap F} (hw : WellFormed g) (x y : Int) (v : Int8) :
    WellFormed (setCell g x y v) :=
  ⟨hw.fits, by simpa [setCell, numCells] using hw.size⟩

omit [Flt F] in
theorem setCell_geometry (g : GridMap F) (x y : Int) (v : Int8) :
    SameGeometry g (setCell g x y v) := rfl

omit [Flt F] in
theorem SameGeometry.trans {a b c : GridMap F} (h : SameGeometry a b) (h' : SameGeometry b c) :
    SameGeometry a c := by
  unfold SameGeometry at *; rw [h', h]

omit [Flt F] in
theorem SameGeometry.refl (a : GridMap F) : SameGeometry a a := rfl

omit [Flt F] in
theorem SameGeometry.inGrid {a b : GridMap F} (h : SameGeometry a b) {x y : Int} :
    InGrid b x y ↔ InGrid a x y := by unfold SameGeometry at h; rw [h]; exact Iff.rfl

omit [Flt F] in
theorem SameGeometry.isCell {a b : GridMap F} (h : SameGeometry a b) {i j : UInt32} :
    IsCell b i j ↔ IsCell a i j := by unfold SameGeometry at h; rw [h]; exact Iff.rfl

theorem SameGeometry.world2Grid {a b : GridMap F} (h : SameGeometry a b) (x y : F) :
    b.world2Grid x y = a.world2Grid x y := by unfold SameGeometry at h; rw [h]; rfl

omit [Flt F] in
theorem SameGeometry.gridBounds {a b : GridMap F} (h : SameGeometry a b) (i j : UInt32) :
    b.gridBounds i j = a.gridBounds i j := by unfold SameGeometry at h; rw [h]; rfl

omit [Flt F] in
theorem setCell_cellAt {g : GridMap F} (hw : WellFormed g) {x y x' y' : Int} (v : Int8)
    (h : InGrid g x y) (h' : InGrid g x' y') :
    cellAt (setCell g x y v) y'.toNat x'.toNat =
      if x' = x ∧ y' = y then some v else cellAt g y'.toNat x'.toNat := by
  have hlt := h.lt
  rw [← hw.size] at hlt
  unfold cellAt setCell
  simp only [List.getElem?_set]
  by_cases he : x' = x ∧ y' = y
  · rw [he.1, he.2, if_pos rfl, if_pos hlt, if_pos ⟨rfl, rfl⟩]
  · rw [if_neg he, if_neg]
    intro hidx
    apply he
    obtain ⟨a0, a1, a2, a3⟩ := h
    obtain ⟨b0, b1, b2, b3⟩ := h'
    have e1 : x.toNat < g.xsize.toNat := by omega
    have e2 : x'.toNat < g.xsize.toNat := by omega
    have hx : (y.toNat * g.xsize.toNat + x.toNat) % g.xsize.toNat =
        (y'.toNat * g.xsize.toNat + x'.toNat) % g.xsize.toNat := by rw [hidx]
    rw [Nat.mul_add_mod_of_lt e1, Nat.mul_add_mod_of_lt e2] at hx
    have hy : y.toNat * g.xsize.toNat = y'.toNat * g.xsize.toNat := by omega
    have := Nat.eq_of_mul_eq_mul_right (by omega) hy
    omega

/-- Evidence on one cell, in order. -/
def cellFold (m : OccupancyMapper F) (x y : Int) : List (Int × Int × F) → Int8 → Res Int8
  | [], c => .ok c
  | p :: t, c => if x = p.1 ∧ y = p.2.1 then observe m p.2.2 c >>= cellFold m x y t
    else cellFold m x y t c

theorem applyUpd_spec (m : OccupancyMapper F) : ∀ (l : List (Int × Int × F)) {g g' : GridMap F},
    WellFormed g → (∀ p ∈ l, InGrid g p.1 p.2.1) → applyUpd m l g = .ok g' →
    WellFormed g' ∧ SameGeometry g g' ∧ ∀ x y, InGrid g x y → ∀ v,
      cellAt g y.toNat x.toNat = some v →
      ∃ v', cellFold m x y l v = .ok v' ∧ cellAt g' y.toNat x.toNat = some v' := by
  intro l
  induction l with
  | nil =>
    intro g g' hw _ h
    simp only [applyUpd, Res.ok.injEq] at h
    subst h
    exact ⟨hw, SameGeometry.refl _, fun x y _ v hv => ⟨v, rfl, hv⟩⟩
  | cons p t ih =>
    intro g g' hw hl h
    obtain ⟨px, py, log⟩ := p
    have hp : InGrid g px py := hl (px, py, log) (by simp)
    obtain ⟨v0, hv0⟩ := hp.exists_cell hw
    simp only [applyUpd, updateCell_eq m hw hp log hv0] at h
    obtain ⟨g1, h1, h2⟩ := Res.bind_eq_ok.mp h
    obtain ⟨v1, h3, h4⟩ := Res.bind_eq_ok.mp h1
    simp only [Res.ok.injEq] at h4
    subst h4
    obtain ⟨i1, i2, i3⟩ := ih (setCell_wf hw px py v1) (fun q hq => hl q (by simp [hq])) h2
    refine ⟨i1, (setCell_geometry g px py v1).trans i2, fun x y hxy v hv => ?_⟩
    have hc := setCell_cellAt hw v1 hp hxy
    by_cases he : x = px ∧ y = py
    · obtain ⟨rfl, rfl⟩ := he
      rw [if_pos ⟨rfl, rfl⟩] at hc
      obtain ⟨v', j1, j2⟩ := i3 x y hxy v1 hc
      have : v = v0 := by rw [hv] at hv0; exact Option.some.inj hv0
      subst this
      exact ⟨v', by simp [cellFold, h3, j1], j2⟩
    · rw [if_neg he] at hc
      obtain ⟨v', j1, j2⟩ := i3 x y hxy v (by rw [hc, hv])
      exact ⟨v', by simp [cellFold, he, j1], j2⟩

/-- If every piece of evidence keeps values in a set `P`, all updates succeed. -/
theorem applyUpd_total (m : OccupancyMapper F) (P : Int8 → Prop) :
    ∀ (l : List (Int × Int × F)) {g : GridMap F}, WellFormed g →
    (∀ p ∈ l, InGrid g p.1 p.2.1) → (∀ v ∈ g.data, P v) →
    (∀ p ∈ l, ∀ v, P v → ∃ v', observe m p.2.2 v = .ok v' ∧ P v') →
    ∃ g', applyUpd m l g = .ok g' ∧ ∀ v ∈ g'.data, P v := by
  intro l
  induction l with
  | nil => intro g _ _ hP _; exact ⟨g, rfl, hP⟩
  | cons p t ih =>
    intro g hw hl hP hobs
    obtain ⟨px, py, log⟩ := p
    have hp : InGrid g px py := hl (px, py, log) (by simp)
    obtain ⟨v0, hv0⟩ := hp.exists_cell hw
    obtain ⟨v1, ho, hp1⟩ := hobs (px, py, log) (by simp) v0 (hP _ (List.mem_of_getElem? hv0))
    obtain ⟨g', h1, h2⟩ := ih (setCell_wf hw px py v1) (fun q hq => hl q (by simp [hq]))
      (by
        intro v hv
        rcases List.mem_or_eq_of_mem_set hv with h | h
        · exact hP _ h
        · rw [h]; exact hp1)
      (fun q hq => hobs q (by simp [hq]))
    refine ⟨g', ?_, h2⟩
    simp only [applyUpd, updateCell_eq m hw hp log hv0]
    simp only at ho
    rw [ho, Res.ok_bind, Res.ok_bind, h1]


/-! ## The stored value, with special values of the arithmetic -/

theorem mapper_prior (Tbs : M3 Dbl) : (OccupancyMapper.new Tbs).log_odds_prior = .fin 0 := by
  simp only [OccupancyMapper.new, prob2LogOdds, Dbl.lit_eq, Dbl.sub_fin]
  norm_num
  rw [Dbl.div_fin _ (by norm_num), Dbl.log_fin (by norm_num)]
  norm_num

theorem mapper_occ (Tbs : M3 Dbl) :
    (OccupancyMapper.new Tbs).log_odds_occ = .fin (Real.log 9) := by
  simp only [OccupancyMapper.new, prob2LogOdds, Dbl.lit_eq, Dbl.sub_fin]
  norm_num
  rw [Dbl.div_fin _ (by norm_num), Dbl.log_fin (by norm_num)]
  norm_num

theorem mapper_free (Tbs : M3 Dbl) :
    (OccupancyMapper.new Tbs).log_odds_free = .fin (Real.log (7 / 13)) := by
  simp only [OccupancyMapper.new, prob2LogOdds, Dbl.lit_eq, Dbl.sub_fin]
  norm_num
  rw [Dbl.div_fin _ (by norm_num), Dbl.log_fin (by norm_num)]
  norm_num

theorem castI8_fin {z : ℝ} {n : Int} (h0 : (n : ℝ) ≤ z) (h1 : z < n + 1) (hn : 0 ≤ n)
    (hn' : n < 128) : castI8 (Dbl.fin z) = .ok (Int8.ofInt n) := by
  have hz : 0 ≤ z := le_trans (by exact_mod_cast hn) h0
  have : realTrunc z = n := by
    unfold realTrunc
    rw [if_pos hz]
    exact Int.floor_eq_iff.mpr ⟨h0, h1⟩
  simp only [castI8, Dbl.trunc_fin, this]
  rw [if_pos ⟨by omega, hn'⟩]

/-- The stored value for an observation with odds `a : b`. -/
theorem observe_odds (Tbs : M3 Dbl) {c : Int8} (h0 : 0 ≤ c.toInt) (h1 : c.toInt ≤ 100) {a b : Int}
    (ha : 0 < a) (hb : 0 < b) :
    observe (OccupancyMapper.new Tbs) (.fin (Real.log ((a : ℝ) / b))) c =
      .ok (Int8.ofInt (100 * (a * c.toInt) / (a * c.toInt + b * (100 - c.toInt)))) := by
  unfold observe
  rw [mapper_prior]
  generalize hn : c.toInt = n at h0 h1
  have ha' : (0:ℝ) < a := by exact_mod_cast ha
  have hb' : (0:ℝ) < b := by exact_mod_cast hb
  simp only [prob2LogOdds, logOdds2Prob, Dbl.lit_eq, Dbl.ofInt_eq]
  norm_num
  rw [Dbl.div_fin _ (by norm_num)]
  simp only [Dbl.sub_fin]
  rcases eq_or_lt_of_le h0 with h | h
  · -- 0 %
    subst h
    simp only [Int.cast_zero, zero_div, sub_zero]
    rw [Dbl.div_fin _ (by norm_num), zero_div, Dbl.log_zero]
    have e1 : Flt.add (Dbl.inf true) (Dbl.fin (Real.log ((a : ℝ) / b))) = Dbl.inf true := rfl
    have e2 : Flt.sub (Dbl.inf true) (Dbl.fin 0) = Dbl.inf true := rfl
    have e3 : Flt.exp (Dbl.inf true) = Dbl.fin 0 := rfl
    rw [e1, e2, e3, Dbl.add_fin, Dbl.div_fin _ (by norm_num), Dbl.sub_fin, Dbl.mul_fin]
    norm_num
    exact castI8_fin (n := 0) (by norm_num) (by norm_num) le_rfl (by norm_num)
  rcases eq_or_lt_of_le h1 with h' | h'
  · -- 100 %
    subst h'
    norm_num
    rw [Dbl.div_zero_pos (by norm_num)]
    have e0 : Flt.log (Dbl.inf false) = Dbl.inf false := rfl
    have e1 : Flt.add (Dbl.inf false) (Dbl.fin (Real.log ((a : ℝ) / b))) = Dbl.inf false := rfl
    have e2 : Flt.sub (Dbl.inf false) (Dbl.fin 0) = Dbl.inf false := rfl
    have e3 : Flt.exp (Dbl.inf false) = Dbl.inf false := rfl
    have e4 : Flt.add (Dbl.fin 1) (Dbl.inf false) = Dbl.inf false := rfl
    have e5 : Flt.div (Dbl.fin 1) (Dbl.inf false) = Dbl.fin 0 := rfl
    rw [e0, e1, e2, e3, e4, e5, Dbl.sub_fin, Dbl.mul_fin]
    have : 100 * (a * 100) / (a * 100) = 100 := Int.mul_ediv_cancel _ (by omega)
    rw [this]
    exact castI8_fin (n := 100) (by norm_num) (by norm_num) (by norm_num) (by norm_num)
  · have hn0 : (0:ℝ) < n := by exact_mod_cast h
    have hn1 : (n:ℝ) < 100 := by exact_mod_cast h'
    have hp : (0:ℝ) < (n:ℝ) / 100 := by positivity
    have hq : (0:ℝ) < 1 - (n:ℝ) / 100 := by
      rw [sub_pos, div_lt_one (by norm_num)]; exact hn1
    rw [Dbl.div_fin _ hq.ne', Dbl.log_fin (by positivity), Dbl.add_fin, Dbl.sub_fin, sub_zero,
      Dbl.exp_fin, ← Real.log_mul (by positivity) (by positivity), Real.exp_log (by positivity),
      Dbl.add_fin, Dbl.div_fin _ (by positivity), Dbl.sub_fin, Dbl.mul_fin]
    have hD : (0:ℝ) < a * n + b * (100 - n) := by
      have : (0:ℝ) < 100 - n := by linarith
      positivity
    have hval : (1 - 1 / (1 + (n:ℝ) / 100 / (1 - (n:ℝ) / 100) * ((a:ℝ) / b))) * 100 =
        (100 * (a * n)) / (a * n + b * (100 - n)) := by
      have : (100 - (n:ℝ)) ≠ 0 := by linarith
      have h3 : 1 - (n:ℝ) / 100 ≠ 0 := hq.ne'
      have h4 : 1 + (n:ℝ) / 100 / (1 - (n:ℝ) / 100) * ((a:ℝ) / b) =
          (a * n + b * (100 - n)) / (b * (100 - n)) := by
        field_simp
        ring
      rw [h4]
      field_simp
      ring
    rw [hval]
    have hDz : 0 < a * n + b * (100 - n) := by exact_mod_cast hD
    have hdiv := Int.mul_ediv_add_emod (100 * (a * n)) (a * n + b * (100 - n))
    have hm0 := Int.emod_nonneg (100 * (a * n)) hDz.ne'
    have hm1 := Int.emod_lt_of_pos (100 * (a * n)) hDz
    have hnn : 0 ≤ 100 * (a * n) / (a * n + b * (100 - n)) :=
      Int.ediv_nonneg (by positivity) hDz.le
    generalize 100 * (a * n) / (a * n + b * (100 - n)) = q at *
    have hcast : (((a * n + b * (100 - n) : Int)) : ℝ) = a * n + b * (100 - n) := by push_cast; ring
    apply castI8_fin
    · rw [le_div_iff₀ hD, ← hcast]
      exact_mod_cast (by nlinarith : q * (a * n + b * (100 - n)) ≤ 100 * (a * n))
    · rw [div_lt_iff₀ hD, ← hcast]
      exact_mod_cast (by nlinarith : 100 * (a * n) < (q + 1) * (a * n + b * (100 - n)))
    · exact hnn
    · by_contra hge
      have : 128 ≤ q := by omega
      have h5 : 128 * (a * n + b * (100 - n)) ≤ q * (a * n + b * (100 - n)) :=
        mul_le_mul_of_nonneg_right this hDz.le
      have h6 : 0 < b * (100 - n) := mul_pos hb (by omega)
      have h7 : 0 < a * n := mul_pos ha h
      nlinarith

theorem observe_occ (Tbs : M3 Dbl) {c : Int8} (h0 : 0 ≤ c.toInt) (h1 : c.toInt ≤ 100) :
    observe (OccupancyMapper.new Tbs) (OccupancyMapper.new Tbs).log_odds_occ c =
      .ok (Int8.ofInt (occStep c.toInt)) := by
  have := observe_odds Tbs h0 h1 (a := 9) (b := 1) (by norm_num) (by norm_num)
  rw [mapper_occ]
  norm_num at this
  rw [this, occStep]
  congr 3 <;> ring

theorem observe_free (Tbs : M3 Dbl) {c : Int8} (h0 : 0 ≤ c.toInt) (h1 : c.toInt ≤ 100) :
    observe (OccupancyMapper.new Tbs) (OccupancyMapper.new Tbs).log_odds_free c =
      .ok (Int8.ofInt (freeStep c.toInt)) := by
  have := observe_odds Tbs h0 h1 (a := 7) (b := 13) (by norm_num) (by norm_num)
  rw [mapper_free]
  norm_num at this
  rw [this, freeStep]
  congr 3 <;> ring

theorem occStep_range {c : Int} (h0 : 0 ≤ c) (h1 : c ≤ 100) : c ≤ occStep c ∧ occStep c ≤ 100 := by
  unfold occStep
  constructor
  · rw [Int.le_ediv_iff_mul_le (by omega)]; nlinarith
  · apply Int.ediv_le_of_le_mul (by omega); omega

theorem freeStep_range {c : Int} (h0 : 0 ≤ c) (h1 : c ≤ 100) : 0 ≤ freeStep c ∧ freeStep c ≤ c := by
  unfold freeStep
  constructor
  · exact Int.ediv_nonneg (by omega) (by omega)
  · apply Int.ediv_le_of_le_mul (by omega); nlinarith

theorem int8_ofInt {n : Int} (h0 : 0 ≤ n) (h1 : n ≤ 100) : (Int8.ofInt n).toInt = n := by
  rw [Int8.toInt_ofInt_of_le (by omega) (by omega)]

/-- An unknown cell makes the stored value undefined. -/
theorem observe_unknown (Tbs : M3 Dbl) (log : Dbl) {c : Int8} (h : c.toInt < 0) :
    observe (OccupancyMapper.new Tbs) log c = .ub := by
  unfold observe prob2LogOdds logOdds2Prob
  have hn : (c.toInt : ℝ) < 0 := by exact_mod_cast h
  simp only [Dbl.lit_eq, Dbl.ofInt_eq]
  norm_num
  rw [Dbl.div_fin _ (by norm_num), Dbl.sub_fin, Dbl.div_fin _ (by
      have : (c.toInt : ℝ) / 100 < 0 := div_neg_of_neg_of_pos hn (by norm_num)
      linarith), Dbl.log_neg]
  · simp [castI8]
  · apply div_neg_of_neg_of_pos
    · exact div_neg_of_neg_of_pos hn (by norm_num)
    · have : (c.toInt : ℝ) / 100 < 0 := div_neg_of_neg_of_pos hn (by norm_num)
      linarith


/-! ## Beams and scans -/

theorem minor_range {dx dy k : Int} (hdx : 0 < dx) (hdy : 0 ≤ dy) (h0 : 0 ≤ k) (h1 : k ≤ dx) :
    0 ≤ minor dx dy k ∧ minor dx dy k ≤ dy := by
  obtain ⟨a, b⟩ := minor_spec (dx := dx) (dy := dy) (k := k) hdx
  have hk : 0 ≤ k * dy := mul_nonneg h0 hdy
  have hk' : k * dy ≤ dx * dy := mul_le_mul_of_nonneg_right h1 hdy
  constructor
  · by_contra hc
    have : minor dx dy k + 1 ≤ 0 := by omega
    nlinarith
  · by_contra hc
    have : dy + 1 ≤ minor dx dy k := by omega
    nlinarith

theorem segmentCell_box {xa ya xb yb x y : Int} (h : xa < xb) (hs : SegmentCell xa ya xb yb x y) :
    xa ≤ x ∧ x ≤ xb ∧ min ya yb ≤ y ∧ y ≤ max ya yb := by
  obtain ⟨h1, h2, rfl⟩ := (segmentCell_iff h).mp hs
  have hr := minor_range (dx := xb - xa) (dy := |yb - ya|) (k := x - xa) (by omega) (abs_nonneg _)
    (by omega) (by omega)
  refine ⟨h1, h2, ?_⟩
  unfold dirOf
  split_ifs with hc
  · rw [abs_of_neg (by omega)] at *; omega
  · rw [abs_of_nonneg (by omega)] at *; omega

theorem segmentCell_lt {xa ya xb yb x y : Int} (hs : SegmentCell xa ya xb yb x y) : xa < xb := by
  obtain ⟨_, _, h3, h4⟩ := hs; omega

theorem onRay_box {x0 y0 x1 y1 x y : Int} (h : OnRay x0 y0 x1 y1 x y) :
    min x0 x1 ≤ x ∧ x ≤ max x0 x1 ∧ min y0 y1 ≤ y ∧ y ≤ max y0 y1 := by
  unfold OnRay at h
  split_ifs at h
  all_goals
    have hb := segmentCell_box (segmentCell_lt h) h
    omega

/-- The updates one beam makes. -/
def beamUpd (m : OccupancyMapper F) (src : UInt32 × UInt32) :
    Option (UInt32 × UInt32) → List (Int × Int × F)
  | none => []
  | some h => markFree m (rayCells src.2.toNat src.1.toNat h.2.toNat h.1.toNat) ++
      [((h.2.toNat : Int), (h.1.toNat : Int), m.log_odds_occ)]

theorem beam_eq (m : OccupancyMapper F) (scan : LaserScan F) (Tms : M3 F) {g : GridMap F}
    (hsm : SmallGrid g) {src : UInt32 × UInt32} (hsrc : IsCell g src.1 src.2) (k : Nat) (r : F)
    (hd : RangeValid scan r → ∃ p, g.world2Grid (beamEnd Tms scan k r).c0
      (beamEnd Tms scan k r).c1 = .ok p) :
    m.beam scan Tms src (beamAngle scan k) r g =
      applyUpd m (beamUpd m src (beamHit g Tms scan k r)) g := by
  unfold OccupancyMapper.beam beamHit
  have hx : g.xsize ≠ 0 := by have := hsrc.2; intro h; rw [h] at this; simp at this
  have hy : g.ysize ≠ 0 := by have := hsrc.1; intro h; rw [h] at this; simp at this
  by_cases hv : RangeValid scan r
  · obtain ⟨p, hp⟩ := hd hv
    rw [if_neg (by simp [hv.1, hv.2]), if_pos hv]
    simp only [beamEnd] at hp ⊢
    simp only [hp, Res.ok_bind]
    have hb := C02_gridBounds_exact_partial g hx hy p.1 p.2
    by_cases hc : IsCell g p.1 p.2
    · rw [if_pos (hb.mpr hc), if_pos hc]
      have u : ∀ {a : UInt32}, a.toNat < 2147483648 → u2i a = a.toNat := by
        intro a ha; unfold u2i; rw [if_pos ha]
      obtain ⟨s1, s2⟩ := hsm
      have e1 := u (a := src.1) (by have := hsrc.1; omega)
      have e2 := u (a := src.2) (by have := hsrc.2; omega)
      have e3 := u (a := p.1) (by have := hc.1; omega)
      have e4 := u (a := p.2) (by have := hc.2; omega)
      rw [e1, e2, e3, e4, rayTrace_eq, beamUpd, applyUpd_append]
      congr 1; funext g1
      simp only [applyUpd]
      cases m.updateCell g1 _ _ _ <;> rfl
    · rw [if_neg (by rw [hb]; exact hc), if_neg hc]; rfl
  · rw [if_pos, if_neg hv]
    · rfl
    · unfold RangeValid at hv
      rcases h1 : Flt.lt scan.range_max r <;> rcases h2 : Flt.lt r scan.range_min <;> simp_all

theorem beam_ok (m : OccupancyMapper F) (scan : LaserScan F) (Tms : M3 F) {g g' : GridMap F}
    {src : UInt32 × UInt32} {k : Nat} {r : F}
    (h : m.beam scan Tms src (beamAngle scan k) r g = .ok g') :
    RangeValid scan r → ∃ p, g.world2Grid (beamEnd Tms scan k r).c0
      (beamEnd Tms scan k r).c1 = .ok p := by
  intro hv
  unfold OccupancyMapper.beam at h
  rw [if_neg (by simp [hv.1, hv.2])] at h
  obtain ⟨p, hp, _⟩ := Res.bind_eq_ok.mp h
  exact ⟨p, hp⟩

theorem beamUpd_inGrid (m : OccupancyMapper F) {g : GridMap F} {src : UInt32 × UInt32}
    (hsrc : IsCell g src.1 src.2) (Tms : M3 F) (scan : LaserScan F) (k : Nat) (r : F) :
    ∀ p ∈ beamUpd m src (beamHit g Tms scan k r), InGrid g p.1 p.2.1 := by
  intro p hp
  unfold beamHit at hp
  split_ifs at hp
  · split at hp
    · rename_i ptg _
      split_ifs at hp with hc
      · obtain ⟨c1, c2⟩ := hc
        obtain ⟨s1, s2⟩ := hsrc
        simp only [beamUpd, markFree, List.mem_append, List.mem_map, List.mem_singleton] at hp
        rcases hp with ⟨⟨x, y⟩, hq, rfl⟩ | rfl
        · have := onRay_box (mem_rayCells.mp hq).1
          unfold InGrid; simp only; omega
        · unfold InGrid; simp only; omega
      · simp [beamUpd] at hp
    · simp [beamUpd] at hp
  · simp [beamUpd] at hp

theorem SameGeometry.beamHit {a b : GridMap F} (h : SameGeometry a b) (Tms : M3 F)
    (scan : LaserScan F) (k : Nat) (r : F) :
    beamHit b Tms scan k r = Ergodic.beamHit a Tms scan k r := by
  unfold Ergodic.beamHit
  simp only [h.world2Grid, h.isCell]

theorem cellFold_append (m : OccupancyMapper F) (x y : Int) (l l' : List (Int × Int × F)) :
    ∀ c, cellFold m x y (l ++ l') c = (cellFold m x y l c >>= cellFold m x y l') := by
  induction l with
  | nil => intro c; rfl
  | cons p t ih =>
    intro c
    simp only [List.cons_append, cellFold]
    split_ifs
    · cases h : observe m p.2.2 c with
      | ok v => simp only [Res.ok_bind]; exact ih v
      | _ => rfl
    · exact ih c

theorem cellFold_not_mem (m : OccupancyMapper F) (x y : Int) (l : List (Int × Int))
    (h : (x, y) ∉ l) : ∀ c, cellFold m x y (markFree m l) c = .ok c := by
  induction l with
  | nil => intro c; rfl
  | cons p t ih =>
    intro c
    simp only [List.mem_cons, not_or] at h
    simp only [markFree, List.map_cons, cellFold]
    rw [if_neg]
    · exact ih h.2 c
    · rintro ⟨rfl, rfl⟩; exact h.1 rfl

theorem cellFold_markFree (m : OccupancyMapper F) (x y : Int) (l : List (Int × Int))
    (hn : l.Nodup) : ∀ c, cellFold m x y (markFree m l) c =
      if (x, y) ∈ l then observe m m.log_odds_free c else .ok c := by
  induction l with
  | nil => intro c; rfl
  | cons p t ih =>
    intro c
    obtain ⟨px, py⟩ := p
    rw [List.nodup_cons] at hn
    simp only [markFree, List.map_cons, cellFold]
    by_cases he : x = px ∧ y = py
    · obtain ⟨rfl, rfl⟩ := he
      rw [if_pos ⟨rfl, rfl⟩, if_pos (by simp)]
      have := cellFold_not_mem m x y t hn.1
      cases h : observe m m.log_odds_free c with
      | ok v => simp only [Res.ok_bind]; exact this v
      | _ => rfl
    · rw [if_neg he]
      have := ih hn.2 c
      rw [markFree] at this
      rw [this]
      simp only [List.mem_cons, Prod.mk.injEq, he, false_or]

/-- The evidence of a beam on one cell. -/
theorem cellFold_beam (Tbs : M3 Dbl) (src : UInt32 × UInt32) (hit : Option (UInt32 × UInt32))
    (x y : Int) {c : Int8} (h0 : 0 ≤ c.toInt) (h1 : c.toInt ≤ 100) :
    cellFold (OccupancyMapper.new Tbs) x y (beamUpd (OccupancyMapper.new Tbs) src hit) c =
      .ok (Int8.ofInt (beamEvidence src hit x y c.toInt)) ∧
    0 ≤ beamEvidence src hit x y c.toInt ∧ beamEvidence src hit x y c.toInt ≤ 100 := by
  have ho := occStep_range h0 h1
  have hf := freeStep_range h0 h1
  cases hit with
  | none => simp [beamUpd, cellFold, beamEvidence, h0, h1]
  | some h =>
    refine ⟨?_, ?_⟩
    · simp only [beamUpd, beamEvidence]
      rw [cellFold_append, cellFold_markFree _ _ _ _ (rayCells_nodup _ _ _ _)]
      by_cases he : x = h.2.toNat ∧ y = h.1.toNat
      · rw [if_neg, if_pos he]
        · simp only [Res.ok_bind, cellFold]
          rw [if_pos he, observe_occ Tbs h0 h1]; rfl
        · rw [mem_rayCells]; rintro ⟨_, hne⟩; exact hne (by rw [he.1, he.2])
      · rw [if_neg he]
        have hne : (x, y) ≠ ((h.2.toNat : Int), (h.1.toNat : Int)) := by
          intro hh; rw [Prod.mk.injEq] at hh; exact he hh
        by_cases hr : OnRay src.2.toNat src.1.toNat h.2.toNat h.1.toNat x y
        · rw [if_pos (mem_rayCells.mpr ⟨hr, hne⟩), if_pos hr, observe_free Tbs h0 h1]
          simp only [Res.ok_bind, cellFold]
          rw [if_neg he]
        · rw [if_neg (fun hm => hr (mem_rayCells.mp hm).1), if_neg hr]
          simp only [Res.ok_bind, cellFold]
          rw [if_neg he]; simp
    · simp only [beamEvidence]
      split_ifs <;> omega

/-- Percentage as a predicate on stored values. -/
def Pct (v : Int8) : Prop := 0 ≤ v.toInt ∧ v.toInt ≤ 100

theorem observe_pct (Tbs : M3 Dbl) (src : UInt32 × UInt32) (hit : Option (UInt32 × UInt32)) :
    ∀ p ∈ beamUpd (OccupancyMapper.new Tbs) src hit, ∀ v, Pct v →
      ∃ v', observe (OccupancyMapper.new Tbs) p.2.2 v = .ok v' ∧ Pct v' := by
  intro p hp v hv
  have ho := occStep_range hv.1 hv.2
  have hf := freeStep_range hv.1 hv.2
  have hv1 := hv.1
  have hv2 := hv.2
  cases hit with
  | none => simp [beamUpd] at hp
  | some h =>
    simp only [beamUpd, markFree, List.mem_append, List.mem_map, List.mem_singleton] at hp
    rcases hp with ⟨q, _, rfl⟩ | rfl
    · refine ⟨_, observe_free Tbs hv.1 hv.2, ?_⟩
      unfold Pct; rw [int8_ofInt (by omega) (by omega)]; omega
    · refine ⟨_, observe_occ Tbs hv.1 hv.2, ?_⟩
      unfold Pct; rw [int8_ofInt (by omega) (by omega)]; omega

/-- Effect of the beam loop. -/
theorem beamLoop_spec (Tbs : M3 Dbl) (scan : LaserScan Dbl) (Tms : M3 Dbl)
    (src : UInt32 × UInt32) (g0 : GridMap Dbl) (hsm : SmallGrid g0)
    (hsrc : IsCell g0 src.1 src.2) :
    ∀ (rs : List Dbl) (k : Nat) (g : GridMap Dbl), SameGeometry g0 g → WellFormed g →
      Percentages g →
      (∀ i r, rs[i]? = some r → RangeValid scan r → ∃ p, g0.world2Grid
        (beamEnd Tms scan (k + i) r).c0 (beamEnd Tms scan (k + i) r).c1 = .ok p) →
      ∃ g', (OccupancyMapper.new Tbs).beamLoop scan Tms src rs (beamAngle scan k) g = .ok g' ∧
        SameGeometry g0 g' ∧ WellFormed g' ∧ Percentages g' ∧
        ∀ x y, InGrid g0 x y → ∀ v, cellAt g y.toNat x.toNat = some v →
          ∃ v', cellAt g' y.toNat x.toNat = some v' ∧
            v'.toInt = scanEvidence g0 Tms scan src x y rs k v.toInt := by
  intro rs
  induction rs with
  | nil =>
    intro k g hg hw hp _
    exact ⟨g, rfl, hg, hw, hp, fun x y _ v hv => ⟨v, hv, rfl⟩⟩
  | cons r rs ih =>
    intro k g hg hw hp hd
    have hsm' : SmallGrid g := by unfold SameGeometry at hg; rw [hg]; exact hsm
    have hsrc' := hg.isCell.mpr hsrc
    have hd0 : RangeValid scan r → ∃ p, g.world2Grid (beamEnd Tms scan k r).c0
        (beamEnd Tms scan k r).c1 = .ok p := by
      intro hv
      have := hd 0 r (by simp) hv
      simpa [hg.world2Grid] using this
    have hb := beam_eq (OccupancyMapper.new Tbs) scan Tms hsm' hsrc' k r hd0
    have hin := beamUpd_inGrid (OccupancyMapper.new Tbs) hsrc' Tms scan k r
    obtain ⟨g1, hg1, hp1⟩ := applyUpd_total (OccupancyMapper.new Tbs) Pct _ hw hin hp
      (observe_pct Tbs src _)
    obtain ⟨hw1, hgeo, hcell⟩ := applyUpd_spec (OccupancyMapper.new Tbs) _ hw hin hg1
    obtain ⟨g', h1, h2, h3, h4, h5⟩ := ih (k + 1) g1 (hg.trans hgeo) hw1 hp1 (by
      intro i r' hi hv
      have := hd (i + 1) r' (by simpa using hi) hv
      rwa [show k + (i + 1) = k + 1 + i by omega] at this)
    refine ⟨g', ?_, h2, h3, h4, ?_⟩
    · rw [OccupancyMapper.beamLoop, hb, hg1, Res.ok_bind]
      have : beamAngle scan (k + 1) = beamAngle scan k +. scan.angle_increment := by
        unfold beamAngle; rw [Function.iterate_succ_apply']
      rw [← this]; exact h1
    · intro x y hxy v hv
      obtain ⟨v1, hv1, hc1⟩ := hcell x y (hg.inGrid.mpr hxy) v hv
      have hpv := hp v (List.mem_of_getElem? hv)
      obtain ⟨e1, e2, e3⟩ := cellFold_beam Tbs src (beamHit g Tms scan k r) x y hpv.1 hpv.2
      rw [e1] at hv1
      simp only [Res.ok.injEq] at hv1
      obtain ⟨v', j1, j2⟩ := h5 x y hxy v1 hc1
      refine ⟨v', j1, ?_⟩
      rw [j2, scanEvidence, ← hv1, int8_ofInt e2 e3, hg.beamHit]

/-- Geometry and untouched cells, for any arithmetic. -/
theorem beamLoop_frame (m : OccupancyMapper F) (scan : LaserScan F) (Tms : M3 F)
    (src : UInt32 × UInt32) (g0 : GridMap F) (hsm : SmallGrid g0)
    (hsrc : IsCell g0 src.1 src.2) :
    ∀ (rs : List F) (k : Nat) (g g' : GridMap F), SameGeometry g0 g → WellFormed g →
      m.beamLoop scan Tms src rs (beamAngle scan k) g = .ok g' →
      SameGeometry g0 g' ∧ WellFormed g' ∧
      ∀ x y, InGrid g0 x y →
        (∀ i r h, rs[i]? = some r → beamHit g0 Tms scan (k + i) r = some h →
          ¬ (x = h.2.toNat ∧ y = h.1.toNat) ∧
          ¬ OnRay src.2.toNat src.1.toNat h.2.toNat h.1.toNat x y) →
        cellAt g' y.toNat x.toNat = cellAt g y.toNat x.toNat := by
  intro rs
  induction rs with
  | nil =>
    intro k g g' hg hw h
    simp only [OccupancyMapper.beamLoop, Res.ok.injEq] at h
    subst h
    exact ⟨hg, hw, fun _ _ _ _ => rfl⟩
  | cons r rs ih =>
    intro k g g' hg hw h
    have hsm' : SmallGrid g := by unfold SameGeometry at hg; rw [hg]; exact hsm
    have hsrc' := hg.isCell.mpr hsrc
    rw [OccupancyMapper.beamLoop] at h
    obtain ⟨g1, hb1, h⟩ := Res.bind_eq_ok.mp h
    have hb := beam_eq m scan Tms hsm' hsrc' k r (beam_ok m scan Tms hb1)
    rw [hb] at hb1
    have hin := beamUpd_inGrid m hsrc' Tms scan k r
    obtain ⟨hw1, hgeo, hcell⟩ := applyUpd_spec m _ hw hin hb1
    have : beamAngle scan (k + 1) = beamAngle scan k +. scan.angle_increment := by
      unfold beamAngle; rw [Function.iterate_succ_apply']
    rw [← this] at h
    obtain ⟨i1, i2, i3⟩ := ih (k + 1) g1 g' (hg.trans hgeo) hw1 h
    refine ⟨i1, i2, fun x y hxy hno => ?_⟩
    rw [i3 x y hxy (by
      intro i r' h' hi hh
      apply hno (i + 1) r' h' (by simpa using hi)
      rwa [show k + (i + 1) = k + 1 + i by omega])]
    obtain ⟨v, hv⟩ := (hg.inGrid.mpr hxy).exists_cell hw
    obtain ⟨v1, hv1, hc1⟩ := hcell x y (hg.inGrid.mpr hxy) v hv
    rw [hc1, hv]
    rw [hg.beamHit] at hv1
    cases hbh : Ergodic.beamHit g0 Tms scan k r with
    | none => rw [hbh] at hv1; simpa [beamUpd, cellFold] using hv1.symm
    | some hh =>
      obtain ⟨n1, n2⟩ := hno 0 r hh (by simp) (by simpa using hbh)
      rw [hbh, beamUpd, cellFold_append,
        cellFold_not_mem _ _ _ _ (fun hm => n2 (mem_rayCells.mp hm).1), Res.ok_bind] at hv1
      simp only [cellFold, if_neg n1, Res.ok.injEq] at hv1
      rw [hv1]


theorem beamLoop_pct (Tbs : M3 Dbl) (scan : LaserScan Dbl) (Tms : M3 Dbl)
    (src : UInt32 × UInt32) (g0 : GridMap Dbl) (hsm : SmallGrid g0)
    (hsrc : IsCell g0 src.1 src.2) :
    ∀ (rs : List Dbl) (k : Nat) (g g' : GridMap Dbl), SameGeometry g0 g → WellFormed g →
      Percentages g →
      (OccupancyMapper.new Tbs).beamLoop scan Tms src rs (beamAngle scan k) g = .ok g' →
      Percentages g' := by
  intro rs
  induction rs with
  | nil =>
    intro k g g' _ _ hp h
    simp only [OccupancyMapper.beamLoop, Res.ok.injEq] at h
    subst h; exact hp
  | cons r rs ih =>
    intro k g g' hg hw hp h
    have hsm' : SmallGrid g := by unfold SameGeometry at hg; rw [hg]; exact hsm
    have hsrc' := hg.isCell.mpr hsrc
    rw [OccupancyMapper.beamLoop] at h
    obtain ⟨g1, hb1, h⟩ := Res.bind_eq_ok.mp h
    have hb := beam_eq (OccupancyMapper.new Tbs) scan Tms hsm' hsrc' k r (beam_ok _ scan Tms hb1)
    rw [hb] at hb1
    have hin := beamUpd_inGrid (OccupancyMapper.new Tbs) hsrc' Tms scan k r
    obtain ⟨g2, hg2, hp2⟩ := applyUpd_total (OccupancyMapper.new Tbs) Pct _ hw hin hp
      (observe_pct Tbs src _)
    rw [hb1, Res.ok.injEq] at hg2
    subst hg2
    obtain ⟨hw1, hgeo, _⟩ := applyUpd_spec (OccupancyMapper.new Tbs) _ hw hin hb1
    have : beamAngle scan (k + 1) = beamAngle scan k +. scan.angle_increment := by
      unfold beamAngle; rw [Function.iterate_succ_apply']
    rw [← this] at h
    exact ih (k + 1) g1 g' (hg.trans hgeo) hw1 hp2 h

theorem rayCells_head {x0 y0 x1 y1 : Int} (h : (x0, y0) ≠ (x1, y1)) :
    ∃ t, rayCells x0 y0 x1 y1 = (x0, y0) :: t := by
  unfold rayCells
  split_ifs
  · have : 0 < max (x1 - x0).natAbs (y1 - y0).natAbs := by
      by_contra hc
      apply h
      rw [Prod.mk.injEq]; omega
    obtain ⟨n, hn⟩ : ∃ n, max (x1 - x0).natAbs (y1 - y0).natAbs = n + 1 :=
      ⟨_, (Nat.succ_pred_eq_of_pos this).symm⟩
    rw [hn, List.range_succ_eq_map]
    exact ⟨_, by simp; rfl⟩
  all_goals exact ⟨_, rfl⟩

end Ergodic
