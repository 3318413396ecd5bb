import Verif.Props.Grid
import Verif.Props.Numerics
import Verif.Props.Mapping
import Verif.Props.Target
import Verif.Props.Rk45
import Verif.Lemmas.ErgodicControl

/-!
# Exact conditions

For claims whose full statement is false: the exact set of inputs for which it is true.
-/

namespace Ergodic
variable {F : Type}

/-- C02, sharp: membership is exact precisely on the maps with a row and a column. -/
theorem C02_iff (g : GridMap F) :
    (∀ i j, g.gridBounds i j = true ↔ IsCell g i j) ↔ g.xsize ≠ 0 ∧ g.ysize ≠ 0 := by
  constructor
  · intro h
    by_contra hn
    have h0 : g.xsize = 0 ∨ g.ysize = 0 := by tauto
    have hc : ¬ IsCell g 0 0 := by
      rintro ⟨h1, h2⟩
      rcases h0 with h0 | h0
      · rw [h0] at h2; simp at h2
      · rw [h0] at h1; simp at h1
    apply hc
    rw [← h]
    simp [GridMap.gridBounds]
  · rintro ⟨hx, hy⟩ i j
    exact C02_gridBounds_exact_partial g hx hy i j

/-- C03, sharp: membership of an index is exact precisely on the maps with a number of cells from 1 to
`2^32 - 1`, or a positive multiple of `2^32` (when every index exists and every index is accepted). -/
theorem C03_iff (g : GridMap F) :
    (∀ idx, g.gridBoundsIdx idx = true ↔ idx.toNat < numCells g) ↔
      0 < numCells g ∧ (numCells g < 2 ^ 32 ∨ 2 ^ 32 ∣ numCells g) := by
  have hmod : (g.xsize * g.ysize).toNat = numCells g % 2 ^ 32 := UInt32.toNat_mul _ _
  by_cases h0 : g.xsize * g.ysize = 0
  · have hall : ∀ idx, g.gridBoundsIdx idx = true := fun idx => by
      unfold GridMap.gridBoundsIdx
      rw [h0]
      exact decide_eq_true (le_zero_sub_one idx)
    have hm : numCells g % 2 ^ 32 = 0 := by rw [← hmod, h0]; rfl
    constructor
    · intro h
      have := (h 0).mp (hall 0)
      exact ⟨by simpa using this, .inr (Nat.dvd_of_mod_eq_zero hm)⟩
    · rintro ⟨hp, -⟩ idx
      have := uint32_lt idx
      have := Nat.le_of_dvd hp (Nat.dvd_of_mod_eq_zero hm)
      exact ⟨fun _ => by omega, fun _ => hall idx⟩
  · have hb : ∀ idx, g.gridBoundsIdx idx = true ↔ idx.toNat < numCells g % 2 ^ 32 := fun idx => by
      simp [GridMap.gridBoundsIdx, le_pred_iff h0, hmod]
    have hpos : 0 < numCells g % 2 ^ 32 := by rw [← hmod]; exact uint32_pos_iff.mp h0
    constructor
    · intro h
      have := Nat.mod_le (numCells g) (2 ^ 32)
      refine ⟨by omega, .inl ?_⟩
      by_contra hge
      have hlt := Nat.mod_lt (numCells g) (show 0 < 2 ^ 32 by norm_num)
      have e : (UInt32.ofNat (numCells g % 2 ^ 32)).toNat = numCells g % 2 ^ 32 := by
        rw [UInt32.toNat_ofNat', Nat.mod_mod]
      have := (h (UInt32.ofNat (numCells g % 2 ^ 32))).mpr (by rw [e]; omega)
      rw [hb, e] at this
      exact lt_irrefl _ this
    · rintro ⟨-, h | h⟩ idx
      · rw [hb, Nat.mod_eq_of_lt h]
      · rw [Nat.mod_eq_zero_of_dvd h] at hpos
        exact absurd hpos (lt_irrefl _)

/-- both kinds of map exist -/
example : numCells demoGrid < 2 ^ 32 ∧ ∃ g : GridMap ℝ, 0 < numCells g ∧ 2 ^ 32 ∣ numCells g :=
  ⟨by decide, ⟨65536, 65536, 1, 0, 0, 65536, 65536, []⟩, by simp [numCells], by simp [numCells]⟩

/-- C04, sharp: whatever the data, a message with this width and height is accepted only when it carries
the cells it declares, precisely if there are fewer than `2^32` of them. -/
theorem C04_iff [Flt F] (w d : UInt32) :
    (∀ (m : OccupancyGrid F) (g : GridMap F), m.width = w → m.height = d → GridMap.ofMsg m = .ok g →
      g.data.length = numCells g) ↔ w.toNat * d.toNat < 2 ^ 32 := by
  constructor
  · intro h
    by_contra hge
    let m : OccupancyGrid F := ⟨w, d, lit 1 0, lit 0 0, lit 0 0, List.replicate (w * d).toNat 0⟩
    have hm : GridMap.ofMsg m = .ok (GridMap.assign m) := by
      unfold GridMap.ofMsg
      exact if_neg (not_not.mpr (by
        show (w * d).toNat = (List.replicate (w * d).toNat (0 : Int8)).length
        rw [List.length_replicate]))
    have := h m _ rfl rfl hm
    have hl : (List.replicate (w * d).toNat (0 : Int8)).length = w.toNat * d.toNat := this
    rw [List.length_replicate] at hl
    have := uint32_lt (w * d)
    omega
  · rintro hfit m g rfl rfl hg
    obtain ⟨h1, h2⟩ := C04_ofMsg_checked_partial m hfit
    by_cases hl : m.data.length = m.numCells
    · obtain ⟨g', e, -, hl'⟩ := h2 hl
      rw [e, Res.ok.injEq] at hg
      rw [← hg]; exact hl'
    · rw [h1 hl] at hg
      simp at hg

/-- C06, sharp: every reachable map stores the cells it declares precisely if every message that is sent
carries the cells it declares. -/
theorem C06_iff [Flt F] (P : OccupancyGrid F → Prop) :
    (∀ g, ReachableGrid P g → g.data.length = numCells g) ↔ ∀ m, P m → m.data.length = m.numCells := by
  constructor
  · intro h m hm
    exact h _ (.update .default hm)
  · intro h g hg
    cases hg with
    | default => simp [numCells, GridMap.empty]
    | limits he hf => exact (C06_wellFormed_partial g (.limits he hf)).size
    | msg he hf => exact (C06_wellFormed_partial g (.msg he hf)).size
    | update _ hm => exact h _ hm

/-- C11, sharp: reading a row and column throws precisely when the number `i * xsize + j`, reduced modulo
`2^32`, is not below the number of cells; otherwise it reads the cell with that number. -/
theorem C11_iff [Flt F] (g : GridMap F) (hw : WellFormed g) (i j : UInt32) :
    ((∃ e, g.getCell i j = .throw e) ↔ numCells g ≤ (i.toNat * g.xsize.toNat + j.toNat) % 2 ^ 32) ∧
    ∀ v, g.data[(i.toNat * g.xsize.toNat + j.toNat) % 2 ^ 32]? = some v →
      g.getCell i j = .ok (Flt.ofInt v.toInt /. lit 100 0) := by
  have e : (g.grid2RowMajor i j).toNat = (i.toNat * g.xsize.toNat + j.toNat) % 2 ^ 32 := by
    rw [GridMap.grid2RowMajor, UInt32.toNat_add, UInt32.toNat_mul, Nat.mod_add_mod]
  obtain ⟨h1, h2⟩ := C10_getCellIdx g hw (g.grid2RowMajor i j)
  rw [e] at h1 h2
  constructor
  · constructor
    · rintro ⟨e', he⟩
      by_contra hlt
      rw [GridMap.getCell, h1 (by omega)] at he
      simp at he
    · intro h
      exact h2 (by omega)
  · intro v hv
    have hlt : (i.toNat * g.xsize.toNat + j.toNat) % 2 ^ 32 < numCells g := by
      rw [← hw.size]
      by_contra hn
      rw [List.getElem?_eq_none (by omega)] at hv
      simp at hv
    rw [GridMap.getCell, h1 hlt]
    congr 3
    rw [List.getElem?_eq_getElem (by rw [hw.size]; exact hlt), Option.some.injEq] at hv
    rw [← hv]

/-- C11 fails on every map that has a cell, not only on those with a second row: the pair `(1, 2^32 - xsize)`
does not exist and reads cell 0. -/
theorem C11_never [Flt F] (g : GridMap F) (hw : WellFormed g) (hx : g.xsize ≠ 0) (hy : g.ysize ≠ 0) :
    ∃ i j, ¬ IsCell g i j ∧ g.getCell i j = g.getCell 0 0 ∧ ∃ v, g.getCell i j = .ok v := by
  have hxp := uint32_pos_iff.mp hx
  have hyp := uint32_pos_iff.mp hy
  have hxl := uint32_lt g.xsize
  have e : g.getCell 1 (0 - g.xsize) = g.getCell 0 0 := by
    rw [GridMap.getCell, GridMap.getCell]
    congr 1
    simp only [GridMap.grid2RowMajor, UInt32.one_mul, UInt32.zero_mul, UInt32.zero_add]
    rw [UInt32.add_comm, UInt32.sub_add_cancel]
  refine ⟨1, 0 - g.xsize, ?_, e, ?_⟩
  · rintro ⟨h1, h2⟩
    have hf := hw.fits
    unfold Fits numCells at hf
    have h1 : 1 < g.ysize.toNat := h1
    have : g.xsize.toNat * 2 ≤ g.xsize.toNat * g.ysize.toNat := Nat.mul_le_mul_left _ h1
    rw [UInt32.toNat_sub] at h2
    have : (2 ^ 32 - g.xsize.toNat + (0 : UInt32).toNat) % 2 ^ 32 = 2 ^ 32 - g.xsize.toNat := by
      rw [show (0 : UInt32).toNat = 0 from rfl, Nat.add_zero]
      exact Nat.mod_eq_of_lt (by omega)
    omega
  · obtain ⟨v, -, h⟩ := C11_getCell_exists g hw 0 0 ⟨hyp, hxp⟩
    exact ⟨_, e.trans h⟩

open Real in
/-- C17, sharp: the function returns the inverse of the transform by `a` (taken in `(-π, π)`) precisely for
one translation. -/
theorem C17_iff (x y a : ℝ) (h1 : -π < a) (h2 : a < π) :
    (transform2dInv (transform2d x y a)).mul (transform2d x y a) = eye3 ↔
      x = a * (cos a - sin a) ∧ y = a * (sin a + cos a) := by
  have hat : realAtan2 (-sin a) (cos a) = -a := by
    have : (⟨cos a, -sin a⟩ : ℂ) = Complex.cos (-a : ℝ) + Complex.sin (-a : ℝ) * Complex.I := by
      apply Complex.ext <;> simp [Complex.cos_ofReal_re, Complex.sin_ofReal_re]
    rw [realAtan2, this, Complex.arg_cos_add_sin_mul_I ⟨by linarith, by linarith⟩]
  have hsq := sin_sq_add_cos_sq a
  set X := -(cos a * x - -sin a * y) with hX
  set Y := -(-sin a * x + cos a * y) with hY
  have hT : transform2dInv (transform2d x y a) = transform2d (-a) X Y := by
    simp only [transform2dInv, transform2d, real_neg, real_atan2, real_sub, real_mul, real_add, real_sin, real_cos, hat,
      hX, hY]
  rw [hT]
  constructor
  · intro h
    have c0 := congrArg (fun m => m.r0.c0) h
    have c1 := congrArg (fun m => m.r1.c0) h
    have c2 := congrArg (fun m => m.r0.c2) h
    have c3 := congrArg (fun m => m.r1.c2) h
    simp only [transform2d, M3.mul, M3.t, V3.dot, real_add, real_mul, real_neg, real_cos, real_sin, real_lit, eye3,
      Int.cast_zero, Int.cast_one, pow_zero, div_one, mul_zero, mul_one, add_zero] at c0 c1 c2 c3
    have hcY : cos Y = cos a := by
      linear_combination cos a * c0 + sin a * c1 - cos Y * hsq
    have hsY : sin Y = -sin a := by
      linear_combination cos a * c1 - sin a * c0 - sin Y * hsq
    rw [hcY, hsY] at c2 c3
    have hXa : X = -a := by rw [hX]; linarith
    have hYX : Y = X := by rw [hY]; linarith
    have e1 : cos a * x + sin a * y = a := by rw [hX] at hXa; linarith
    have e2 : -sin a * x + cos a * y = a := by rw [hYX.symm, hY] at hXa; linarith
    constructor
    · linear_combination cos a * e1 - sin a * e2 - x * hsq
    · linear_combination sin a * e1 + cos a * e2 - y * hsq
  · rintro ⟨rfl, rfl⟩
    have eX : X = -a := by rw [hX]; linear_combination -a * hsq
    have eY : Y = -a := by rw [hY]; linear_combination -a * hsq
    rw [eX, eY]
    simp only [transform2d, M3.mul, M3.t, V3.dot, real_add, real_mul, real_neg, real_cos, real_sin, real_lit, eye3,
      Int.cast_zero, Int.cast_one, pow_zero, div_one, cos_neg, sin_neg]
    ext <;> simp <;> nlinarith

/-- the identity is inverted correctly; so is no other rotation about the origin -/
example : (transform2dInv (transform2d (0 : ℝ) 0 0)).mul (transform2d 0 0 0) = eye3 :=
  (C17_iff 0 0 0 (by simp [Real.pi_pos]) Real.pi_pos).mpr (by simp)

/-- C35, sharp: a percentage can be brought above 50 by occupied evidence precisely if it is not 0, and below
50 by free evidence precisely if it is not 100. -/
theorem C35_iff (Tbs : M3 Dbl) (g : GridMap Dbl) (x y : Int) (c : Int8)
    (hw : WellFormed g) (hin : InGrid g x y) (hc : cellAt g y.toNat x.toNat = some c)
    (h0 : 0 ≤ c.toInt) (h1 : c.toInt ≤ 100) :
    ((∃ n g' v, observeN (OccupancyMapper.new Tbs) x y (OccupancyMapper.new Tbs).log_odds_occ n g =
      .ok g' ∧ cellAt g' y.toNat x.toNat = some v ∧ 50 < v.toInt) ↔ c.toInt ≠ 0) ∧
    ((∃ n g' v, observeN (OccupancyMapper.new Tbs) x y (OccupancyMapper.new Tbs).log_odds_free n g =
      .ok g' ∧ cellAt g' y.toNat x.toNat = some v ∧ v.toInt < 50) ↔ c.toInt ≠ 100) := by
  have hocc := fun n => observeN_spec Tbs _ occStep (fun c a b => observe_occ Tbs a b)
      (fun c a b => by have := occStep_range a b; omega) x y n g hw hin c hc h0 h1
  have hfree := fun n => observeN_spec Tbs _ freeStep (fun c a b => observe_free Tbs a b)
      (fun c a b => by have := freeStep_range a b; omega) x y n g hw hin c hc h0 h1
  constructor
  · constructor
    · rintro ⟨n, g', v, e1, e2, e3⟩ hz
      obtain ⟨g'', v', a1, a2, a3⟩ := hocc n
      rw [e1, Res.ok.injEq] at a1
      subst a1
      rw [e2, Option.some.injEq] at a2
      subst a2
      rw [hz, Function.iterate_fixed (show occStep 0 = 0 by decide)] at a3
      omega
    · intro hz
      by_cases h100 : c.toInt = 100
      · exact ⟨0, g, c, rfl, hc, by omega⟩
      · obtain ⟨n, g', v, e1, e2, e3⟩ := (C35_reversible_partial Tbs g x y c hw hin hc (by omega) (by omega)).1
        exact ⟨n, g', v, e1, e2, by omega⟩
  · constructor
    · rintro ⟨n, g', v, e1, e2, e3⟩ hz
      obtain ⟨g'', v', a1, a2, a3⟩ := hfree n
      rw [e1, Res.ok.injEq] at a1
      subst a1
      rw [e2, Option.some.injEq] at a2
      subst a2
      rw [hz, Function.iterate_fixed (show freeStep 100 = 100 by decide)] at a3
      omega
    · intro hz
      by_cases h0' : c.toInt = 0
      · exact ⟨0, g, c, rfl, hc, by omega⟩
      · obtain ⟨n, g', v, e1, e2, e3⟩ := (C35_reversible_partial Tbs g x y c hw hin hc (by omega) (by omega)).2
        exact ⟨n, g', v, e1, e2, by omega⟩

/-- C44, sharp: the values sum to 1 precisely if the target has a Gaussian. -/
theorem C44_iff (t : Target ℝ) (tr : V2 ℝ) (grid : List (V2 ℝ)) (ht : t.WellFormed) (hg : grid ≠ []) :
    (t.fill tr grid).sum = 1 ↔ t.gaussians ≠ [] := by
  constructor
  · intro h hn
    have : ∀ v ∈ t.fill tr grid, v = 0 := by
      intro v hv
      unfold Target.fill at hv
      have hz : ∀ p, t.evaluate p tr = 0 := fun p => by
        unfold Target.evaluate
        rw [hn]
        simp
      simp [hz] at hv
      exact hv.2
    rw [List.sum_eq_zero this] at h
    norm_num at h
  · intro hn
    exact (C44_normalised_partial t tr grid ht hn hg).2.2

/-- C46, sharp: the marker of a Gaussian has the right extents precisely if the deviation along x is not the
larger one. -/
theorem C46_iff (t : Target ℝ) (frame : String) (i : Nat) (mu s : V2 ℝ)
    (g : Gaussian ℝ) (hg : t.gaussians[i]? = some g) (h : Gaussian.new mu s = .ok g) :
    (∀ m, (t.markers frame)[i]? = some m → m.sx = 2 * (s.c0 * s.c0) ∧ m.sy = 2 * (s.c1 * s.c1)) ↔
      |s.c0| ≤ |s.c1| := by
  constructor
  · intro hm
    by_contra hn
    obtain ⟨m, h1, -⟩ := (C46_markers t frame).2 i g hg
    obtain ⟨a1, -, a3⟩ := C46_refuted_swapped t frame i mu s g hg h (by linarith) m h1
    obtain ⟨b1, b2⟩ := hm m h1
    have := abs_le_of_sq_le_sq' (a := s.c0) (b := |s.c1|) (by rw [sq_abs]; nlinarith) (abs_nonneg _)
    exact hn (abs_le.mpr this)
  · exact C46_extent_partial t frame i mu s g hg h

/-- C53, sharp: the step is exact for a constant derivative precisely if the derivative is zero. -/
theorem C53_iff {U : Type} (x d : V3 ℝ) (u : U) (h : ℝ) (hh : 0 < h) :
    RungeKutta45.step (fun _ (_ : U) => .ok d) x u h = .ok (x.add (V3.smul h d), 0) ↔ d = ⟨0, 0, 0⟩ := by
  rw [C53_constant_partial x d u h hh]
  constructor
  · intro e
    simp only [Res.ok.injEq, Prod.mk.injEq, V3.add, V3.smul, V3.mk.injEq, real_add, real_mul] at e
    obtain ⟨⟨e0, e1, e2⟩, -⟩ := e
    have key : ∀ {a b : ℝ}, a + h * (1 + 2197 / 5610168) * b = a + h * b → b = 0 := by
      intro a b hab
      have : h * b = 0 := by linarith
      rcases mul_eq_zero.mp this with h' | h'
      · exact absurd h' hh.ne'
      · exact h'
    cases d
    simp only [V3.mk.injEq]
    exact ⟨key e0, key e1, key e2⟩
  · rintro rfl
    simp [V3.add, V3.smul, supNorm]

/-! ## C64 the update of the whole signal -/

/-- C64: with limits in order, the update of the signal succeeds iff there is a co-state for every state, replaces
every column by the update of that column and else throws: it is never undefined. -/
theorem C64_signal {F : Type} [Flt F] (e : ErgodicControl F) (h0 : Flt.lt e.umax.c0 e.umin.c0 = false)
    (h1 : Flt.lt e.umax.c1 e.umin.c1 = false) (h2 : Flt.lt e.umax.c2 e.umin.c2 = false) (xs rs : List (V3 F)) :
    if xs.length ≤ rs.length then ∃ us, e.updateLoop xs rs = .ok us ∧ us.length = xs.length ∧
        ∀ (i : Nat) (x r : V3 F), xs[i]? = some x → rs[i]? = some r → ∃ u, us[i]? = some u ∧ e.newControl x r = .ok u
      else e.updateLoop xs rs = .throw .logicError := by
  have hnc : ∀ x r, ∃ v, e.newControl x r = .ok v := fun x r => by
    simp [ErgodicControl.newControl, ErgodicControl.clampR, h0, h1, h2]
  have key : ∀ xs rs : List (V3 F), if xs.length ≤ rs.length then ∃ us, e.updateLoop xs rs = .ok us
      else e.updateLoop xs rs = .throw .logicError := by
    intro xs
    induction xs with
    | nil => intro rs; rw [if_pos (by simp)]; exact ⟨[], rfl⟩
    | cons x xs ih =>
      intro rs
      cases rs with
      | nil => rw [if_neg (by simp)]; rfl
      | cons r rs =>
        obtain ⟨v, hv⟩ := hnc x r
        have := ih rs
        split at this
        · obtain ⟨us, hus⟩ := this
          rw [if_pos (by simp only [List.length_cons]; omega)]
          exact ⟨v :: us, by simp only [ErgodicControl.updateLoop, hv, hus, Res.ok_bind]⟩
        · rw [if_neg (by simp only [List.length_cons]; omega)]
          simp only [ErgodicControl.updateLoop, hv, this, Res.ok_bind]
          rfl
  have := key xs rs
  split at this
  · obtain ⟨us, hus⟩ := this
    obtain ⟨a, -, b⟩ := ErgodicControl.updateLoop_ok e xs rs us hus
    rw [if_pos (by assumption)]
    exact ⟨us, hus, a, b⟩
  · rw [if_neg (by assumption)]
    exact this

/-- Limits in order, one state and no co-state: an exception. -/
example (e : ErgodicControl ℝ) (h : e.umin = ⟨-1, -1, -1⟩) (h' : e.umax = ⟨1, 1, 1⟩) :
    e.updateLoop [⟨0, 0, 0⟩] [] = .throw .logicError := by
  have := C64_signal e (by rw [h, h', real_lt_false]; norm_num) (by rw [h, h', real_lt_false]; norm_num)
    (by rw [h, h', real_lt_false]; norm_num) [⟨0, 0, 0⟩] []
  simpa using this

end Ergodic
