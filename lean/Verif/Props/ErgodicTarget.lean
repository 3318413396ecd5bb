import Verif.Props.ErgodicControl

/-!
# Properties C61 and C62: target coefficients of the ergodic controller
-/

namespace Ergodic
open Finset

/-! ## C62 the grid -/

theorem accumList_real (d : ℝ) : ∀ (n : Nat) (s : ℝ), ErgodicControl.accumList s d n =
    (List.range n).map fun k : Nat => s + k * d := by
  intro n
  induction n with
  | zero => intro s; rfl
  | succ n ih =>
    intro s
    rw [ErgodicControl.accumList, ih, List.range_succ_eq_map, List.map_cons, List.map_map, real_add]
    congr 1
    · simp
    · apply List.map_congr_left
      intro k _
      simp only [Function.comp_apply, Nat.succ_eq_add_one]
      push_cast
      ring

/-- the rows of the grid, one after the other -/
noncomputable def gridList (res : ℝ) (nx ny : Nat) : List (V2 ℝ) :=
  (List.range ny).flatMap fun i : Nat => (List.range nx).map fun j : Nat => ⟨j * res, i * res⟩

theorem gridList_length (res : ℝ) (nx ny : Nat) : (gridList res nx ny).length = nx * ny := by
  simp [gridList, List.length_flatMap, List.map_const', Nat.mul_comm]

theorem gridList_get (res : ℝ) (nx : Nat) : ∀ (ny i j : Nat), i < ny → j < nx →
    (gridList res nx ny)[i * nx + j]? = some ⟨j * res, i * res⟩ := by
  intro ny
  induction ny with
  | zero => intro i j hi; omega
  | succ ny ih =>
    intro i j hi hj
    have hs : gridList res nx (ny + 1) = gridList res nx ny ++
        (List.range nx).map fun j : Nat => ⟨j * res, ny * res⟩ := by
      simp [gridList, List.range_succ, List.flatMap_append]
    have hl := gridList_length res nx ny
    rw [hs]
    rcases Nat.lt_or_ge i ny with h | h
    · rw [List.getElem?_append_left (by rw [hl]; nlinarith)]
      exact ih i j h hj
    · have : i = ny := by omega
      subst this
      rw [List.getElem?_append_right (by rw [hl, Nat.mul_comm]; omega), hl, Nat.mul_comm nx,
        Nat.add_sub_cancel_left, List.getElem?_map, List.getElem?_range hj]
      rfl

theorem axisLength_real {l res : ℝ} (hl : 0 ≤ l) (hr : 0 < res)
    (h : ⌊l / res + 1 / 2⌋₊ < 2 ^ 32) :
    axisLength (lit 0 0) l res = .ok (UInt32.ofNat ⌊l / res + 1 / 2⌋₊) := by
  have hq : 0 ≤ l / res := by positivity
  unfold axisLength
  simp only [real_sub, real_div, real_round, real_lit, realRound]
  norm_num
  rw [if_pos hq]
  have hn : ((⌊l / res + 1 / 2⌋ : Int) : ℝ) = ((⌊l / res + 1 / 2⌋₊ : Nat) : ℝ) := by
    rw [natCast_floor_eq_intCast_floor (by positivity)]
  rw [hn]
  exact castU32_natCast h

theorem phiGrid_real (lx ly res : ℝ) (hx : 0 ≤ lx) (hy : 0 ≤ ly) (hr : 0 < res) (nx ny : Nat)
    (hnx : nx = ⌊lx / res + 1 / 2⌋₊ + 1) (hny : ny = ⌊ly / res + 1 / 2⌋₊ + 1)
    (h : nx * ny < 2 ^ 32) : ErgodicControl.phiGrid lx ly res = .ok (gridList res nx ny) := by
  have h1 : nx < 2 ^ 32 := by nlinarith
  have h2 : ny < 2 ^ 32 := by nlinarith
  unfold ErgodicControl.phiGrid
  rw [axisLength_real hx hr (by omega), Res.ok_bind, axisLength_real hy hr (by omega), Res.ok_bind]
  have t1 : (UInt32.ofNat ⌊lx / res + 1 / 2⌋₊ + 1).toNat = nx := by
    rw [UInt32.toNat_add, UInt32.toNat_ofNat_of_lt' (by unfold UInt32.size; omega),
      show UInt32.toNat 1 = 1 from rfl, Nat.mod_eq_of_lt (by omega)]
    omega
  have t2 : (UInt32.ofNat ⌊ly / res + 1 / 2⌋₊ + 1).toNat = ny := by
    rw [UInt32.toNat_add, UInt32.toNat_ofNat_of_lt' (by unfold UInt32.size; omega),
      show UInt32.toNat 1 = 1 from rfl, Nat.mod_eq_of_lt (by omega)]
    omega
  dsimp only
  rw [if_neg (by rw [UInt32.toNat_mul, t1, t2, Nat.mod_eq_of_lt h]; omega), t1, t2, accumList_real,
    accumList_real]
  congr 1
  simp [gridList, List.flatMap_map, List.map_map, Function.comp_def]

/-- C62: the target grid is row-major with `nx × ny` points at multiples of the resolution,
starting at the corner of the map; its last column and row are within half a resolution of the
map's size. -/
theorem C62_grid (lx ly res : ℝ) (hx : 0 ≤ lx) (hy : 0 ≤ ly) (hr : 0 < res) (nx ny : Nat)
    (hnx : nx = ⌊lx / res + 1 / 2⌋₊ + 1) (hny : ny = ⌊ly / res + 1 / 2⌋₊ + 1)
    (h : nx * ny < 2 ^ 32) :
    ∃ pts, ErgodicControl.phiGrid lx ly res = .ok pts ∧ pts.length = nx * ny ∧
      (∀ i j, i < ny → j < nx → pts[i * nx + j]? = some ⟨j * res, i * res⟩) ∧
      |((nx : ℝ) - 1) * res - lx| ≤ res / 2 ∧ |((ny : ℝ) - 1) * res - ly| ≤ res / 2 := by
  refine ⟨_, phiGrid_real lx ly res hx hy hr nx ny hnx hny h, gridList_length _ _ _,
    fun i j hi hj => gridList_get res nx ny i j hi hj, ?_, ?_⟩
  all_goals
    first | rw [hnx] | rw [hny]
    rw [abs_le]
    push_cast
  · have h1 := Nat.floor_le (show 0 ≤ lx / res + 1 / 2 by positivity)
    have h2 := Nat.lt_floor_add_one (lx / res + 1 / 2)
    have e : lx = lx / res * res := by field_simp
    constructor <;> nlinarith
  · have h1 := Nat.floor_le (show 0 ≤ ly / res + 1 / 2 by positivity)
    have h2 := Nat.lt_floor_add_one (ly / res + 1 / 2)
    have e : ly = ly / res * res := by field_simp
    constructor <;> nlinarith

/-- C62: every point of the map is within half a resolution of a grid point, per axis. -/
theorem C62_covers (lx ly res : ℝ) (hx : 0 ≤ lx) (hy : 0 ≤ ly) (hr : 0 < res) (nx ny : Nat)
    (hnx : nx = ⌊lx / res + 1 / 2⌋₊ + 1) (hny : ny = ⌊ly / res + 1 / 2⌋₊ + 1)
    (h : nx * ny < 2 ^ 32) (x y : ℝ) (hx0 : 0 ≤ x) (hx1 : x ≤ lx) (hy0 : 0 ≤ y) (hy1 : y ≤ ly) :
    ∃ pts p, ErgodicControl.phiGrid lx ly res = .ok pts ∧ p ∈ pts ∧ |p.c0 - x| ≤ res / 2 ∧
      |p.c1 - y| ≤ res / 2 := by
  obtain ⟨pts, hp, -, hg, -, -⟩ := C62_grid lx ly res hx hy hr nx ny hnx hny h
  have near : ∀ l z : ℝ, 0 ≤ z → z ≤ l → ⌊z / res + 1 / 2⌋₊ < ⌊l / res + 1 / 2⌋₊ + 1 ∧
      |(⌊z / res + 1 / 2⌋₊ : ℝ) * res - z| ≤ res / 2 := by
    intro l z h0 h1
    have hq : 0 ≤ z / res := by positivity
    refine ⟨Nat.lt_succ_of_le (Nat.floor_le_floor (by gcongr)), ?_⟩
    have a := Nat.floor_le (show 0 ≤ z / res + 1 / 2 by positivity)
    have b := Nat.lt_floor_add_one (z / res + 1 / 2)
    have e : z = z / res * res := by field_simp
    rw [abs_le]; constructor <;> nlinarith
  obtain ⟨a1, a2⟩ := near lx x hx0 hx1
  obtain ⟨b1, b2⟩ := near ly y hy0 hy1
  exact ⟨pts, _, hp, List.mem_of_getElem? (hg _ _ (hny ▸ b1) (hnx ▸ a1)), a2, b2⟩

/-- C62: when the number of points does not fit an `unsigned int` the construction throws. -/
theorem C62_too_many (lx ly res : ℝ) (hx : 0 ≤ lx) (hy : 0 ≤ ly) (hr : 0 < res) (nx ny : Nat)
    (hnx : nx = ⌊lx / res + 1 / 2⌋₊ + 1) (hny : ny = ⌊ly / res + 1 / 2⌋₊ + 1)
    (h1 : nx < 2 ^ 32) (h2 : ny < 2 ^ 32) (h : 2 ^ 32 ≤ nx * ny) :
    ErgodicControl.phiGrid lx ly res = .throw .logicError := by
  unfold ErgodicControl.phiGrid
  rw [axisLength_real hx hr (by omega), Res.ok_bind, axisLength_real hy hr (by omega), Res.ok_bind]
  have t1 : (UInt32.ofNat ⌊lx / res + 1 / 2⌋₊ + 1).toNat = nx := by
    rw [UInt32.toNat_add, UInt32.toNat_ofNat_of_lt' (by unfold UInt32.size; omega),
      show UInt32.toNat 1 = 1 from rfl, Nat.mod_eq_of_lt (by omega)]
    omega
  have t2 : (UInt32.ofNat ⌊ly / res + 1 / 2⌋₊ + 1).toNat = ny := by
    rw [UInt32.toNat_add, UInt32.toNat_ofNat_of_lt' (by unfold UInt32.size; omega),
      show UInt32.toNat 1 = 1 from rfl, Nat.mod_eq_of_lt (by omega)]
    omega
  dsimp only
  rw [if_pos]
  rw [UInt32.toNat_mul, t1, t2]
  have := Nat.mod_lt (nx * ny) (show 0 < 2 ^ 32 by norm_num)
  omega

example : (0:ℝ) ≤ 10 ∧ (0:ℝ) < 0.1 ∧ (101 : Nat) = ⌊(10:ℝ) / 0.1 + 1 / 2⌋₊ + 1 ∧
    101 * 101 < 2 ^ 32 := by
  refine ⟨by norm_num, by norm_num, ?_, by norm_num⟩
  rw [show (10:ℝ) / 0.1 + 1 / 2 = 100 + 1 / 2 by norm_num]
  have : ⌊(100:ℝ) + 1 / 2⌋₊ = 100 := by
    rw [Nat.floor_eq_iff (by norm_num)]; constructor <;> norm_num
  rw [this]

/-! ## C61 coefficients follow target and map -/

theorem sum_range_list (f : Nat → ℝ) (n : Nat) : ((List.range n).map f).sum = ∑ i ∈ range n, f i := by
  induction n with
  | zero => simp
  | succ n ih => simp [List.range_succ, ih, Finset.sum_range_succ]

theorem gridList_sum (h : V2 ℝ → ℝ) (res : ℝ) (nx : Nat) : ∀ ny,
    ((gridList res nx ny).map h).sum = ∑ r ∈ range ny, ∑ c ∈ range nx, h ⟨c * res, r * res⟩ := by
  intro ny
  induction ny with
  | zero => simp [gridList]
  | succ ny ih =>
    have hs : gridList res nx (ny + 1) = gridList res nx ny ++
        (List.range nx).map fun j : Nat => ⟨j * res, ny * res⟩ := by
      simp [gridList, List.range_succ, List.flatMap_append]
    rw [hs, List.map_append, List.sum_append, ih, Finset.sum_range_succ, List.map_map,
      ← sum_range_list]
    rfl

theorem spatialCoeff_fill (n : Nat) (t : Target ℝ) (g : GridMap ℝ) (res : ℝ) (nx ny : Nat)
    (c : List ℝ)
    (h : (Basis.new (g.xmax - g.xmin) (g.ymax - g.ymin) n).spatialCoeff
      (t.fill ⟨g.xmin, g.ymin⟩ (gridList res nx ny)) (gridList res nx ny) = .ok c)
    (hnx : nx = ⌊(g.xmax - g.xmin) / res + 1 / 2⌋₊ + 1)
    (hny : ny = ⌊(g.ymax - g.ymin) / res + 1 / 2⌋₊ + 1) : RightCoeffs n t g res c := by
  have hlen : (t.fill ⟨g.xmin, g.ymin⟩ (gridList res nx ny)).length = (gridList res nx ny).length := by
    simp [Target.fill]
  unfold RightCoeffs
  dsimp only
  rw [← hnx, ← hny]
  have hcl : c.length = n * n := by
    rw [spatialCoeff_length h]; exact (C39_enumeration ℝ _ _ n).1
  refine ⟨hcl, ?_⟩
  intro i j hi hj
  obtain ⟨c', hc', -, hv⟩ := C42_entry (g.xmax - g.xmin) (g.ymax - g.ymin) n i j hi hj _ _ hlen
  rw [h, Res.ok.injEq] at hc'
  subst hc'
  rw [hv]
  congr 1
  have hev : ∀ p : V2 ℝ, t.evaluate p ⟨g.xmin, g.ymin⟩ =
      (t.gaussians.map fun G => G.eval ⟨g.xmin + p.c0, g.ymin + p.c1⟩).sum := by
    intro p
    rw [evaluate_eq]
    congr 1
    apply List.map_congr_left
    intro G _
    simp only [Gaussian.evalTrans, Gaussian.eval, V2.sub, real_sub]
    congr 2 <;> ring
  have hfill : t.fill ⟨g.xmin, g.ymin⟩ (gridList res nx ny) = (gridList res nx ny).map fun p =>
      (t.gaussians.map fun G => G.eval ⟨g.xmin + p.c0, g.ymin + p.c1⟩).sum /
        ((gridList res nx ny).map fun p =>
          (t.gaussians.map fun G => G.eval ⟨g.xmin + p.c0, g.ymin + p.c1⟩).sum).sum := by
    unfold Target.fill
    simp only [fsum_real, real_div, List.map_map, hev]
    rfl
  rw [hfill, ← gridList_sum (fun p => (t.gaussians.map fun G =>
      G.eval ⟨g.xmin + p.c0, g.ymin + p.c1⟩).sum), List.zipWith_map_right]
  generalize ((gridList res nx ny).map fun p =>
          (t.gaussians.map fun G => G.eval ⟨g.xmin + p.c0, g.ymin + p.c1⟩).sum).sum = S
  rw [List.zipWith_self, ← gridList_sum (fun p => cosBasis (g.xmax - g.xmin) (g.ymax - g.ymin) j i p.c0 p.c1 *
      (t.gaussians.map fun G => G.eval ⟨g.xmin + p.c0, g.ymin + p.c1⟩).sum)]
  rw [← sum_map_div, List.map_map]
  congr 1
  apply List.map_congr_left
  intro p _
  simp only [Function.comp_apply]
  ring

section
variable {model : TwistModel ℝ} {collision : Collision ℝ}
  {dt horizon resolution weight : ℝ} {num_basis buffer_size batch_size : Nat} {Rinv : M3 ℝ}
  {umin umax : V3 ℝ} {e e' : ErgodicControl ℝ} {g : GridMap ℝ} {x u : V3 ℝ} {draws : List Nat}

/-- C61 when the map size differs from the size of the last recomputation (by at least `1e-12`
along an axis; in particular on the first call): the coefficients in use afterwards are those of
the current target in the current map frame.  Missing: calls with the same map size. -/
theorem C61_new_size_partial (hb : EcBuilt model collision dt horizon resolution weight num_basis
      buffer_size batch_size Rinv umin umax e) (h : e.control g x draws = .ok (e', u))
    (hres : 0 < resolution) (hx : g.xmin ≤ g.xmax) (hy : g.ymin ≤ g.ymax)
    (hfit : (⌊(g.xmax - g.xmin) / resolution + 1 / 2⌋₊ + 1) *
      (⌊(g.ymax - g.ymin) / resolution + 1 / 2⌋₊ + 1) < 2 ^ 32)
    (hne : 1 / 10 ^ 12 ≤ |g.xmax - g.xmin - e.basis.lx| ∨
      1 / 10 ^ 12 ≤ |g.ymax - g.ymin - e.basis.ly|) :
    e'.target = e.target ∧ e'.basis.lx = g.xmax - g.xmin ∧ e'.basis.ly = g.ymax - g.ymin ∧
      RightCoeffs num_basis e.target g resolution e'.phik := by
  have hi := hb.inv
  obtain ⟨ec, traj, pre, rhot, us, hcfg, -, -, -, -, -, rfl, -, -, -, -⟩ :=
    ErgodicControl.control_ok hi.steps h
  rcases ErgodicControl.configTarget_ok hcfg with ⟨h1, h2, -⟩ | ⟨-, grid, phik, hg, hp, rfl⟩
  · exfalso
    rw [real_almostEqual] at h1 h2
    simp only [real_sub, real_lit] at h1 h2
    norm_num at h1 h2 hne
    rcases hne with hne | hne <;> linarith
  · refine ⟨rfl, rfl, rfl, ?_⟩
    have hg' := phiGrid_real (g.xmax - g.xmin) (g.ymax - g.ymin) resolution (by linarith)
      (by linarith) hres _ _ rfl rfl hfit
    rw [show ({ e with pose := x } : ErgodicControl ℝ).resolution = e.resolution from rfl,
      hi.resolution_eq] at hg
    rw [show ErgodicControl.phiGrid (g.xmax -. g.xmin) (g.ymax -. g.ymin) resolution = _ from hg',
      Res.ok.injEq] at hg
    subst hg
    obtain ⟨lx, ly, hbas⟩ := hi.basis_eq
    have hb' : ({ e.basis with lx := g.xmax -. g.xmin, ly := g.ymax -. g.ymin } : Basis ℝ) =
        Basis.new (g.xmax - g.xmin) (g.ymax - g.ymin) num_basis := by rw [hbas]; rfl
    exact spatialCoeff_fill num_basis e.target g resolution _ _ phik (by rw [← hb']; exact hp) rfl rfl

/-- C61: a call with the same map size (to `1e-12`) keeps the coefficients, whatever the target
and the origin of the map are. -/
theorem C61_same_size_keeps (hb : EcBuilt model collision dt horizon resolution weight num_basis
      buffer_size batch_size Rinv umin umax e) (h : e.control g x draws = .ok (e', u))
    (hx : |g.xmax - g.xmin - e.basis.lx| < 1 / 10 ^ 12)
    (hy : |g.ymax - g.ymin - e.basis.ly| < 1 / 10 ^ 12) :
    e'.phik = e.phik ∧ e'.target = e.target ∧ e'.basis = e.basis := by
  have hi := hb.inv
  obtain ⟨ec, traj, pre, rhot, us, hcfg, -, -, -, -, -, rfl, -, -, -, -⟩ :=
    ErgodicControl.control_ok hi.steps h
  rcases ErgodicControl.configTarget_ok hcfg with ⟨-, -, rfl⟩ | ⟨h1, -, -, -, -, -⟩
  · exact ⟨rfl, rfl, rfl⟩
  · exfalso
    apply h1
    rw [real_almostEqual, real_almostEqual]
    simp only [real_sub, real_lit]
    norm_num at hx hy ⊢
    exact ⟨hx, hy⟩

/-- C61 for a map that does not move: coefficients that are right for the current target stay
right as long as the map keeps its bounds and the target is not replaced. -/
theorem C61_fixed_map_partial (hb : EcBuilt model collision dt horizon resolution weight num_basis
      buffer_size batch_size Rinv umin umax e) {g' : GridMap ℝ}
    (hr : RightCoeffs num_basis e.target g resolution e.phik)
    (hl : e.basis.lx = g.xmax - g.xmin ∧ e.basis.ly = g.ymax - g.ymin)
    (hg : g'.xmin = g.xmin ∧ g'.xmax = g.xmax ∧ g'.ymin = g.ymin ∧ g'.ymax = g.ymax)
    (h : e.control g' x draws = .ok (e', u)) :
    RightCoeffs num_basis e'.target g' resolution e'.phik ∧
      e'.basis.lx = g'.xmax - g'.xmin ∧ e'.basis.ly = g'.ymax - g'.ymin := by
  obtain ⟨g1, g2, g3, g4⟩ := hg
  obtain ⟨h1, h2, h3⟩ := C61_same_size_keeps hb h (by rw [hl.1, g1, g2]; norm_num)
    (by rw [hl.2, g3, g4]; norm_num)
  refine ⟨?_, ?_, ?_⟩
  · rw [h1, h2]
    unfold RightCoeffs
    rw [g1, g2, g3, g4]
    exact hr
  · rw [h3, hl.1, g1, g2]
  · rw [h3, hl.2, g3, g4]

/-- adding remembered states does not touch target, basis or coefficients -/
theorem C61_memory (e : ErgodicControl ℝ) (x : V3 ℝ) :
    (e.addStateMemory x).phik = e.phik ∧ (e.addStateMemory x).target = e.target ∧
      (e.addStateMemory x).basis = e.basis := ⟨rfl, rfl, rfl⟩

end

/-- Full statement of C61. -/
def C61_statement : Prop :=
  ∀ (model : TwistModel ℝ) (collision : Collision ℝ) (dt horizon resolution weight : ℝ)
    (num_basis buffer_size batch_size : Nat) (Rinv : M3 ℝ) (umin umax : V3 ℝ)
    (e e' : ErgodicControl ℝ) (g : GridMap ℝ) (x u : V3 ℝ) (draws : List Nat),
    EcBuilt model collision dt horizon resolution weight num_basis buffer_size batch_size Rinv
      umin umax e → e.control g x draws = .ok (e', u) →
    RightCoeffs num_basis e.target g resolution e'.phik

theorem configTarget_total (e : ErgodicControl ℝ) (g : GridMap ℝ) (hres : 0 < e.resolution)
    (hx : g.xmin ≤ g.xmax) (hy : g.ymin ≤ g.ymax)
    (hfit : (⌊(g.xmax - g.xmin) / e.resolution + 1 / 2⌋₊ + 1) *
      (⌊(g.ymax - g.ymin) / e.resolution + 1 / 2⌋₊ + 1) < 2 ^ 32) :
    ∃ ec, e.configTarget g = .ok ec := by
  have hg := phiGrid_real (g.xmax - g.xmin) (g.ymax - g.ymin) e.resolution (by linarith)
      (by linarith) hres _ _ rfl rfl hfit
  unfold ErgodicControl.configTarget
  dsimp only
  split
  · exact ⟨_, rfl⟩
  · simp only [real_sub]
    rw [hg, Res.ok_bind]
    unfold Basis.spatialCoeff
    rw [if_neg (by simp [Target.fill]), Res.ok_bind]
    exact ⟨_, rfl⟩

/-! ### A concrete controller -/

/-- unit square map with its lower left corner at `(a, 0)` -/
noncomputable def unitMap (a : ℝ) : GridMap ℝ :=
  { xsize := 1, ysize := 1, resolution := 1, xmin := a, ymin := 0, xmax := a + 1, ymax := 1, data := [0] }

/-- the identity matrix -/
noncomputable def unitWeights : M3 ℝ := ⟨⟨1, 0, 0⟩, ⟨0, 1, 0⟩, ⟨0, 0, 1⟩⟩

/-- reached by calls on a controller with a two-step horizon and four basis functions -/
def DemoBuilt (e : ErgodicControl ℝ) : Prop :=
  EcBuilt omniModel (⟨1, 2, 0.1, 90⟩ : Collision ℝ) 1 2 1 1 2 0 0 unitWeights ⟨-1, -1, -1⟩ ⟨1, 1, 1⟩ e

theorem demo_steps : numSteps (2 : ℝ) 1 = .ok 2 := by
  simp only [numSteps, real_div, real_fabs]
  rw [show |(2:ℝ) / 1| = ((2 : Nat) : ℝ) by norm_num]
  exact castU32_natCast (by norm_num)

theorem demo_new : ∃ e, DemoBuilt e ∧ e.basis.lx = 0 ∧ e.basis.ly = 0 ∧ e.buffer.memory = [] := by
  have h : ∃ e0, ErgodicControl.new omniModel (⟨1, 2, 0.1, 90⟩ : Collision ℝ) 1 2 1 1 2 0 0 unitWeights
      ⟨-1, -1, -1⟩ ⟨1, 1, 1⟩ = .ok e0 ∧ e0.basis.lx = 0 ∧ e0.basis.ly = 0 ∧ e0.buffer.memory = [] := by
    unfold ErgodicControl.new
    rw [demo_steps, Res.ok_bind, if_neg (by decide)]
    exact ⟨_, rfl, by simp [Basis.new], by simp [Basis.new], rfl⟩
  obtain ⟨e0, h0, h1⟩ := h
  exact ⟨e0, ⟨e0, h0, .start⟩, h1⟩

theorem floor_unit : ⌊(1:ℝ) + 1 / 2⌋₊ = 1 := by
  rw [Nat.floor_eq_iff (by norm_num)]; constructor <;> norm_num

theorem demo_control (e : ErgodicControl ℝ) (h : DemoBuilt e) (a : ℝ) (x : V3 ℝ) :
    ∃ e' u, e.control (unitMap a) x [] = .ok (e', u) := by
  have hi := h.inv
  have hsteps : e.steps = 2 := by
    have := hi.steps_eq; rw [demo_steps, Res.ok.injEq] at this; exact this.symm
  refine C60_total h (by rw [hsteps]; decide) (fun y v _ => ⟨_, rfl⟩) ?_ rfl (by simp) ?_ ?_ ?_
  · apply configTarget_total
    · rw [hi.resolution_eq]; norm_num
    · simp [unitMap]
    · simp [unitMap]
    · simp only [hi.resolution_eq, unitMap, add_sub_cancel_left, sub_zero, div_one, floor_unit]
      norm_num
  all_goals rw [real_lt_false]; norm_num

/-- one Gaussian at the origin -/
noncomputable def originTarget : Target ℝ := ⟨[mkGauss 0 0 1 1]⟩

/-- the coefficient of `cos(π x)` on a unit map at `(0, 0)` is positive, on one at `(-1, 0)`
negative -/
theorem demo_sign (phik : List ℝ) :
    (RightCoeffs 2 originTarget (unitMap 0) 1 phik → ∃ c, phik[1]? = some c ∧ 0 < c) ∧
    (RightCoeffs 2 originTarget (unitMap (-1)) 1 phik → ∃ c, phik[1]? = some c ∧ c < 0) := by
  have hq : Real.exp (-(1 / 2)) < 1 := by rw [Real.exp_lt_one_iff]; norm_num
  have hp := Real.exp_pos (-(1 / 2))
  have h1 : Real.exp (-1) = Real.exp (-(1 / 2)) * Real.exp (-(1 / 2)) := by
    rw [← Real.exp_add]; norm_num
  constructor
  · rintro ⟨-, h⟩
    have := h 0 1 (by norm_num) (by norm_num)
    simp only [unitMap, originTarget, List.map_cons, List.map_nil, List.sum_cons, List.sum_nil,
      mkGauss_eval, gauss, cosBasis] at this
    rw [show ((0:ℝ) + 1 - 0) / 1 + 1 / 2 = 1 + 1 / 2 by norm_num,
      show ((1:ℝ) - 0) / 1 + 1 / 2 = 1 + 1 / 2 by norm_num, floor_unit] at this
    simp only [Finset.sum_range_succ, Finset.sum_range_zero] at this
    norm_num at this
    refine ⟨_, this, ?_⟩
    rw [h1]
    generalize Real.exp (-(1 / 2)) = q at hq hp
    apply div_pos <;> nlinarith
  · rintro ⟨-, h⟩
    have := h 0 1 (by norm_num) (by norm_num)
    simp only [unitMap, originTarget, List.map_cons, List.map_nil, List.sum_cons, List.sum_nil,
      mkGauss_eval, gauss, cosBasis] at this
    rw [show ((-1:ℝ) + 1 - -1) / 1 + 1 / 2 = 1 + 1 / 2 by norm_num,
      show ((1:ℝ) - 0) / 1 + 1 / 2 = 1 + 1 / 2 by norm_num, floor_unit] at this
    simp only [Finset.sum_range_succ, Finset.sum_range_zero] at this
    norm_num at this
    refine ⟨_, this, ?_⟩
    rw [h1]
    generalize Real.exp (-(1 / 2)) = q at hq hp
    apply div_neg_of_neg_of_pos <;> nlinarith

/-- C61 is false: after the map moved by its own width without changing size, the controller still
uses the coefficients of the old frame. -/
theorem C61_refuted : ¬ C61_statement := by
  intro hs
  obtain ⟨e0, hb0, hx, hy, -⟩ := demo_new
  have hb1 : DemoBuilt (e0.setTarget originTarget) := by
    obtain ⟨s, h1, h2⟩ := hb0; exact ⟨s, h1, .setTarget _ h2⟩
  obtain ⟨e1, u1, hc1⟩ := demo_control _ hb1 0 ⟨0, 0, 0⟩
  have hb2 : DemoBuilt e1 := hb1.control hc1
  obtain ⟨e2, u2, hc2⟩ := demo_control _ hb2 (-1) ⟨0, 0, 0⟩
  obtain ⟨t1, l1, l2, r1⟩ := C61_new_size_partial hb1 hc1 (by norm_num) (by simp [unitMap]) (by simp [unitMap])
    (by simp only [unitMap, zero_add, sub_zero, div_one, floor_unit]; norm_num)
    (by left; simp only [ErgodicControl.setTarget, hx, unitMap]; norm_num)
  obtain ⟨k, -, -⟩ := C61_same_size_keeps hb2 hc2 (by rw [l1]; simp [unitMap]) (by rw [l2]; simp [unitMap])
  have r2 := hs _ _ _ _ _ _ _ _ _ _ _ _ _ _ _ _ _ _ hb2 hc2
  rw [k, t1] at r2
  obtain ⟨c, hc, hpos⟩ := (demo_sign e1.phik).1 r1
  obtain ⟨c', hc', hneg⟩ := (demo_sign e1.phik).2 r2
  rw [hc, Option.some.injEq] at hc'
  linarith

/-- C61 is false for `setTarget` too: after the first call, on a map that never changes, replacing
the target leaves the coefficients as they were. -/
theorem C61_refuted_setTarget : ∃ (e e' : ErgodicControl ℝ) (t : Target ℝ) (u : V3 ℝ), DemoBuilt e ∧
    RightCoeffs 2 e.target (unitMap 0) 1 e.phik ∧
    (e.setTarget t).control (unitMap 0) ⟨0, 0, 0⟩ [] = .ok (e', u) ∧
    e'.phik = e.phik ∧ ¬ RightCoeffs 2 t (unitMap 0) 1 e'.phik := by
  obtain ⟨e0, hb0, hx, hy, -⟩ := demo_new
  have hb1 : DemoBuilt (e0.setTarget originTarget) := by
    obtain ⟨s, h1, h2⟩ := hb0; exact ⟨s, h1, .setTarget _ h2⟩
  obtain ⟨e1, u1, hc1⟩ := demo_control _ hb1 0 ⟨0, 0, 0⟩
  have hb2 : DemoBuilt e1 := hb1.control hc1
  obtain ⟨t1, l1, l2, r1⟩ := C61_new_size_partial hb1 hc1 (by norm_num) (by simp [unitMap]) (by simp [unitMap])
    (by simp only [unitMap, zero_add, sub_zero, div_one, floor_unit]; norm_num)
    (by left; simp only [ErgodicControl.setTarget, hx, unitMap]; norm_num)
  have hb3 : DemoBuilt (e1.setTarget ⟨[mkGauss 1 0 1 1]⟩) := by
    obtain ⟨s, h1, h2⟩ := hb2; exact ⟨s, h1, .setTarget _ h2⟩
  obtain ⟨e2, u2, hc2⟩ := demo_control _ hb3 0 ⟨0, 0, 0⟩
  obtain ⟨k, -, -⟩ := C61_same_size_keeps hb3 hc2
    (by simp only [ErgodicControl.setTarget]; rw [l1]; simp)
    (by simp only [ErgodicControl.setTarget]; rw [l2]; simp)
  have k' : e2.phik = e1.phik := k
  refine ⟨e1, e2, ⟨[mkGauss 1 0 1 1]⟩, u2, hb2, ?_, hc2, k', ?_⟩
  · rw [t1]; exact r1
  · rw [k']
    intro r2
    have r3 : RightCoeffs 2 originTarget (unitMap (-1)) 1 e1.phik := by
      obtain ⟨hl, h⟩ := r2
      refine ⟨hl, ?_⟩
      intro i j hi hj
      have := h i j hi hj
      simp only [unitMap, originTarget, List.map_cons, List.map_nil, List.sum_cons, List.sum_nil,
        mkGauss_eval, gauss] at this ⊢
      rw [this]
      norm_num [sub_eq_neg_add]
    obtain ⟨c, hc, hpos⟩ := (demo_sign e1.phik).1 r1
    obtain ⟨c', hc', hneg⟩ := (demo_sign e1.phik).2 r3
    rw [hc, Option.some.injEq] at hc'
    linarith

end Ergodic
