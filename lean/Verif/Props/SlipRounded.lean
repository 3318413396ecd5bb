import Verif.Props.Slip
import Verif.Props.ShippedLoop

/-!
# Property C117 in rounded arithmetic
-/

namespace Ergodic
variable {M : Machine}

/-- Distance from a point to the centre of the cell in row `i`, column `j` of cells of side `r` from `(ax, ay)`. -/
noncomputable def away (ax ay r : ℝ) (i j : Int) (p : ℝ × ℝ) : ℝ :=
  √((ax + (j + 1 / 2) * r - p.1) ^ 2 + (ay + (i + 1 / 2) * r - p.2) ^ 2)

/-- The point is in the map and at least `ε` from its edges. -/
def WellInMap (g : GridMap (RDbl M)) (ax ay r ε : ℝ) (p : ℝ × ℝ) : Prop :=
  ax + ε ≤ p.1 ∧ p.1 ≤ ax + g.xsize.toNat * r - ε ∧ ay + ε ≤ p.2 ∧ p.2 ≤ ay + g.ysize.toNat * r - ε

/-- `away` and the distance in cells. -/
theorem away_cells {ax ay r d : ℝ} (hr : 0 < r) (cfg : CollisionConfig) (i j : Int) (p : ℝ × ℝ)
    (hx0 : ax + cfg.cx * r - d ≤ p.1) (hx1 : p.1 ≤ ax + (cfg.cx + 1) * r + d)
    (hy0 : ay + cfg.cy * r - d ≤ p.2) (hy1 : p.2 ≤ ay + (cfg.cy + 1) * r + d) :
    |away ax ay r i j p - √(sqCells cfg i j : ℝ) * r| ≤ √2 * (r / 2 + d) := by
  let o : V3 ℝ := ⟨ax + (j + 1 / 2) * r, ay + (i + 1 / 2) * r, 0⟩
  let q : V3 ℝ := ⟨ax + (cfg.cx + 1 / 2) * r, ay + (cfg.cy + 1 / 2) * r, 0⟩
  let p' : V3 ℝ := ⟨p.1, p.2, 0⟩
  have hd : 0 ≤ r / 2 + d := by linarith
  have h1 : away ax ay r i j p = planar o p' := rfl
  have h2 : √(sqCells cfg i j : ℝ) * r = planar o q := by
    unfold planar
    rw [show √(sqCells cfg i j : ℝ) * r = √(sqCells cfg i j : ℝ) * √(r ^ 2) by
      rw [Real.sqrt_sq hr.le], ← Real.sqrt_mul' _ (sq_nonneg _)]
    congr 1
    simp only [sqCells, o, q]
    push_cast
    ring
  have h3 : planar p' q ≤ √2 * (r / 2 + d) := by
    unfold planar
    rw [show √2 * (r / 2 + d) = √(2 * (r / 2 + d) ^ 2) by
      rw [Real.sqrt_mul' _ (sq_nonneg _), Real.sqrt_sq hd]]
    apply Real.sqrt_le_sqrt
    have a : (p.1 - (ax + (cfg.cx + 1 / 2) * r)) ^ 2 ≤ (r / 2 + d) ^ 2 :=
      sq_le_sq' (by linarith) (by linarith)
    have b : (p.2 - (ay + (cfg.cy + 1 / 2) * r)) ^ 2 ≤ (r / 2 + d) ^ 2 :=
      sq_le_sq' (by linarith) (by linarith)
    simp only [p', q]
    linarith
  have h4 : planar q p' = planar p' q := by unfold planar; ring_nf
  rw [h1, h2, abs_le]
  constructor
  · have := planar_triangle o p' q; linarith
  · have := planar_triangle o q p'; linarith

theorem enlarged_near {a r x x' δ : ℝ} {k k' : Nat} (hr : 0 < r) (hx : x ≤ a + (k + 1) * r + r / 2 ^ 17)
    (hx' : a + k' * r - r / 2 ^ 17 ≤ x') (hd : x' - x ≤ δ) (hδ : δ + r / 2 ^ 15 ≤ r) : (k' : Int) ≤ k + 1 := by
  by_contra hlt
  push Not at hlt
  have h2 : k + 2 ≤ k' := by omega
  have hc : ((k : ℝ) + 2) ≤ k' := by exact_mod_cast h2
  norm_num at *
  nlinarith

theorem slip_rounded {c : Collision (RDbl M)} {g : GridMap (RDbl M)} {ax ay r b s o : ℝ}
    (hs : SensibleRd c g ax ay r b s o) (i j : Int) (ho : Occupied c.occupied_threshold g i j)
    (hb : 1 ≤ cellsRd M b r)
    (hpad : cellsRd M b r + 3 ≤ cellsRd M (M.rnd (b + o)) r ∨
      cellsRd M b r + 2 ≤ cellsRd M (M.rnd (b + o)) r ∧ cellsRd M b r ≤ 21)
    (hsr : cellsRd M (M.rnd (b + o)) r ≤ cellsRd M s r) {ε ρ : ℝ} (rs : Nat → ℝ × ℝ) (ps : Nat → V3 (RDbl M)) (n : Nat)
    (hin : ∀ k ≤ n, Within ε (rs k) (ps k) ∧ WellInMap g ax ay r ε (rs k))
    (hstep : ∀ k < n, |(rs k).1 - (rs (k + 1)).1| ≤ ρ ∧ |(rs k).2 - (rs (k + 1)).2| ≤ ρ ∧
      c.collisionCheck g (ps (k + 1)) = .ok false)
    (hρ : ρ + 2 * ε + r / 2 ^ 15 ≤ r)
    (h0 : b + o + r / 2 ^ 30 + √2 * (r / 2 + (r / 2 ^ 17 + ε)) < away ax ay r i j (rs 0)) :
    (cellsRd M b r + 1) * r - √2 * (r / 2 + (r / 2 ^ 17 + ε)) ≤ away ax ay r i j (rs n) := by
  have hr := hs.placed.positive
  have key : ∀ k ≤ n, ∃ cfg : CollisionConfig, c.config g (ps k) = .ok cfg ∧ InRange g cfg ∧
      cfg.r_bnd = cellsRd M b r ∧ cfg.r_col = cellsRd M (M.rnd (b + o)) r ∧ cfg.r_max = cellsRd M s r ∧
      ∃ (u v : ℕ) (x y : ℝ), cfg.cx = u ∧ cfg.cy = v ∧
        ax + u * r - r / 2 ^ 17 ≤ x ∧ x ≤ ax + (u + 1) * r + r / 2 ^ 17 ∧
        ay + v * r - r / 2 ^ 17 ≤ y ∧ y ≤ ay + (v + 1) * r + r / 2 ^ 17 ∧
        |x - (rs k).1| ≤ ε ∧ |y - (rs k).2| ≤ ε := by
    intro k hk
    obtain ⟨⟨x, y, θ, hp, hx, hy⟩, m1, m2, m3, m4⟩ := hin k hk
    have ax' := abs_le.mp hx
    have ay' := abs_le.mp hy
    obtain ⟨i', j', -, ⟨e1, e2, e3, e4⟩, cfg, h1, h2, h3, h4, h5, h6, h7⟩ := config_rd hs
      (x := x) (y := y) ⟨by linarith, by linarith, by linarith, by linarith⟩ (.fin θ)
    exact ⟨cfg, by rw [hp]; exact h1, h2, h5, h6, h7, _, _, x, y, h3, h4, e1, e2, e3, e4, hx, hy⟩
  have : Nonempty CollisionConfig := ⟨(key 0 (by omega)).choose⟩
  choose! cfgs hcfg using key
  have hd : ∀ k ≤ n, |away ax ay r i j (rs k) - √(sqCells (cfgs k) i j : ℝ) * r| ≤
      √2 * (r / 2 + (r / 2 ^ 17 + ε)) := by
    intro k hk
    obtain ⟨-, -, -, -, -, u, v, x, y, hu, hv, x1, x2, y1, y2, x3, y3⟩ := hcfg k hk
    rw [abs_le] at x3 y3
    apply away_cells hr
    all_goals first | rw [hu] | rw [hv]
    all_goals push_cast; linarith
  have hseal : Sealed (cellsRd M b r) (cellsRd M (M.rnd (b + o)) r) := by
    rcases hpad with h | ⟨h, h'⟩
    · exact sealed_three hb h
    · exact sealed_two hb h' h
  have hrc : cellsRd M b r + 2 ≤ cellsRd M (M.rnd (b + o)) r := by omega
  have hbo : 0 ≤ b + o := add_nonneg hs.bnd0 hs.obs0
  have hcol : cellsRd M (M.rnd (b + o)) r * r ≤ b + o + r / 2 ^ 30 := by
    have hc1 := hs.col1
    have e := (M.err' (show minNormal ≤ 32767 * r by linarith [hs.normal]) (x := b + o) (by
      rw [abs_of_nonneg hbo]; exact hc1)).2
    have := (cells_rd (M := M) hr (M.rnd_nonneg hbo) (by norm_num at e; linarith)).2.2.2.1
    norm_num at e this ⊢
    linarith
  have hk := slip_cells c _ _ hb hrc hseal (fun _ => g) ps cfgs i j (by
    have h1 := hd 0 (by omega)
    rw [abs_le] at h1
    have h2 : (cellsRd M (M.rnd (b + o)) r : ℝ) < √(sqCells (cfgs 0) i j : ℝ) := by
      nlinarith
    have h3 := (Real.lt_sqrt (by
      have : 0 ≤ cellsRd M (M.rnd (b + o)) r := by omega
      exact_mod_cast this)).mp h2
    rw [pow_two] at h3
    exact_mod_cast h3) n (fun k hk => by
    obtain ⟨h1, h2, h3, h4, h5, -⟩ := hcfg k hk
    exact ⟨hs.wf, h1, h2, h3.le, h4, by rw [h5]; exact hsr, ho⟩) (fun k hk => by
    obtain ⟨a1, a2, a3⟩ := hstep k hk
    obtain ⟨-, -, -, -, -, u, v, x, y, hu, hv, x1, x2, y1, y2, x3, y3⟩ := hcfg k hk.le
    obtain ⟨-, -, -, -, -, u', v', x', y', hu', hv', x1', x2', y1', y2', x3', y3'⟩ := hcfg (k + 1) hk
    rw [abs_le] at a1 a2 x3 y3 x3' y3'
    refine ⟨⟨?_, ?_⟩, a3⟩
    · have e1 := enlarged_near (δ := ρ + 2 * ε) hr x2 x1' (by linarith) hρ
      have e2 := enlarged_near (δ := ρ + 2 * ε) hr x2' x1 (by linarith) hρ
      rw [abs_le]; omega
    · have e1 := enlarged_near (δ := ρ + 2 * ε) hr y2 y1' (by linarith) hρ
      have e2 := enlarged_near (δ := ρ + 2 * ε) hr y2' y1 (by linarith) hρ
      rw [abs_le]; omega)
  have hfar := hk.far hb hrc
  rw [max_min_sq] at hfar
  have h1 := hd n le_rfl
  rw [abs_le] at h1
  have h2 : (cellsRd M b r : ℝ) + 1 ≤ √(sqCells (cfgs n) i j : ℝ) := by
    apply Real.le_sqrt_of_sq_le
    rw [pow_two]
    exact_mod_cast hfar
  nlinarith

/-- C117 in rounded arithmetic, with every check at a pose that is up to `ε` from where the robot is: an obstacle
the robot starts away from stays outside its boundary radius, less half a cell's diagonal and the errors.
The padding is in cells as the program computes them: three, or two for robots of fewer than 22 cells. -/
theorem C117_rounded {c : Collision (RDbl M)} {g : GridMap (RDbl M)} {ax ay r b s o : ℝ}
    (hs : SensibleRd c g ax ay r b s o) (i j : Int) (ho : Occupied c.occupied_threshold g i j)
    (hb : 1 ≤ cellsRd M b r)
    (hpad : cellsRd M b r + 3 ≤ cellsRd M (M.rnd (b + o)) r ∨
      cellsRd M b r + 2 ≤ cellsRd M (M.rnd (b + o)) r ∧ cellsRd M b r ≤ 21)
    (hsr : cellsRd M (M.rnd (b + o)) r ≤ cellsRd M s r) {ε ρ : ℝ} (rs : Nat → ℝ × ℝ) (ps : Nat → V3 (RDbl M)) (n : Nat)
    (hin : ∀ k ≤ n, Within ε (rs k) (ps k) ∧ WellInMap g ax ay r ε (rs k))
    (hstep : ∀ k < n, |(rs k).1 - (rs (k + 1)).1| ≤ ρ ∧ |(rs k).2 - (rs (k + 1)).2| ≤ ρ ∧
      c.collisionCheck g (ps (k + 1)) = .ok false)
    (hρ : ρ + 2 * ε + r / 2 ^ 15 ≤ r)
    (h0 : b + o + r / 2 ^ 30 + √2 * (r / 2 + (r / 2 ^ 17 + ε)) < away ax ay r i j (rs 0)) :
    b - √2 * (r / 2 + (r / 2 ^ 17 + ε)) < away ax ay r i j (rs n) := by
  have h := slip_rounded hs i j ho hb hpad hsr rs ps n hin hstep hρ h0
  have hbnd := (cells_rd (M := M) hs.placed.positive hs.bnd0 (by
    have := hs.order; have := hs.search1; have := hs.placed.positive; linarith)).2.2.2.2
  linarith

/-! ## The shipped radii on maps of 0.1 m per cell in single precision -/

/-- C117 for the shipped radii (config/explore_omni.yaml:35-37, config/explore_cart.yaml:29-31) on a map whose message
says 0.1 m per cell in single precision: although every radius is a cell short (`C81_shipped_radii`), an obstacle
farther away than the padded radius does not come closer than 0.7 m, less half a cell's diagonal and the errors. -/
theorem C117_single {occ : RDbl M} {g : GridMap (RDbl M)} {ax ay b s o : ℝ}
    (hs : SensibleRd ⟨lit 7 1, lit 10 1, lit 2 1, occ⟩ g ax ay tenthF32 b s o) (i j : Int) (ho : Occupied occ g i j)
    {ε ρ : ℝ} (rs : Nat → ℝ × ℝ) (ps : Nat → V3 (RDbl M)) (n : Nat)
    (hin : ∀ k ≤ n, Within ε (rs k) (ps k) ∧ WellInMap g ax ay tenthF32 ε (rs k))
    (hstep : ∀ k < n, |(rs k).1 - (rs (k + 1)).1| ≤ ρ ∧ |(rs k).2 - (rs (k + 1)).2| ≤ ρ ∧
      Collision.collisionCheck ⟨lit 7 1, lit 10 1, lit 2 1, occ⟩ g (ps (k + 1)) = .ok false)
    (hρ : ρ + 2 * ε ≤ 0.0999)
    (h0 : 0.9001 + √2 * (tenthF32 / 2 + (tenthF32 / 2 ^ 17 + ε)) < away ax ay tenthF32 i j (rs 0)) :
    0.7 - √2 * (tenthF32 / 2 + (tenthF32 / 2 ^ 17 + ε)) < away ax ay tenthF32 i j (rs n) := by
  obtain ⟨⟨x, y, θ, -, hx, hy⟩, m1, m2, m3, m4⟩ := hin 0 (by omega)
  rw [abs_le] at hx hy
  have hp : InMap g ax ay tenthF32 x y := ⟨by linarith, by linarith, by linarith, by linarith⟩
  obtain ⟨i', j', -, -, cfg, h1, -, -, -, c1, c2, c3⟩ := config_rd hs hp (.fin θ)
  obtain ⟨i2, j2, hw, -⟩ := C80_located g ax ay tenthF32 hs.placed hs.normal hs.x0 hs.y0 x y hp.1 hp.2.1
    hp.2.2.1 hp.2.2.2
  rw [C81_shipped_radii g hs.placed.resolution _ i2 j2 hw occ, Res.ok.injEq] at h1
  subst h1
  dsimp only at c1 c2 c3
  have hb : b + o ≤ 0.9 + 1 / 2 ^ 40 := by
    have e7 := (M.err' minNormal_le_one (x := ((7 : Int) : ℝ) / 10 ^ 1) (by norm_num [abs_of_pos])).2
    have e2 := (M.err' minNormal_le_one (x := ((2 : Int) : ℝ) / 10 ^ 1) (by norm_num [abs_of_pos])).2
    have hb := hs.bnd
    have ho := hs.obs
    dsimp only at hb ho
    rw [RDbl.lit_fin, RDbl.fin_inj] at hb ho
    rw [← hb, ← ho]
    norm_num at e7 e2 ⊢
    linarith
  have hr : (0.1 : ℝ) < tenthF32 ∧ tenthF32 < 0.1001 := by unfold tenthF32; norm_num
  have h := slip_rounded hs i j ho (by rw [← c1]; norm_num) (.inr (by rw [← c1, ← c2]; norm_num))
    (by rw [← c2, ← c3]; norm_num) rs ps n hin hstep (by norm_num at hr hρ ⊢; linarith)
    (by norm_num at hr h0 hb ⊢; linarith)
  rw [← c1] at h
  norm_num at h hr ⊢
  linarith

/-! ## In closed loop -/

/-- Consecutive places of a robot that does roughly what it is told. -/
theorem drivenR_chain {T δ η v w : ℝ} (hT : 0 ≤ T) (hδ : 0 ≤ δ) (hη : 0 ≤ η) (hv : 0 ≤ v) {s0 : Expl (RDbl M)}
    {es : List (Event (RDbl M))} {os : List (List (Out (RDbl M)))} {t : Expl (RDbl M)}
    {l : Option ((ℝ × ℝ) × V3 (RDbl M) × List (V3 (RDbl M)))} {rs : List (ℝ × ℝ)}
    (hdr : DrivenR T δ η s0 es os t l rs)
    (hw : ∀ o ∈ os, ∀ u ∈ twists o, Slow v w u) :
    rs.IsChain (fun a b => |a.1 - b.1| ≤ v * T + η + δ ∧ |a.2 - b.2| ≤ v * T + η + δ) ∧ (l = none → rs = []) ∧
    (∀ r p us, l = some (r, p, us) → rs.getLast? = some r ∧ Within δ r p ∧ ∀ u ∈ us, Slow v w u) := by
  have step : ∀ {r r' : ℝ × ℝ} {p : V3 (RDbl M)} {us : List (V3 (RDbl M))}, Within δ r p → (∀ u ∈ us, Slow v w u) →
      Followed η T r p us r' → |r.1 - r'.1| ≤ v * T + η + δ ∧ |r.2 - r'.2| ≤ v * T + η + δ := by
    intro r r' p us hwi hus hf
    have h0 : 0 ≤ v * T + η + δ := by positivity
    rcases us with _ | ⟨u, us⟩
    · rw [hf.1 rfl]; simpa using h0
    · by_cases hz : u = ⟨.fin 0, .fin 0, .fin 0⟩
      · rw [(hf.2 u (by simp)).1 hz]; simpa using h0
      · obtain ⟨x, y, θ, rfl, hx, hy⟩ := hwi
        obtain ⟨a, b, c, rfl, hsp, -⟩ := hus u (by simp)
        obtain ⟨g0, g1⟩ := (hf.2 _ (by simp)).2 x y θ a b c rfl rfl hz
        have hfl := C76_flow ⟨x, y, θ⟩ ⟨a, b, c⟩ T
        rw [abs_of_nonneg hT] at hfl
        obtain ⟨f0, f1⟩ := planar_le (hfl.trans (mul_le_mul_of_nonneg_right hsp hT))
        rw [abs_le] at hx hy g0 g1 f0 f1 ⊢
        rw [abs_le]; simp only at f0 f1; exact ⟨⟨by linarith, by linarith⟩, by linarith, by linarith⟩
  induction hdr with
  | nil => exact ⟨.nil, fun _ => rfl, by simp⟩
  | @first es os t t' tf draws c msgs g o rs r p hd' he hwi hs ih =>
    obtain ⟨-, h2, -⟩ := ih fun o ho => hw o (by simp [ho])
    have hp : rs = [] := h2 rfl
    subst hp
    refine ⟨.singleton _, by simp, ?_⟩
    · rintro r' p' us hl
      cases hl
      exact ⟨rfl, hwi, hw o (by simp)⟩
  | @next es os t t' tf draws c msgs g o rs r p us r' q hd' he hwi hfo hs ih =>
    obtain ⟨h1, -, h3⟩ := ih fun o ho => hw o (by simp [ho])
    obtain ⟨hlast, hwi', hus⟩ := h3 r p us rfl
    refine ⟨?_, by simp, ?_⟩
    · rw [List.isChain_append]
      refine ⟨h1, .singleton _, ?_⟩
      intro x hx y hy
      rw [hlast] at hx
      simp only [Option.mem_def, Option.some.injEq, List.head?_cons] at hx hy
      subst hx; subst hy
      exact step hwi' hus hfo
    · rintro r'' p' us' hl
      cases hl
      exact ⟨by simp, hwi, hw o (by simp)⟩

/-- C117 for the nodes, in rounded arithmetic and with transforms right up to `δ`, a robot that ends up within `η`
of where a twist leads and callbacks at any moment (the setting of `C116_closed_loop`): on a map that does not
change, with twists that move the robot by less than a cell per period, an obstacle the robot starts away from stays
outside its boundary radius, less half a cell's diagonal and the errors, at every iteration. -/
theorem C117_rounded_loop (hM : AccurateTrig M) {p : Params (RDbl M)} {n : Node (RDbl M)} {o0 : List (Out (RDbl M))}
    (hn : Node.cart p = .ok (n, o0) ∨ Node.omni p = .ok (n, o0)) {dv dd T τ δ η v w X : ℝ} {K : ℕ}
    (hdv : p.val_dt = .fin dv) (hdd : p.dwa_dt = .fin dd) (hv : StepOk dv v w) (hd : StepOk dd v w)
    (hK : K ≤ 2 ^ 40) (hTv : NearInstant T τ K dv p.val_horizon) (hTd : NearInstant T τ K dd p.dwa_horizon)
    (hT : 0 ≤ T) (hδ : 0 ≤ δ) (hη : 0 ≤ η) (hv0 : 0 ≤ v)
    {es : List (Event (RDbl M))} {os : List (List (Out (RDbl M)))} {t : Expl (RDbl M)}
    {l : Option ((ℝ × ℝ) × V3 (RDbl M) × List (V3 (RDbl M)))} {rs : List (ℝ × ℝ)}
    (hdr : DrivenR T δ η n.expl es os t l rs) (m : OccupancyGrid (RDbl M)) (hmaps : ∀ m' ∈ maps es, m' = m)
    (hw : ∀ o ∈ os, ∀ u ∈ twists o, Slow v w u) (hX : ∀ q ∈ poses es, Located X q)
    (hfirst : ∀ x, (poses es).head? = some x → n.expl.collision.collisionCheck (mapOf m) x = .ok false)
    {ε : ℝ} (hε : ε = max δ (η + v * τ + simError v (max dv dd) X K))
    {ax ay r b s o : ℝ} (hs : SensibleRd n.expl.collision (mapOf m) ax ay r b s o) (i j : Int)
    (ho : Occupied n.expl.collision.occupied_threshold (mapOf m) i j) (hb : 1 ≤ cellsRd M b r)
    (hpad : cellsRd M b r + 3 ≤ cellsRd M (M.rnd (b + o)) r ∨
      cellsRd M b r + 2 ≤ cellsRd M (M.rnd (b + o)) r ∧ cellsRd M b r ≤ 21)
    (hsr : cellsRd M (M.rnd (b + o)) r ≤ cellsRd M s r) (hin : ∀ q ∈ rs, WellInMap (mapOf m) ax ay r ε q)
    (hρ : v * T + η + δ + 2 * ε + r / 2 ^ 15 ≤ r)
    (h0 : ∀ q, rs.head? = some q → b + o + r / 2 ^ 30 + √2 * (r / 2 + (r / 2 ^ 17 + ε)) < away ax ay r i j q) :
    ∀ q ∈ rs, b - √2 * (r / 2 + (r / 2 ^ 17 + ε)) < away ax ay r i j q := by
  have hfree := C116_closed_loop hM hn hdv hdd hv hd hK hTv hTd hdr m hmaps hw hX hfirst
  rw [← hε] at hfree
  obtain ⟨hch, -, -⟩ := drivenR_chain hT hδ hη hv0 hdr hw
  intro q hq
  obtain ⟨k, hk, rfl⟩ := List.getElem_of_mem hq
  rw [List.isChain_iff_getElem] at hch
  have : Nonempty (V3 (RDbl M)) := ⟨⟨.fin 0, .fin 0, .fin 0⟩⟩
  choose! P hP using hfree
  let ps : Nat → ℝ × ℝ := fun k => rs.getD k (0, 0)
  have hps : ∀ k, (h : k < rs.length) → ps k = rs[k] := fun k h => by
    simp [ps, List.getD, List.getElem?_eq_getElem h]
  rw [← hps k hk]
  refine C117_rounded hs i j ho hb hpad hsr (ε := ε) (ρ := v * T + η + δ) ps (fun k => P (ps k)) k ?_ ?_ hρ ?_
  · intro k' hk'
    rw [hps k' (by omega)]
    exact ⟨(hP _ (List.getElem_mem _)).1, hin _ (List.getElem_mem _)⟩
  · intro k' hk'
    obtain ⟨a, b⟩ := hch k' (by omega)
    rw [hps k' (by omega), hps (k' + 1) (by omega)]
    exact ⟨a, b, (hP _ (List.getElem_mem _)).2⟩
  · rw [hps 0 (by omega)]
    exact h0 _ (by rw [List.head?_eq_getElem?, List.getElem?_eq_getElem (by omega)])

/-! ## A robot in a hall with a pillar, on binary64 numbers -/

section demo

/-- Numbers of the example: at most a quarter of a metre per second ahead, steps of a second, a look-ahead of
one second, a boundary radius of three metres and a padding of three. -/
noncomputable def hallReal : Params ℝ :=
  { roomReal 0 with
    max_vel_x := 1 / 4, min_vel_x := -(1 / 4), boundary_radius := 3, search_radius := 6, obstacle_threshold := 3 }

noncomputable def hallParams : Params (RDbl ieee) :=
  { roomParams 0 with
    max_vel_x := .fin (1 / 4), min_vel_x := .fin (-(1 / 4)), boundary_radius := .fin 3, search_radius := .fin 6
    obstacle_threshold := .fin 3 }

theorem hall_reads : ReadsAs hallParams hallReal := by
  constructor <;> rfl

/-- A map of twenty by twenty cells of one metre, the first one occupied. -/
noncomputable def hallMsg : OccupancyGrid (RDbl ieee) :=
  { width := 20, height := 20, resolution := .fin 1, originX := .fin 0, originY := .fin 0
    data := 100 :: List.replicate 399 0 }

noncomputable def hallDetector : Collision (RDbl ieee) := ⟨.fin 3, .fin 6, .fin 3, .fin 1⟩

theorem hall_collision : Collision.new hallParams.boundary_radius hallParams.search_radius
    hallParams.obstacle_threshold hallParams.occupied_threshold = .ok hallDetector := by
  have h100 : ieee.rnd 100 = 100 := by exact_mod_cast ieee.int 100 (by norm_num)
  show Collision.new (.fin 3 : RDbl ieee) (.fin 6) (.fin 3) (.fin 1) = _
  unfold Collision.new
  rw [if_neg, if_neg]
  · rfl
  · rw [Bool.or_eq_true, not_or, Bool.not_eq_true, Bool.not_eq_true, RDbl.lit_fin, RDbl.lit_fin,
      RDbl.lt_fin_false, RDbl.lt_fin_false]
    norm_num [ieee.rnd_zero, h100]
  · rw [Bool.not_eq_true, RDbl.lt_fin_false]; norm_num

theorem hall_omni : ∃ n o, Node.omni hallParams = .ok (n, o) ∧ n.up = true := by
  have hc := hall_collision
  have ht := room_target 0
  obtain ⟨ec, hec⟩ := (C66_throws_iff omniModel hallDetector (.fin 1) (.fin 2) (.fin 1) (.fin 1) 2 10 2
    (diag3 (lit 1 0 /. .fin 1) (lit 1 0 /. .fin 1) (lit 1 0 /. .fin 1) : M3 (RDbl ieee))
    ⟨.fin (-(1 / 4)), .fin (-0), .fin (-1)⟩ ⟨.fin (1 / 4), .fin 0, .fin 1⟩ 2 room_steps.1).2 (by decide)
  simp only [hallParams, roomParams] at hc ht
  unfold Node.omni
  simp only [hallParams, roomParams, vecAt, List.getElem?_cons_zero, List.getElem?_cons_succ, Res.ok_bind, ht, hc, hec,
    DynamicWindow.new, room_steps.2]
  refine ⟨_, _, rfl, ?_⟩
  rw [Bool.not_eq_true', RDbl.lt_fin_false]; norm_num

theorem hall_sane : SaneRd ieee hallReal (1 / 2) 2 20 1 := by
  have h2 : ieee.rnd 2 = 2 := by exact_mod_cast ieee.int 2 (by norm_num)
  have hm := minNormal_le_one
  have hL : Lookahead 1 (1 / 2) 2 20 1 ⌊ieee.rnd (1 / 1)⌋₊ := by
    rw [div_one, ieee.rnd_one, Nat.floor_one]
    constructor <;> norm_num
  constructor <;> simp only [hallReal, roomReal]
  case dwa_room => exact hL
  case val_room => exact hL
  case ec_dt => exact hm
  case columns => rw [div_one, h2]; norm_num
  case weights => norm_num
  all_goals norm_num

theorem hall_width : (mapOf hallMsg).xmax -. (mapOf hallMsg).xmin = .fin 20 ∧
    (mapOf hallMsg).ymax -. (mapOf hallMsg).ymin = .fin 20 := by
  have h20 : ieee.rnd 20 = 20 := by exact_mod_cast ieee.int 20 (by norm_num)
  have h : ((.fin 1 : RDbl ieee) *. Flt.ofInt ((20 : UInt32).toNat : Int) +. .fin 0) -. .fin 0 = .fin 20 := by
    rw [show ((20 : UInt32).toNat : Int) = 20 from rfl, RDbl.ofInt_fin, RDbl.mul_fin, RDbl.add_fin, RDbl.sub_fin]
    norm_num [h20]
  exact ⟨h, h⟩

theorem hall_sensible : SensibleRd hallDetector (mapOf hallMsg) 0 0 1 3 6 3 := by
  refine ⟨⟨by decide, ?_⟩, ⟨rfl, rfl, rfl, by norm_num⟩, minNormal_le_one, by decide, by decide, by decide,
    by decide, rfl, rfl, rfl, by norm_num, by norm_num, by norm_num, by norm_num, by norm_num⟩
  show (100 :: List.replicate 399 (0 : Int8)).length = _
  rw [List.length_cons, List.length_replicate]; decide

theorem hall_map_ok : MapOk hallDetector (.fin 1) cornerTarget (mapOf hallMsg) := by
  obtain ⟨hx, hy⟩ := hall_width
  refine ⟨⟨0, 0, 1, 3, 6, 3, hall_sensible⟩, ⟨⟨0, rfl⟩, ⟨0, rfl⟩, ⟨20, hx, by norm_num⟩, 20, hy, by norm_num⟩,
    ⟨20, 20, 1, hx, hy, rfl, by norm_num, by norm_num, by norm_num⟩, ?_⟩
  intro pts h
  obtain ⟨pts', hp, h0⟩ := phiGrid_rd (M := ieee) (lx := 20) (ly := 20) (res := 1) (by norm_num)
    (by norm_num) (by norm_num) (by norm_num) (by norm_num)
  rw [hx, hy, hp] at h
  obtain rfl := Res.ok.inj h
  refine ⟨_, h0, _, List.mem_singleton.mpr rfl, 1, ?_, ?_⟩
  · have hz : (lit 0 0 : RDbl ieee) = .fin 0 := by simp
    simp only [Gaussian.evalTrans, Gaussian.expForm, V2.sub, V2.dot, mapOf, hallMsg, hz, RDbl.sub_fin,
      RDbl.mul_fin, RDbl.add_fin, RDbl.lit_fin, RDbl.exp_fin, sub_zero, mul_zero, zero_mul, add_zero,
      ieee.rnd_zero]
    show RDbl.fin (Ieee.rnd (Real.exp 0)) = _
    rw [Real.exp_zero]
    exact congrArg _ ieee.rnd_one
  · rw [div_le_iff₀ (by positivity), one_mul]
    exact one_le_pow₀ (by norm_num)

theorem hall_occupied (i j : Int) : Occupied (.fin 1 : RDbl ieee) (mapOf hallMsg) i j ↔ i = 0 ∧ j = 0 := by
  have h100 : (lit 100 0 : RDbl ieee) = .fin 100 := by rw [lit_int 100 (by norm_num) (by norm_num)]; norm_num
  constructor
  · rintro ⟨h1, h2, h3, h4, v, hv, hl⟩
    by_contra hn
    have hi : i < 20 := h2
    have hj : j < 20 := h4
    have hv : (100 :: List.replicate 399 (0 : Int8))[i.toNat * 20 + j.toNat]? = some v := hv
    have hv0 : v = 0 := by
      obtain ⟨k, hk⟩ : ∃ k, i.toNat * 20 + j.toNat = k + 1 := ⟨i.toNat * 20 + j.toNat - 1, by omega⟩
      rw [hk, List.getElem?_cons_succ, List.getElem?_replicate] at hv
      split at hv
      · exact (Option.some.inj hv).symm
      · cases hv
    subst hv0
    have h0 : (Flt.ofInt (0 : Int8).toInt : RDbl ieee) = .fin 0 := by
      show (.fin (ieee.rnd ((0 : Int) : ℝ)) : RDbl ieee) = _
      rw [Int.cast_zero, ieee.rnd_zero]
    rw [h100, h0, RDbl.div_fin _ (by norm_num : (100 : ℝ) ≠ 0), zero_div, ieee.rnd_zero, RDbl.lt_fin_false] at hl
    norm_num at hl
  · rintro ⟨rfl, rfl⟩
    refine ⟨by norm_num, by decide, by norm_num, by decide, 100, rfl, ?_⟩
    have h0 : (Flt.ofInt (100 : Int8).toInt : RDbl ieee) = .fin 100 := by
      show (.fin (ieee.rnd ((100 : Int) : ℝ)) : RDbl ieee) = _
      rw [ieee.int 100 (by norm_num)]; norm_num
    rw [h100, h0, RDbl.div_fin _ (by norm_num : (100 : ℝ) ≠ 0), div_self (by norm_num), ieee.rnd_one,
      RDbl.lt_fin_false]

theorem hall_cells : cellsRd ieee 3 1 = 3 ∧ cellsRd ieee (ieee.rnd (3 + 3)) 1 = 6 ∧ cellsRd ieee 6 1 = 6 := by
  have h3 : ieee.rnd 3 = 3 := by exact_mod_cast ieee.int 3 (by norm_num)
  have h6 : ieee.rnd 6 = 6 := by exact_mod_cast ieee.int 6 (by norm_num)
  unfold cellsRd
  norm_num [h3, h6]

theorem hall_free : hallDetector.collisionCheck (mapOf hallMsg) ⟨.fin 10.5, .fin 10.5, .fin 0⟩ = .ok false := by
  have h20 : ((mapOf hallMsg).xsize.toNat : ℝ) = 20 ∧ ((mapOf hallMsg).ysize.toNat : ℝ) = 20 := by
    constructor <;> (show ((20 : UInt32).toNat : ℝ) = 20; rw [show (20 : UInt32).toNat = 20 from rfl]; norm_num)
  have hin : InMap (mapOf hallMsg) 0 0 1 10.5 10.5 := by
    refine ⟨by norm_num, ?_, by norm_num, ?_⟩
    · rw [h20.1]; norm_num
    · rw [h20.2]; norm_num
  obtain ⟨v, hv⟩ := (C87_no_failure hall_sensible hin (.fin 0)).1
  cases v with
  | false => exact hv
  | true =>
    exfalso
    obtain ⟨i, j, k, l, -, ⟨a1, a2, a3, a4⟩, hocc, hd⟩ := C87_sound hall_sensible hin (.fin 0) hv
    obtain ⟨rfl, rfl⟩ := (hall_occupied k l).mp hocc
    norm_num at a1 a2 a3 a4 hd
    have h1 : (9 : ℝ) ≤ i.toNat := by linarith
    have h2 : (9 : ℝ) ≤ j.toNat := by linarith
    nlinarith

/-- the events of an execution with this map and localised iterations -/
noncomputable def strolls (ps : List (ℝ × ℝ)) : List (Event (RDbl ieee)) :=
  .map hallMsg :: ps.map fun r => .tick (some (placeTf r.1 r.2)) [0, 0]

theorem strolls_supplied (ps : List (ℝ × ℝ)) (h : ∀ r ∈ ps, |r.1 - 10.5| ≤ 1 ∧ |r.2 - 10.5| ≤ 1) :
    AllSuppliedRd hallDetector (.fin 1) cornerTarget 10 2 20 1 (strolls ps) := by
  intro pre tf draws post he
  obtain ⟨a, r, b, hps, rfl, rfl, rfl⟩ : ∃ a r b, ps = a ++ r :: b ∧ pre = strolls a ∧
      tf = some (placeTf r.1 r.2) ∧ draws = [0, 0] := by
    rcases pre with _ | ⟨e, pre⟩
    · simp [strolls] at he
    · simp only [strolls, List.cons_append, List.cons.injEq] at he
      obtain ⟨rfl, he⟩ := he
      obtain ⟨a, b, rfl, rfl, hb⟩ := List.map_eq_append_iff.mp he
      obtain ⟨r, b, rfl, hr, -⟩ := List.map_eq_cons_iff.mp hb
      cases hr
      exact ⟨a, r, b, rfl, rfl, rfl, rfl⟩
  have hmaps : maps (strolls a) = [hallMsg] := by
    have : ∀ l : List (ℝ × ℝ), maps (l.map fun r => (Event.tick (some (placeTf r.1 r.2)) [0, 0] :
        Event (RDbl ieee))) = [] := by
      intro l
      induction l with
      | nil => rfl
      | cons x l ih => exact ih
    show hallMsg :: maps _ = _
    rw [this]
  have hm : ∀ m, (maps (strolls a)).getLast? = some m → m = hallMsg := by
    intro m h
    rw [hmaps] at h
    exact (Option.some.inj h).symm
  have hposes : poses (strolls a ++ [.tick (some (placeTf r.1 r.2)) [0, 0]]) =
      poses (strolls a) ++ [⟨.fin r.1, .fin r.2, .fin 0⟩] := by
    rw [poses_append]
    congr 1
    simp only [poses, List.filterMap_cons, place_pose, List.filterMap_nil]
  refine ⟨rfl, ?_, ?_, ?_⟩
  · intro k hk
    have : k = 0 := by simpa using hk
    subst this
    rw [hposes]
    simp
  · intro m h
    rw [hm m h]; exact hall_map_ok
  · intro m x hmm hx
    rw [hm m hmm]
    rw [hposes] at hx
    have hx : (⟨.fin r.1, .fin r.2, .fin 0⟩ : V3 (RDbl ieee)) = x := by simpa using hx
    subst hx
    obtain ⟨h1, h2⟩ := h r (by rw [hps]; simp)
    rw [abs_le] at h1 h2
    refine ⟨r.1, r.2, 0, 0, 0, 1, rfl, ⟨rfl, rfl, rfl, by norm_num⟩, by norm_num, ?_, ?_, ?_⟩
    · rw [abs_le]; constructor <;> linarith
    · rw [abs_le]; constructor <;> linarith
    · norm_num at h1 h2 ⊢
      refine ⟨?_, ?_, ?_, ?_⟩ <;> linarith

theorem strolls_run {n : Node (RDbl ieee)} {o : List (Out (RDbl ieee))} (hn : Node.omni hallParams = .ok (n, o))
    (ps : List (ℝ × ℝ)) (h : ∀ r ∈ ps, |r.1 - 10.5| ≤ 1 ∧ |r.2 - 10.5| ≤ 1) :
    ∃ n' out, n.run (strolls ps) = .ok (n', out) ∧ ∀ u ∈ twists out, Slow (1 / 2) 2 u := by
  have h3 : ((3 : UInt32).toNat : ℝ) = 3 := by rw [show (3 : UInt32).toNat = 3 from rfl]; norm_num
  have h4 : ieee.rnd (1 / 4) = 1 / 4 := Ieee.rnd_rep 1 (-2) (by norm_num) (by norm_num) (by norm_num [zpow_neg])
  refine C99_omni ieee_trig ieee_pow hallParams hallReal n o hallDetector cornerTarget (strolls ps) zero_le_one
    hall_reads hall_sane hall_collision (room_target 0) hn ?_ ?_ ?_ ?_ (strolls_supplied ps h)
  · rintro a b r ⟨a0, a1⟩ ⟨b0, b1⟩ ⟨r0, r1⟩
    simp only [hallReal, hallParams, roomReal, roomParams, h3] at a0 a1 b0 b1 r0 r1
    norm_num at a1 b0 b1 r1
    refine ⟨?_, abs_le.mpr ⟨by linarith, by linarith⟩⟩
    unfold speed
    rw [Real.sqrt_le_left (by norm_num)]
    have ha : a ^ 2 ≤ 0.1 := by nlinarith
    have hb : b ^ 2 ≤ 0.1 := by nlinarith
    dsimp only
    norm_num at ha hb ⊢
    linarith
  · exact ⟨0, 0, 0, rfl, room_axis (by norm_num) (by norm_num) (by norm_num) h4,
      by simpa [hallReal, roomReal] using room_axis (v := 0) (l := 0) (by norm_num) (by norm_num) (by norm_num) ieee.rnd_zero,
      room_axis (by norm_num) (by norm_num) le_rfl ieee.rnd_one⟩
  · intro u hu
    exfalso
    have : odoms (strolls ps) = [] := by
      have : ∀ l : List (ℝ × ℝ), odoms (l.map fun r => (Event.tick (some (placeTf r.1 r.2)) [0, 0] :
          Event (RDbl ieee))) = [] := by
        intro l
        induction l with
        | nil => rfl
        | cons x l ih => exact ih
      exact this ps
    rw [this] at hu
    simp at hu
  · intro x hx
    have : ∀ l : List (ℝ × ℝ), ∀ x ∈ poses (l.map fun r => (Event.tick (some (placeTf r.1 r.2)) [0, 0] :
        Event (RDbl ieee))), V3Num x := by
      intro l
      induction l with
      | nil => intro x hx; simp [poses] at hx
      | cons y l ih =>
        intro x hx
        simp only [poses, List.map_cons, List.filterMap_cons, place_pose, List.mem_cons] at hx
        rcases hx with rfl | hx
        · exact ⟨⟨_, rfl⟩, ⟨_, rfl⟩, _, rfl⟩
        · exact ih x hx
    exact this ps x hx

/-- The hypotheses of `C117_rounded_loop` are met by two iterations on binary64 numbers: the robot carries out the
first twist a millimetre off, and the second transform is a centimetre off. -/
example : ∃ (n : Node (RDbl ieee)) (o0 : List (Out (RDbl ieee))) (es : List (Event (RDbl ieee)))
    (os : List (List (Out (RDbl ieee)))) (t : Expl (RDbl ieee))
    (l : Option ((ℝ × ℝ) × V3 (RDbl ieee) × List (V3 (RDbl ieee)))) (rs : List (ℝ × ℝ)),
    Node.omni hallParams = .ok (n, o0) ∧ StepOk 1 (1 / 2) 2 ∧
    NearInstant 1 0 1 1 hallParams.val_horizon ∧ NearInstant 1 0 1 1 hallParams.dwa_horizon ∧
    DrivenR 1 (1 / 100) (1 / 1000) n.expl es os t l rs ∧
    (∀ m' ∈ maps es, m' = hallMsg) ∧ (∀ o ∈ os, ∀ u ∈ twists o, Slow (1 / 2) 2 u) ∧
    (∀ q ∈ poses es, Located 20 q) ∧
    (∀ x, (poses es).head? = some x → n.expl.collision.collisionCheck (mapOf hallMsg) x = .ok false) ∧
    (1 / 100 : ℝ) = max (1 / 100) (1 / 1000 + 1 / 2 * 0 + simError (1 / 2) (max 1 1) 20 1) ∧
    SensibleRd n.expl.collision (mapOf hallMsg) 0 0 1 3 6 3 ∧
    Occupied n.expl.collision.occupied_threshold (mapOf hallMsg) 0 0 ∧ 1 ≤ cellsRd ieee 3 1 ∧
    cellsRd ieee 3 1 + 3 ≤ cellsRd ieee (ieee.rnd (3 + 3)) 1 ∧ cellsRd ieee (ieee.rnd (3 + 3)) 1 ≤ cellsRd ieee 6 1 ∧
    (∀ q ∈ rs, WellInMap (mapOf hallMsg) 0 0 1 (1 / 100) q) ∧
    (1 / 2 * 1 + 1 / 1000 + 1 / 100 + 2 * (1 / 100) + 1 / 2 ^ 15 : ℝ) ≤ 1 ∧
    (∀ q, rs.head? = some q → 3 + 3 + 1 / 2 ^ 30 + √2 * (1 / 2 + (1 / 2 ^ 17 + 1 / 100)) < away 0 0 1 0 0 q) ∧
    rs.length = 2 ∧ twists os.flatten ≠ [] := by
  obtain ⟨n, o0, hn, hup⟩ := hall_omni
  have hcoll : n.expl.collision = hallDetector := by
    obtain ⟨_, _, _, _, collision, _, _, ⟨-, -, -, -, hc⟩, -, -, he, -⟩ := omni_parts hn
    have hc : collision = hallDetector := (Res.ok.inj (hall_collision.symm.trans hc)).symm
    have h1 := congrArg (fun r => r.1.collision) he
    rw [← hc]
    exact h1
  -- the first iteration
  obtain ⟨n1, out1, hr1, hs1⟩ := strolls_run hn [(10.5, 10.5)] (by simp)
  obtain ⟨x0, oa, out, hm, hr1a, rfl⟩ := run_cons hup hr1
  obtain ⟨t1, o1, out, ht1, hr1b, rfl⟩ := run_cons (n := { n with expl := x0 }) hup hr1a
  have hx0 : n.expl.mapCallback hallMsg = x0 := by
    have : (Res.ok (n.expl.mapCallback hallMsg, []) : Res (Expl (RDbl ieee) × List (Out (RDbl ieee)))) =
      .ok (x0, oa) := hm
    simp only [Res.ok.injEq, Prod.mk.injEq] at this
    exact this.1
  have htw : twists o1 = [t1.u] := by
    have := iteration_twists ht1
    rw [if_pos] at this
    · exact this
    · rw [← hx0]; rfl
  obtain ⟨a, b, c, hu, hsp, hc⟩ := hs1 t1.u (by simp [twists_append, htw])
  -- where the robot is then
  obtain ⟨r', hr', hf⟩ : ∃ r' : ℝ × ℝ, (|r'.1 - 10.5| ≤ 3 / 4 ∧ |r'.2 - 10.5| ≤ 3 / 4) ∧
      Followed (1 / 1000) 1 (10.5, 10.5) (⟨.fin 10.5, .fin 10.5, .fin 0⟩ : V3 (RDbl ieee)) [t1.u] r' := by
    by_cases h0 : t1.u = ⟨.fin 0, .fin 0, .fin 0⟩
    · refine ⟨(10.5, 10.5), by norm_num, by simp, ?_⟩
      intro u hu
      rw [List.mem_singleton] at hu
      subst hu
      exact ⟨fun _ => rfl, fun _ _ _ _ _ _ _ _ h => absurd h0 h⟩
    · have hp := planar_le (C76_flow ⟨10.5, 10.5, 0⟩ ⟨a, b, c⟩ 1)
      have hl : speed ⟨a, b, c⟩ * |(1 : ℝ)| ≤ 1 / 2 := by
        rw [abs_one, mul_one]; exact hsp
      have h1 := abs_le.mp (hp.1.trans hl)
      have h2 := abs_le.mp (hp.2.trans hl)
      refine ⟨((flow ⟨10.5, 10.5, 0⟩ ⟨a, b, c⟩ 1).c0 + 1 / 1000, (flow ⟨10.5, 10.5, 0⟩ ⟨a, b, c⟩ 1).c1),
        ⟨?_, ?_⟩, by simp, ?_⟩
      · rw [abs_le]; constructor <;> linarith
      · rw [abs_le]; constructor <;> linarith
      · intro u hu'
        rw [List.mem_singleton] at hu'
        subst hu'
        refine ⟨fun h => absurd h h0, ?_⟩
        intro x y θ a' b' c' hp' hu' _
        rw [hu] at hu'
        simp only [V3.mk.injEq, RDbl.fin_inj] at hp' hu'
        obtain ⟨rfl, rfl, rfl⟩ := hp'
        obtain ⟨rfl, rfl, rfl⟩ := hu'
        constructor <;> simp
  have g1 := abs_le.mp hr'.1
  have g2 := abs_le.mp hr'.2
  -- the second iteration
  obtain ⟨n2, out2, hr2, hs2⟩ := strolls_run hn [(10.5, 10.5), (r'.1 + 1 / 100, r'.2)] (by
    intro r hr
    simp only [List.mem_cons, List.not_mem_nil, or_false] at hr
    rcases hr with rfl | rfl
    · simp
    · constructor
      · rw [abs_le]; constructor <;> linarith
      · rw [abs_le]; constructor <;> linarith)
  obtain ⟨x0', ob, out', hm', hr2a, rfl⟩ := run_cons hup hr2
  have e0 := hm.symm.trans hm'
  simp only [Res.ok.injEq, Prod.mk.injEq] at e0
  obtain ⟨rfl, rfl⟩ := e0
  obtain ⟨t1', o1', out', ht1', hr2b, rfl⟩ := run_cons (n := { n with expl := x0 }) hup hr2a
  have e1 := ht1.symm.trans ht1'
  simp only [Res.ok.injEq, Prod.mk.injEq] at e1
  obtain ⟨rfl, rfl⟩ := e1
  obtain ⟨t2, o2, out', ht2, hr2c, rfl⟩ := run_cons (n := { n with expl := t1 }) hup hr2b
  have hd1 := DrivenR.first (T := 1) (δ := 1 / 100) (η := 1 / 1000) (r := ((10.5 : ℝ), (10.5 : ℝ)))
    (.nil (s := n.expl)) (place_pose 10.5 10.5 [0, 0]) ⟨10.5, 10.5, 0, rfl, by simp, by simp⟩
    ((iterationT_map n.expl _ _ hallMsg).trans (by rw [hx0]; exact ht1))
  rw [htw] at hd1
  have hd2 := DrivenR.next (r' := r') hd1 (place_pose (r'.1 + 1 / 100) r'.2 [0, 0])
    ⟨_, _, _, rfl, by rw [add_sub_cancel_left]; norm_num [abs_of_pos], by simp⟩ hf
    ((iterationT_plain t1 _ _).trans ht2)
  obtain ⟨c1, c2, c3⟩ := hall_cells
  have hni : NearInstant 1 0 1 1 (.fin 1 : RDbl ieee) := ⟨1, 0, room_steps.2, by decide, Nat.one_pos, by norm_num⟩
  have h20 : ((mapOf hallMsg).xsize.toNat : ℝ) = 20 ∧ ((mapOf hallMsg).ysize.toNat : ℝ) = 20 := by
    constructor <;> (show ((20 : UInt32).toNat : ℝ) = 20; rw [show (20 : UInt32).toNat = 20 from rfl]; norm_num)
  refine ⟨n, o0, _, _, t2, _, _, hn, by constructor <;> norm_num, hni, hni, hd2, ?_, ?_, ?_, ?_, ?_,
    hcoll ▸ hall_sensible, hcoll ▸ (hall_occupied 0 0).mpr ⟨rfl, rfl⟩, by rw [c1]; norm_num, by rw [c1, c2]; norm_num,
    by rw [c2, c3], ?_, by norm_num, ?_, rfl, ?_⟩
  · intro m' hm'
    have : m' ∈ [hallMsg] := hm'
    simpa using this
  · intro o ho u hu
    apply hs2
    simp only [List.nil_append, List.mem_append, List.mem_singleton] at ho
    simp only [twists_append, List.mem_append]
    rcases ho with rfl | rfl
    · exact .inr (.inl hu)
    · exact .inr (.inr (.inl hu))
  · intro q hq
    rw [poses_append, poses_append, poses_append] at hq
    simp only [poses, List.filterMap_cons, place_pose, List.filterMap_nil] at hq
    have hq : q = ⟨.fin 10.5, .fin 10.5, .fin 0⟩ ∨ q = ⟨.fin (r'.1 + 1 / 100), .fin r'.2, .fin 0⟩ := by
      simpa [Slots.all, asEvents, odomCallbacks, Callback.event, Event.pose?] using hq
    rcases hq with rfl | rfl
    · refine ⟨10.5, 10.5, 0, rfl, ?_, ?_, by norm_num⟩ <;> norm_num [abs_of_pos]
    · refine ⟨_, _, 0, rfl, ?_, ?_, by norm_num⟩
      · rw [abs_le]; constructor <;> linarith
      · rw [abs_le]; constructor <;> linarith
  · intro x hx
    have hx : some (⟨.fin 10.5, .fin 10.5, .fin 0⟩ : V3 (RDbl ieee)) = some x := by
      rw [← hx, ← place_pose 10.5 10.5 [0, 0]]
      rfl
    rw [hcoll, ← Option.some.inj hx]
    exact hall_free
  · rw [max_self]
    unfold simError
    norm_num
  · intro q hq
    have hq : q = (10.5, 10.5) ∨ q = r' := by simpa using hq
    unfold WellInMap
    rw [h20.1, h20.2]
    rcases hq with rfl | rfl
    · norm_num
    · norm_num at g1 g2 ⊢
      refine ⟨?_, ?_, ?_, ?_⟩ <;> linarith
  · intro q hq
    have hq : q = (10.5, 10.5) := by simpa using hq.symm
    subst hq
    have h2 : √2 ≤ 2 := by rw [Real.sqrt_le_left (by norm_num)]; norm_num
    refine lt_of_lt_of_le (b := 10) ?_ ?_
    · norm_num
      linarith
    · apply Real.le_sqrt_of_sq_le
      norm_num
  · intro h
    have : t1.u ∈ twists ([o1] ++ [o2]).flatten := by
      simp only [List.flatten_append, List.flatten_singleton, twists_append, List.mem_append]
      left
      rw [htw]; simp
    simp only [List.nil_append] at h
    rw [h] at this
    simp at this

/-! ### Driving 5 cm away from a pillar on a map of 0.1 m per cell in single precision -/

/-- Forty by forty cells, the first one occupied. -/
noncomputable def singleHall : GridMap (RDbl ieee) :=
  { xsize := 40, ysize := 40, resolution := .fin tenthF32, xmin := .fin 0, ymin := .fin 0
    xmax := .fin 4, ymax := .fin 4, data := 100 :: List.replicate 1599 0 }

noncomputable def singleDetector : Collision (RDbl ieee) := ⟨lit 7 1, lit 10 1, lit 2 1, .fin 1⟩

theorem single_occupied (i j : Int) : Occupied (.fin 1 : RDbl ieee) singleHall i j ↔ i = 0 ∧ j = 0 := by
  have h100 : (lit 100 0 : RDbl ieee) = .fin 100 := by rw [lit_int 100 (by norm_num) (by norm_num)]; norm_num
  constructor
  · rintro ⟨h1, h2, h3, h4, v, hv, hl⟩
    by_contra hn
    have hi : i < 40 := h2
    have hj : j < 40 := h4
    have hv : (100 :: List.replicate 1599 (0 : Int8))[i.toNat * 40 + j.toNat]? = some v := hv
    have hv0 : v = 0 := by
      obtain ⟨k, hk⟩ : ∃ k, i.toNat * 40 + j.toNat = k + 1 := ⟨i.toNat * 40 + j.toNat - 1, by omega⟩
      rw [hk, List.getElem?_cons_succ, List.getElem?_replicate] at hv
      split at hv
      · exact (Option.some.inj hv).symm
      · cases hv
    subst hv0
    have h0 : (Flt.ofInt (0 : Int8).toInt : RDbl ieee) = .fin 0 := by
      show (.fin (ieee.rnd ((0 : Int) : ℝ)) : RDbl ieee) = _
      rw [Int.cast_zero, ieee.rnd_zero]
    rw [h100, h0, RDbl.div_fin _ (by norm_num : (100 : ℝ) ≠ 0), zero_div, ieee.rnd_zero, RDbl.lt_fin_false] at hl
    norm_num at hl
  · rintro ⟨rfl, rfl⟩
    refine ⟨by norm_num, by decide, by norm_num, by decide, 100, rfl, ?_⟩
    have h0 : (Flt.ofInt (100 : Int8).toInt : RDbl ieee) = .fin 100 := by
      show (.fin (ieee.rnd ((100 : Int) : ℝ)) : RDbl ieee) = _
      rw [ieee.int 100 (by norm_num)]; norm_num
    rw [h100, h0, RDbl.div_fin _ (by norm_num : (100 : ℝ) ≠ 0), div_self (by norm_num), ieee.rnd_one,
      RDbl.lt_fin_false]

theorem single_sensible : SensibleRd singleDetector singleHall 0 0 tenthF32 (ieee.rnd (7 / 10)) 1 (ieee.rnd (2 / 10)) := by
  have e7 := ieee.err' minNormal_le_one (x := (7 : ℝ) / 10) (by norm_num [abs_of_pos])
  have e2 := ieee.err' minNormal_le_one (x := (2 : ℝ) / 10) (by norm_num [abs_of_pos])
  have hr : (0.1 : ℝ) < tenthF32 ∧ tenthF32 < 0.1001 := by unfold tenthF32; norm_num
  have hm : minNormal ≤ tenthF32 := by
    have := hr.1
    refine minNormal_le_small.trans ?_
    norm_num at this ⊢
    linarith
  norm_num at e7 e2 hr
  refine ⟨⟨by decide, ?_⟩, ⟨rfl, rfl, rfl, by linarith [hr.1]⟩, hm, by decide, by decide, by decide,
    by decide, ?_, ?_, ?_, ?_, ?_, ?_, ?_, ?_⟩
  · show (100 :: List.replicate 1599 (0 : Int8)).length = _
    rw [List.length_cons, List.length_replicate]; decide
  · show (lit 7 1 : RDbl ieee) = _
    rw [RDbl.lit_fin]; norm_num
  · show (lit 10 1 : RDbl ieee) = _
    rw [RDbl.lit_fin]; norm_num [ieee.rnd_one]
  · show (lit 2 1 : RDbl ieee) = _
    rw [RDbl.lit_fin]; norm_num
  all_goals norm_num; linarith

/-- The hypotheses of `C117_single` (and of `C117_rounded`) are met, with the node a millimetre off. -/
example : ∃ (rs : Nat → ℝ × ℝ) (ps : Nat → V3 (RDbl ieee)),
    SensibleRd singleDetector singleHall 0 0 tenthF32 (ieee.rnd (7 / 10)) 1 (ieee.rnd (2 / 10)) ∧
    Occupied (.fin 1 : RDbl ieee) singleHall 0 0 ∧
    (∀ k ≤ 1, Within 0.001 (rs k) (ps k) ∧ WellInMap singleHall 0 0 tenthF32 0.001 (rs k)) ∧
    (∀ k < 1, |(rs k).1 - (rs (k + 1)).1| ≤ 0.05 ∧ |(rs k).2 - (rs (k + 1)).2| ≤ 0.05 ∧
      singleDetector.collisionCheck singleHall (ps (k + 1)) = .ok false) ∧
    (0.05 + 2 * 0.001 : ℝ) ≤ 0.0999 ∧
    0.9001 + √2 * (tenthF32 / 2 + (tenthF32 / 2 ^ 17 + 0.001)) < away 0 0 tenthF32 0 0 (rs 0) := by
  have hr : (0.1 : ℝ) < tenthF32 ∧ tenthF32 < 0.1001 := by unfold tenthF32; norm_num
  have h40 : (singleHall.xsize.toNat : ℝ) = 40 ∧ (singleHall.ysize.toNat : ℝ) = 40 := by
    constructor <;> (show ((40 : UInt32).toNat : ℝ) = 40; rw [show (40 : UInt32).toNat = 40 from rfl]; norm_num)
  refine ⟨fun k => (2 + 0.05 * k, 2), fun k => ⟨.fin (2.001 + 0.05 * k), .fin 2, .fin 0⟩, single_sensible,
    (single_occupied 0 0).mpr ⟨rfl, rfl⟩, ?_, ?_, by norm_num, ?_⟩
  · intro k hk
    have h1 : (k : ℝ) ≤ 1 := by exact_mod_cast hk
    have h0 : (0 : ℝ) ≤ k := k.cast_nonneg
    norm_num at hr
    refine ⟨⟨_, _, _, rfl, ?_, by norm_num⟩, ?_⟩
    · rw [abs_le]; constructor <;> norm_num
    · unfold WellInMap
      rw [h40.1, h40.2]
      norm_num
      refine ⟨?_, ?_, ?_⟩ <;> linarith
  · intro k hk
    obtain rfl : k = 0 := by omega
    refine ⟨by norm_num [abs_of_pos], by norm_num, ?_⟩
    have hin : InMap singleHall 0 0 tenthF32 (2.001 + 0.05 * ((0 + 1 : Nat) : ℝ)) 2 := by
      norm_num at hr
      unfold InMap
      rw [h40.1, h40.2]
      norm_num
      constructor <;> linarith
    obtain ⟨v, hv⟩ := (C87_no_failure single_sensible hin (.fin 0)).1
    cases v with
    | false => exact hv
    | true =>
      exfalso
      obtain ⟨i, j, k, l, -, ⟨a1, a2, a3, a4⟩, hocc, hd⟩ := C87_sound single_sensible hin (.fin 0) hv
      obtain ⟨rfl, rfl⟩ := (single_occupied k l).mp hocc
      have e7 := ieee.err' minNormal_le_one (x := (7 : ℝ) / 10) (by norm_num [abs_of_pos])
      have e2 := ieee.err' minNormal_le_one (x := (2 : ℝ) / 10) (by norm_num [abs_of_pos])
      have b0 := ieee.rnd_nonneg (x := (7 : ℝ) / 10) (by norm_num)
      have o0 := ieee.rnd_nonneg (x := (2 : ℝ) / 10) (by norm_num)
      norm_num at e7 e2 hr a1 a2 a3 a4 hd b0 o0
      have h1 : (1.8 : ℝ) ≤ i.toNat * tenthF32 := by norm_num; linarith
      have h2 : (1 : ℝ) ≥ ieee.rnd (7 / 10) + ieee.rnd (1 / 5) + tenthF32 / 1073741824 := by linarith
      have h3 : (0 : ℝ) ≤ ieee.rnd (7 / 10) + ieee.rnd (1 / 5) + tenthF32 / 1073741824 := by linarith
      nlinarith
  · have h2 : √2 ≤ 2 := by rw [Real.sqrt_le_left (by norm_num)]; norm_num
    refine lt_of_lt_of_le (b := 1.5) ?_ ?_
    · have : √2 * (tenthF32 / 2 + (tenthF32 / 2 ^ 17 + 0.001)) ≤ 2 * (tenthF32 / 2 + (tenthF32 / 2 ^ 17 + 0.001)) := by
        apply mul_le_mul_of_nonneg_right h2
        norm_num at hr ⊢
        linarith
      norm_num at this hr ⊢
      linarith
    · apply Real.le_sqrt_of_sq_le
      norm_num at hr ⊢
      nlinarith

end demo

end Ergodic
