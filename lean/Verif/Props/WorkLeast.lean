import Verif.Props.WorkScan
import Verif.Props.LostPose
import Verif.Props.Running
import Verif.Props.ErgodicTarget

/-!
# C131: the bounds are attained, or missed by a known factor
-/

namespace Ergodic
variable {F : Type} [Flt F]
open Metered

namespace Meter
variable (p : Prices)

/-! ## Rays -/

theorem vertLoop_work_eq (m : OccupancyMapper F) (x0 s : Int) : ∀ (n : Nat) (y : Int) (g g' : GridMap F),
    (vertLoop p m x0 s n y g).res = .ok g' → (vertLoop p m x0 s n y g).work = p.update * n := by
  intro n
  induction n with
  | zero => intros; rfl
  | succ n ih =>
    intro y g g' h
    rw [vertLoop] at h ⊢
    obtain ⟨g1, -, h, e⟩ := bind_work_eq h
    rw [e, ih _ _ _ h, charge_work]
    ring

theorem horzLoop_work_eq (m : OccupancyMapper F) (y0 s : Int) : ∀ (n : Nat) (x : Int) (g g' : GridMap F),
    (horzLoop p m y0 s n x g).res = .ok g' → (horzLoop p m y0 s n x g).work = p.update * n := by
  intro n
  induction n with
  | zero => intros; rfl
  | succ n ih =>
    intro y g g' h
    rw [horzLoop] at h ⊢
    obtain ⟨g1, -, h, e⟩ := bind_work_eq h
    rw [e, ih _ _ _ h, charge_work]
    ring

theorem lineLowLoop_work_eq (m : OccupancyMapper F) (dx dy yi : Int) : ∀ (n : Nat) (x y D c : Int) (g g' : GridMap F),
    0 ≤ c → (lineLowLoop p m dx dy yi n x y D c g).res = .ok g' →
      (lineLowLoop p m dx dy yi n x y D c g).work = p.update * (if c = 0 then n - 1 else n) := by
  intro n
  induction n with
  | zero => intro x y D c g g' _ _; simp [lineLowLoop]
  | succ n ih =>
    intro x y D c g g' hc h
    rw [lineLowLoop] at h ⊢
    by_cases h0 : c = 0
    · rw [if_neg (by simpa using h0)] at h ⊢
      obtain ⟨g1, -, h, e⟩ := bind_work_eq h
      rw [e, ih _ _ _ _ _ _ (by omega) h, if_neg (by omega : ¬ c + 1 = 0), if_pos h0, free_work, Nat.zero_add,
        Nat.add_sub_cancel]
    · rw [if_pos h0] at h ⊢
      obtain ⟨g1, -, h, e⟩ := bind_work_eq h
      rw [e, ih _ _ _ _ _ _ (by omega) h, if_neg (by omega : ¬ c + 1 = 0), if_neg h0, charge_work]
      ring

theorem lineHighLoop_work_eq (m : OccupancyMapper F) (dx dy xi : Int) : ∀ (n : Nat) (x y D c : Int) (g g' : GridMap F),
    0 ≤ c → (lineHighLoop p m dx dy xi n x y D c g).res = .ok g' →
      (lineHighLoop p m dx dy xi n x y D c g).work = p.update * (if c = 0 then n - 1 else n) := by
  intro n
  induction n with
  | zero => intro x y D c g g' _ _; simp [lineHighLoop]
  | succ n ih =>
    intro x y D c g g' hc h
    rw [lineHighLoop] at h ⊢
    by_cases h0 : c = 0
    · rw [if_neg (by simpa using h0)] at h ⊢
      obtain ⟨g1, -, h, e⟩ := bind_work_eq h
      rw [e, ih _ _ _ _ _ _ (by omega) h, if_neg (by omega : ¬ c + 1 = 0), if_pos h0, free_work, Nat.zero_add,
        Nat.add_sub_cancel]
    · rw [if_pos h0] at h ⊢
      obtain ⟨g1, -, h, e⟩ := bind_work_eq h
      rw [e, ih _ _ _ _ _ _ (by omega) h, if_neg (by omega : ¬ c + 1 = 0), if_neg h0, charge_work]
      ring

theorem lineDiagLoop_work_eq (m : OccupancyMapper F) {xi yi x1 y1 : Int} (hxi : xi ≠ 0) (hyi : yi ≠ 0) :
    ∀ (n k : Nat) (x y : Int) (g g' : GridMap F), x1 - x = xi * k → y1 - y = yi * k →
      (lineDiagLoop p m xi yi x1 y1 n x y g).res = .ok g' →
      (lineDiagLoop p m xi yi x1 y1 n x y g).work = p.update * k := by
  intro n
  induction n with
  | zero => intro k x y g g' _ _ h; simp [lineDiagLoop] at h
  | succ n ih =>
    intro k x y g g' hk hk' h
    rw [lineDiagLoop] at h ⊢
    cases k with
    | zero =>
      rw [if_neg (by push_cast at hk; omega)]
      rfl
    | succ k =>
      have hc : x ≠ x1 ∧ y ≠ y1 := by
        constructor
        · rintro rfl
          rw [sub_self] at hk
          exact (mul_ne_zero hxi (by positivity : ((k + 1 : Nat) : Int) ≠ 0)) hk.symm
        · rintro rfl
          rw [sub_self] at hk'
          exact (mul_ne_zero hyi (by positivity : ((k + 1 : Nat) : Int) ≠ 0)) hk'.symm
      rw [if_pos hc] at h ⊢
      obtain ⟨g1, -, h, e⟩ := bind_work_eq h
      rw [e, ih k _ _ _ _ (by push_cast at hk ⊢; linarith) (by push_cast at hk' ⊢; linarith) h, charge_work]
      ring

theorem rayTrace_work_eq (m : OccupancyMapper F) {g g' : GridMap F} {x0 y0 x1 y1 : Int}
    (h : (rayTrace p m g x0 y0 x1 y1).res = .ok g') :
    (rayTrace p m g x0 y0 x1 y1).work = p.update * max (x1 - x0).natAbs (y1 - y0).natAbs := by
  have hlow : ∀ (a b c d : Int) (g g' : GridMap F), (lineLow p m g a b c d).res = .ok g' → 1 ≤ c - a →
      (lineLow p m g a b c d).work = p.update * ((c - a).natAbs - 1) := by
    intro a b c d g g' hg h
    refine (lineLowLoop_work_eq p m _ _ _ _ _ _ _ _ _ _ le_rfl hg).trans ?_
    rw [if_pos rfl]
    congr 1
    omega
  have hhigh : ∀ (a b c d : Int) (g g' : GridMap F), (lineHigh p m g a b c d).res = .ok g' → 1 ≤ d - b →
      (lineHigh p m g a b c d).work = p.update * ((d - b).natAbs - 1) := by
    intro a b c d g g' hg h
    refine (lineHighLoop_work_eq p m _ _ _ _ _ _ _ _ _ _ le_rfl hg).trans ?_
    rw [if_pos rfl]
    congr 1
    omega
  have hsum : ∀ n k : Nat, 1 ≤ n → n = k → p.update + p.update * (n - 1) = p.update * k := by
    intro n k h1 rfl
    obtain ⟨j, rfl⟩ : ∃ j, n = j + 1 := ⟨n - 1, by omega⟩
    rw [Nat.add_sub_cancel]
    ring
  rw [rayTrace] at h ⊢
  split_ifs at h ⊢
  · rw [vertLoop_work_eq p m _ _ _ _ _ _ h]; congr 1; omega
  · rw [vertLoop_work_eq p m _ _ _ _ _ _ h]; congr 1; omega
  · rw [horzLoop_work_eq p m _ _ _ _ _ _ h]; congr 1; omega
  · rw [horzLoop_work_eq p m _ _ _ _ _ _ h]; congr 1; omega
  · obtain ⟨g1, -, h, e⟩ := bind_work_eq h
    rw [e, charge_work, hlow _ _ _ _ _ _ h (by omega)]
    exact hsum _ _ (by omega) (by omega)
  · obtain ⟨g1, -, h, e⟩ := bind_work_eq h
    rw [e, charge_work, hlow _ _ _ _ _ _ h (by omega)]
    exact hsum _ _ (by omega) (by omega)
  · obtain ⟨g1, -, h, e⟩ := bind_work_eq h
    rw [e, charge_work, hhigh _ _ _ _ _ _ h (by omega)]
    exact hsum _ _ (by omega) (by omega)
  · obtain ⟨g1, -, h, e⟩ := bind_work_eq h
    rw [e, charge_work, hhigh _ _ _ _ _ _ h (by omega)]
    exact hsum _ _ (by omega) (by omega)
  · rw [lineDiag] at h ⊢
    rw [lineDiagLoop_work_eq p m (by split <;> decide) (by split <;> decide) _ (x1 - x0).natAbs _ _ _ _
      (by split <;> omega) (by split <;> omega) h]
    congr 1
    omega
  · omega

/-! ## Queries that must be made -/

theorem searchLoop_some (c : Collision F) (g : GridMap F) : ∀ (n : Nat) (r : Int) (cfg : CollisionConfig)
    (q : Bool × CollisionConfig), r ≤ cfg.r_max → 1 ≤ cfg.r_max → (searchLoop p c g n r cfg).res = .ok q →
    p.cell ≤ (searchLoop p c g n r cfg).work := by
  intro n
  induction n with
  | zero => intro r cfg q _ _ h; simp [searchLoop] at h
  | succ n ih =>
    intro r cfg q hr h1 h
    rw [searchLoop, if_pos hr] at h ⊢
    obtain ⟨a, ha, h, e⟩ := bind_work_eq h
    rw [e]
    by_cases hr1 : 1 ≤ r
    · refine le_trans ?_ (Nat.le_add_right _ _)
      rw [bresenhamCircle, circleLoop, if_pos (by omega)] at ha ⊢
      obtain ⟨q, -, -, e4⟩ := bind_work_eq ha
      rw [e4, charge_work]
      exact Nat.le_add_right _ _
    · refine le_trans ?_ (Nat.le_add_left _ _)
      rw [bresenhamCircle, circleLoop, if_neg (by omega)] at ha
      simp only [free_res, Res.ok.injEq] at ha
      subst ha
      simp only [Bool.false_eq_true, if_false] at h ⊢
      exact ih _ _ _ (by omega) h1 h

/-- A query costs at least one cell, whatever it finds. -/
theorem collisionCheck_some {c : Collision F} {g : GridMap F} {x : V3 F} {b : Bool} {B : Int}
    (h : (collisionCheck p c g x).res = .ok b) (hB : castI32 (Flt.floor (c.boundary_radius /. g.resolution)) = .ok B)
    (h1 : 1 ≤ lookout c g) (h2 : B ≤ lookout c g) : p.cell ≤ (collisionCheck p c g x).work := by
  rw [collisionCheck] at h ⊢
  obtain ⟨cfg, hcfg, h, e1⟩ := bind_work_eq h
  obtain ⟨a, ha, h, e2⟩ := bind_work_eq h
  rw [e1, e2]
  rw [free_res] at hcfg
  have hr : cfg.r_max.toNat = lookout c g ∧ cfg.r_bnd = B := by
    unfold Collision.config at hcfg
    simp only [Res.bind_eq_ok, Res.ok.injEq] at hcfg
    obtain ⟨q, -, rb, hb, rc, -, rm, hm, rfl⟩ := hcfg
    refine ⟨?_, by rw [hB] at hb; exact (Res.ok.inj hb).symm⟩
    unfold lookout
    rw [hm]
  refine le_trans ?_ (Nat.le_add_left _ _)
  refine le_trans ?_ (Nat.le_add_right _ _)
  exact searchLoop_some p c g _ _ _ _ (by omega) (by omega) ha

theorem validateLoop_least (c : Collision F) (g : GridMap F) (u : V3 F) (dt : F) {L : Nat}
    (hL : ∀ x, (collisionCheck p c g x).res = .ok false → L ≤ (collisionCheck p c g x).work) : ∀ (n : Nat) (x : V3 F),
    (validateLoop p c g u dt n x).res = .ok true → n * L ≤ (validateLoop p c g u dt n x).work := by
  intro n
  induction n with
  | zero => intro x _; rw [Nat.zero_mul]; exact Nat.zero_le _
  | succ n ih =>
    intro x h
    rw [validateLoop] at h ⊢
    obtain ⟨b, hb, h, e⟩ := bind_work_eq h
    rw [e]
    cases b with
    | true => simp at h
    | false =>
      simp only [Bool.false_eq_true, if_false] at h ⊢
      have := ih _ h
      have := hL _ hb
      rw [Nat.succ_mul]
      omega

theorem rollout_some {d : DynamicWindow F} {g : GridMap F} {u x : V3 F} {n : Nat} {o : Option F} {L : Nat}
    (hL : ∀ x b, (collisionCheck p d.collision g x).res = .ok b → L ≤ (collisionCheck p d.collision g x).work)
    (hn : 1 ≤ n) (h : (rollout p d g u n x).res = .ok o) : L ≤ (rollout p d g u n x).work := by
  obtain ⟨n, rfl⟩ : ∃ k, n = k + 1 := ⟨n - 1, by omega⟩
  rw [rollout] at h ⊢
  obtain ⟨b, hb, h, e⟩ := bind_work_eq h
  rw [e]
  exact le_trans (hL _ _ hb) (Nat.le_add_right _ _)

theorem trajLoop_some {d : DynamicWindow F} {g : GridMap F} {u x : V3 F} {xt : List (V3 F)} {tf t c r : F} {n : Nat} {L : Nat}
    (hL : ∀ x b, (collisionCheck p d.collision g x).res = .ok b → L ≤ (collisionCheck p d.collision g x).work)
    (hn : 1 ≤ n) (h : (trajLoop p d g u xt tf n x t c).res = .ok r) : L ≤ (trajLoop p d g u xt tf n x t c).work := by
  obtain ⟨n, rfl⟩ : ∃ k, n = k + 1 := ⟨n - 1, by omega⟩
  rw [trajLoop] at h ⊢
  obtain ⟨b, hb, h, e⟩ := bind_work_eq h
  rw [e]
  exact le_trans (hL _ _ hb) (Nat.le_add_right _ _)

theorem wLoop_some {cost : V3 F → Metered F} {L : Nat} (hc : ∀ u r, (cost u).res = .ok r → L ≤ (cost u).work) (vx vy dw : F) :
    ∀ (n : Nat) (w : F) (s r : F × V3 F), (wLoop cost vx vy dw n w s).res = .ok r → n * L ≤ (wLoop cost vx vy dw n w s).work := by
  intro n
  induction n with
  | zero => intro w s r _; rw [Nat.zero_mul]; exact Nat.zero_le _
  | succ n ih =>
    intro w s r h
    rw [wLoop] at h ⊢
    obtain ⟨b, hb, h, e⟩ := bind_work_eq h
    rw [e, Nat.succ_mul, Nat.add_comm]
    exact Nat.add_le_add (hc _ _ hb) (ih _ _ _ h)

theorem vyLoop_some {cost : V3 F → Metered F} {L : Nat} (hc : ∀ u r, (cost u).res = .ok r → L ≤ (cost u).work)
    (vx w0 dvy dw : F) (nw : Nat) : ∀ (n : Nat) (v : F) (s r : F × V3 F), (vyLoop cost vx w0 dvy dw nw n v s).res = .ok r →
      n * (nw * L) ≤ (vyLoop cost vx w0 dvy dw nw n v s).work := by
  intro n
  induction n with
  | zero => intro w s r _; rw [Nat.zero_mul]; exact Nat.zero_le _
  | succ n ih =>
    intro w s r h
    rw [vyLoop] at h ⊢
    obtain ⟨b, hb, h, e⟩ := bind_work_eq h
    have := ih _ _ _ h
    have := wLoop_some hc _ _ _ _ _ _ _ hb
    rw [e, Nat.succ_mul]
    omega

theorem vxLoop_some {cost : V3 F → Metered F} {L : Nat} (hc : ∀ u r, (cost u).res = .ok r → L ≤ (cost u).work)
    (vy0 w0 dvx dvy dw : F) (ny nw : Nat) : ∀ (n : Nat) (v : F) (s r : F × V3 F),
    (vxLoop cost vy0 w0 dvx dvy dw ny nw n v s).res = .ok r →
      n * (ny * (nw * L)) ≤ (vxLoop cost vy0 w0 dvx dvy dw ny nw n v s).work := by
  intro n
  induction n with
  | zero => intro w s r _; rw [Nat.zero_mul]; exact Nat.zero_le _
  | succ n ih =>
    intro w s r h
    rw [vxLoop] at h ⊢
    obtain ⟨b, hb, h, e⟩ := bind_work_eq h
    have := ih _ _ _ h
    have := vyLoop_some hc _ _ _ _ _ _ _ _ _ hb
    rw [e, Nat.succ_mul]
    omega

theorem searchWindow_some {cost : V3 F → Metered F} {L : Nat} (hc : ∀ u r, (cost u).res = .ok r → L ≤ (cost u).work)
    {d : DynamicWindow F} {vb : V3 F} {r : Bool × V3 F} (h : (searchWindow d vb cost).res = .ok r) :
    d.vx_samples.toNat * (d.vy_samples.toNat * (d.vth_samples.toNat * L)) ≤ (searchWindow d vb cost).work := by
  rw [searchWindow] at h ⊢
  obtain ⟨b, hb, h, e⟩ := bind_work_eq h
  rw [e]
  exact le_trans (vxLoop_some hc _ _ _ _ _ _ _ _ _ _ _ hb) (Nat.le_add_right _ _)

/-! ## The target -/

theorem evaluateAll_work_eq (t : Target F) (q : V2 F) (grid : List (V2 F)) :
    (evaluateAll p t q grid).work = grid.length * (p.density * t.gaussians.length) := by
  induction grid with
  | nil => simp [evaluateAll]
  | cons x xs ih =>
    rw [evaluateAll, bind_work_ok (each_res _ _ _), bind_work_ok (evaluateAll_res p t q xs), ih, each_work]
    simp only [free_work, List.length_cons]
    ring

theorem spatialLoop_work_eq (b : Basis F) (vals : List F) (grid : List (V2 F)) : ∀ (ks : List (Int × Int)) (l : List F),
    (spatialLoop p b vals grid ks).res = .ok l →
    (spatialLoop p b vals grid ks).work = grid.length * (p.wave * ks.length) := by
  intro ks
  induction ks with
  | nil => intros; simp [spatialLoop]
  | cons k ks ih =>
    intro l h
    rw [spatialLoop] at h ⊢
    obtain ⟨v, -, h, e1⟩ := bind_work_eq h
    obtain ⟨w, hw, h, e2⟩ := bind_work_eq h
    rw [e1, e2, each_work, ih _ hw]
    simp only [free_work, List.length_cons]
    ring

theorem configTarget_work_eq {e e' : ErgodicControl F} {g : GridMap F} (hs : ¬ SameSize e g)
    (h : (configTarget p e g).res = .ok e') :
    (configTarget p e g).work = targetPrice p e (targetPoints e.resolution g) := by
  rw [configTarget] at h ⊢
  dsimp only at h ⊢
  rw [if_neg (by rw [Bool.and_eq_true]; exact hs)] at h ⊢
  obtain ⟨grid, hg, h, e1⟩ := bind_work_eq h
  obtain ⟨vals, hv, h, e2⟩ := bind_work_eq h
  obtain ⟨phik, hp, h, e3⟩ := bind_work_eq h
  rw [free_res] at hg
  have hl : targetPoints e.resolution g = grid.length := by
    unfold targetPoints
    rw [hg]
  rw [e1, e2, e3]
  rw [fill] at hv ⊢
  obtain ⟨w, hw, hv, e4⟩ := bind_work_eq hv
  rw [e4, evaluateAll_work_eq]
  unfold spatialCoeff at hp ⊢
  split at hp
  · cases hp
  · rename_i hn
    rw [if_neg hn, spatialLoop_work_eq p _ _ _ _ _ hp]
    unfold targetPrice
    rw [hl]
    simp only [free_work]
    ring

/-! ## Scans -/

theorem beam_work_eq (m : OccupancyMapper F) {scan : LaserScan F} {T : M3 F} {src : UInt32 × UInt32} {k : Nat} {r : F}
    {g g' : GridMap F} (hs : SmallGrid g) (hc : IsCell g src.1 src.2)
    (h : (beam p m scan T src (beamAngle scan k) r g).res = .ok g') :
    (beam p m scan T src (beamAngle scan k) r g).work = p.update * strokeCells src (beamHit g T scan k r) := by
  have hx : g.xsize ≠ 0 := by have := hc.2; intro h; rw [h] at this; simp at this
  have hy : g.ysize ≠ 0 := by have := hc.1; intro h; rw [h] at this; simp at this
  rw [beam] at h ⊢
  by_cases hv : (Flt.lt scan.range_max r || Flt.lt r scan.range_min) = true
  · rw [if_pos hv, beamHit, if_neg (by simpa [RangeValid, imp_iff_not_or] using hv)]
    rfl
  rw [if_neg hv] at h ⊢
  rw [beamHit, if_pos (by simpa [RangeValid] using hv)]
  obtain ⟨q, hq, h, e⟩ := bind_work_eq h
  rw [e]
  rw [free_res] at hq
  have hq' : g.world2Grid (beamEnd T scan k r).c0 (beamEnd T scan k r).c1 = .ok q := hq
  rw [hq']
  by_cases hin : IsCell g q.1 q.2
  · have hb := (C02_gridBounds_exact_partial g hx hy q.1 q.2).mpr hin
    rw [if_pos hb] at h ⊢
    obtain ⟨g1, h1, h, e2⟩ := bind_work_eq h
    have a1 := hs.1
    have a2 := hs.2
    have a3 := hc.1
    have a4 := hc.2
    have a5 := hin.1
    have a6 := hin.2
    rw [e2, rayTrace_work_eq p m h1, charge_work, free_work, u2i_small (n := src.1) (by omega),
      u2i_small (n := src.2) (by omega), u2i_small (n := q.1) (by omega), u2i_small (n := q.2) (by omega)]
    dsimp only
    rw [if_pos hin]
    rw [strokeCells, span, max_comm]
    ring
  · have hb : ¬ g.gridBounds q.1 q.2 = true := fun hb => hin ((C02_gridBounds_exact_partial g hx hy q.1 q.2).mp hb)
    rw [if_neg hb]
    dsimp only
    rw [if_neg hin]
    rfl

theorem beamLoop_work_eq (m : OccupancyMapper F) {scan : LaserScan F} {T : M3 F} {src : UInt32 × UInt32} {g0 : GridMap F}
    (hs : SmallGrid g0) (hc : IsCell g0 src.1 src.2) : ∀ (rs : List F) (k : Nat) (g g' : GridMap F), SameGeometry g0 g →
    (beamLoop p m scan T src rs (beamAngle scan k) g).res = .ok g' →
    (beamLoop p m scan T src rs (beamAngle scan k) g).work = p.update * scanCells g0 T scan src rs k := by
  intro rs
  induction rs with
  | nil => intros; rfl
  | cons r rs ih =>
    intro k g g' hg h
    rw [beamLoop] at h ⊢
    have ha : beamAngle scan k +. scan.angle_increment = beamAngle scan (k + 1) := by
      unfold beamAngle
      rw [Function.iterate_succ_apply']
    rw [ha] at h ⊢
    obtain ⟨g1, h1, h, e⟩ := bind_work_eq h
    have h1' := h1
    rw [beam_res] at h1'
    have hsg : SmallGrid g := by
      have e : g = { g0 with data := g.data } := hg
      rw [e]; exact hs
    have hcg : IsCell g src.1 src.2 := by
      have e : g = { g0 with data := g.data } := hg
      rw [e]; exact hc
    rw [e, beam_work_eq p m hsg hcg h1, ih _ _ _ (hg.trans (beam_geometry m scan T src _ _ h1')) h, scanCells,
      hg.beamHit, Nat.mul_add]

end Meter

open Meter

/-! ## The property -/

/-- **C131** (scan, exact): a scan that is taken in updates exactly the cells along the beams that end on the map, each
beam's from the robot's cell to its end. -/
theorem C131_scan_exact (p : Prices) (m : OccupancyMapper F) {g g' : GridMap F} {scan : LaserScan F} {pose : V3 F}
    {src : UInt32 × UInt32} (hs : SmallGrid g) (hsrc : g.world2Grid pose.c0 pose.c1 = .ok src) (hc : IsCell g src.1 src.2)
    (h : m.updateMap g scan pose = .ok (true, g')) : (Meter.updateMap p m g scan pose).work =
      p.update * scanCells g (sensorPose m.Tbs pose) scan src scan.ranges 0 := by
  have hx : g.xsize ≠ 0 := by have := hc.2; intro h; rw [h] at this; simp at this
  have hy : g.ysize ≠ 0 := by have := hc.1; intro h; rw [h] at this; simp at this
  rw [← updateMap_res p] at h
  rw [Meter.updateMap] at h ⊢
  obtain ⟨q, hq, h, e⟩ := bind_work_eq h
  rw [free_res] at hq
  obtain rfl : src = q := Res.ok.inj (hsrc.symm.trans hq)
  rw [e]
  have hb := (C02_gridBounds_exact_partial g hx hy src.1 src.2).mpr hc
  rw [if_neg (by simp [hb])] at h ⊢
  obtain ⟨g1, h1, h, e2⟩ := bind_work_eq h
  rw [e2]
  simp only [free_work, Nat.zero_add, Nat.add_zero]
  exact beamLoop_work_eq p m hs hc _ 0 g g1 rfl h1

/-- One beam along a strip of three cells: three updates. -/
example : (Meter.updateMap ⟨0, 0, 0, 0, 0, 1⟩ (OccupancyMapper.new idT) (stripGrid 50 50 50) oneBeam
    ⟨.fin 0.5, .fin 0.5, .fin 0⟩).work = 3 := by
  obtain ⟨g', h, -⟩ := strip_scan
  have hsrc : (stripGrid 50 50 50).world2Grid (.fin 0.5) (.fin 0.5) = .ok (0, 0) :=
    strip_world (i := 0) (j := 0) (by norm_num) (by norm_num) (by norm_num) (by norm_num)
      (by norm_num) (by norm_num)
  rw [C131_scan_exact _ _ (by constructor <;> decide) hsrc (by constructor <;> decide) h]
  show 1 * (strokeCells (0, 0) (beamHit (stripGrid 50 50 50) (sensorPose idT ⟨.fin 0.5, .fin 0.5, .fin 0⟩) oneBeam 0
    (.fin 2)) + 0) = 3
  rw [strip_hit]
  decide

/-- **C131** (new size): a plan on a map of another size costs exactly the price of sampling the target more. -/
theorem C131_plan_anew (p : Prices) {e e' : ErgodicControl F} {g : GridMap F} {x u : V3 F} {draws : List Nat}
    (hs : ¬ SameSize e g) (h : e.control g x draws = .ok (e', u)) : (Meter.control p e g x draws).work =
      targetPrice p e (targetPoints e.resolution g) +
      (p.flow * (4 * rounds e.dt e.horizon) + p.adjoint * (4 * rounds e.dt e.horizon) +
        p.wave * (e.basis.k.length * (min e.buffer.memory.length e.buffer.batch_size + rounds e.dt e.horizon +
          e.steps.toNat))) := by
  rw [← control_res p] at h
  rw [Meter.control] at h ⊢
  obtain ⟨ec, hec, h, e1⟩ := bind_work_eq h
  rw [e1, configTarget_work_eq p (e := { e with pose := x }) hs hec]
  rw [configTarget_res] at hec
  obtain ⟨lx, ly, phik, rfl⟩ := ErgodicControl.configTarget_frame hec
  obtain ⟨ut, -, h, e2⟩ := bind_work_eq h
  rw [e2]
  dsimp only at h ⊢
  obtain ⟨traj, ht, h, e3⟩ := bind_work_eq h
  rw [e3, solve_work_eq p ht]
  obtain ⟨total, hm, h, e4⟩ := bind_work_eq h
  rw [e4]
  rw [free_res] at hm
  rw [solve_res] at ht
  have hl := sampleMemory_len_eq hm
  rw [solve_rounds ht] at hl
  by_cases hn : (List.map (ErgodicControl.toFourier { c0 := g.xmin, c1 := g.ymin }) total).length < e.steps.toNat
  · rw [if_pos hn] at h
    simp at h
  · rw [if_neg hn] at h ⊢
    rw [List.length_map] at hn
    obtain ⟨ck, -, h, e5⟩ := bind_work_eq h
    obtain ⟨edx, -, h, e6⟩ := bind_work_eq h
    obtain ⟨rhot, hr, h, e7⟩ := bind_work_eq h
    obtain ⟨_, -, h, e8⟩ := bind_work_eq h
    obtain ⟨_, -, h, e9⟩ := bind_work_eq h
    rw [e5, e6, e7, e8, e9, coefficients_work_eq, gradErgodicMetric, gradLoop_work_eq, solveBack_work_eq p hr]
    simp only [free_work, List.length_drop, List.length_map, hl]
    rw [show min e.buffer.memory.length e.buffer.batch_size + rounds e.dt e.horizon -
      (min e.buffer.memory.length e.buffer.batch_size + rounds e.dt e.horizon - e.steps.toNat) = e.steps.toNat by omega]
    unfold targetPrice
    dsimp only
    ring

/-- **C131** (valid): a twist found free of collisions has been checked in full, at every step of the horizon. -/
theorem C131_valid_least (p : Prices) {c : Collision F} {g : GridMap F} {x u : V3 F} {dt T : F} {B : Int}
    (h : validateControl c g x u dt T = .ok true) (hB : castI32 (Flt.floor (c.boundary_radius /. g.resolution)) = .ok B) :
    rounds dt T * (p.cell * (2 * lookout c g * (lookout c g + 1) - 2 * (B - 1).toNat * ((B - 1).toNat + 1))) ≤
      (Meter.validateControl p c g x u dt T).work := by
  rw [← validateControl_res p] at h
  rw [Meter.validateControl] at h ⊢
  obtain ⟨n, hn, h, e⟩ := bind_work_eq h
  rw [free_res] at hn
  rw [e, rounds_eq hn, free_work, Nat.zero_add]
  exact validateLoop_least p c g u dt (fun y hy => C131_query_least p (by rw [← collisionCheck_res p]; exact hy) hB) _ _ h

/-- **C131** (all samples): a search for a twist that returns has tried every sample of the window; no sample is free. -/
theorem C131_window_least (p : Prices) {d : DynamicWindow F} {g : GridMap F} {x vb : V3 F} {B : Int} {r : Bool × V3 F}
    (hB : castI32 (Flt.floor (d.collision.boundary_radius /. g.resolution)) = .ok B)
    (h1 : 1 ≤ lookout d.collision g) (h2 : B ≤ lookout d.collision g) (hn : 1 ≤ d.steps.toNat) :
    (∀ v, d.controlTwist g x vb v = .ok r → d.vx_samples.toNat * (d.vy_samples.toNat * (d.vth_samples.toNat * p.cell)) ≤
      (Meter.controlTwist p d g x vb v).work) ∧
    (∀ xt dt, d.controlTraj g x vb xt dt = .ok r →
      d.vx_samples.toNat * (d.vy_samples.toNat * (d.vth_samples.toNat * p.cell)) ≤
        (Meter.controlTraj p d g x vb xt dt).work) := by
  have hL : ∀ x b, (Meter.collisionCheck p d.collision g x).res = .ok b → p.cell ≤ (Meter.collisionCheck p d.collision g x).work :=
    fun y b hy => collisionCheck_some p hy hB h1 h2
  constructor
  · intro v h
    rw [← controlTwist_res p] at h
    rw [Meter.controlTwist] at h ⊢
    refine searchWindow_some (fun u c hc => ?_) h
    rw [objectiveTwist] at hc ⊢
    obtain ⟨o, ho, -, e⟩ := bind_work_eq hc
    rw [e]
    exact le_trans (Meter.rollout_some p hL hn ho) (Nat.le_add_right _ _)
  · intro xt dt h
    rw [← controlTraj_res p] at h
    rw [Meter.controlTraj] at h ⊢
    refine searchWindow_some (fun u c hc => ?_) h
    rw [objectiveTraj] at hc ⊢
    exact trajLoop_some p hL hn hc

/-- What a plan costs that comes about on a map of known size. -/
theorem control_least (p : Prices) {e e' : ErgodicControl F} {g : GridMap F} {x u : V3 F} {draws : List Nat}
    (h : e.control g x draws = .ok (e', u)) :
    p.flow * (4 * rounds e.dt e.horizon) + p.adjoint * (4 * rounds e.dt e.horizon) +
        p.wave * (e.basis.k.length * (min e.buffer.memory.length e.buffer.batch_size + rounds e.dt e.horizon +
          e.steps.toNat)) ≤ (Meter.control p e g x draws).work := by
  by_cases hs : SameSize e g
  · rw [C131_plan_exact p hs h]
  · rw [C131_plan_anew p hs h]
    exact Nat.le_add_left _ _

theorem path_work_eq (p : Prices) {e : ErgodicControl F} {frame : String} {q : PathMsg F} (h : (Meter.path p e frame).res = .ok q) :
    (Meter.path p e frame).work = p.flow * (4 * rounds e.dt e.horizon) := by
  rw [Meter.path] at h ⊢
  obtain ⟨l, hl, -, e1⟩ := bind_work_eq h
  rw [e1, solve_work_eq p hl, free_work, Nat.add_zero]

theorem replan_least (p : Prices) {s r : Expl F} {draws : List Nat} {o : List (Out F)} (hf : s.follow_dwa = false)
    (h : s.replan draws = .ok (r, o)) :
    p.flow * (8 * rounds s.ec.dt s.ec.horizon) + p.adjoint * (4 * rounds s.ec.dt s.ec.horizon) +
      p.wave * (s.ec.basis.k.length * (min s.ec.buffer.memory.length s.ec.buffer.batch_size +
        rounds s.ec.dt s.ec.horizon + s.ec.steps.toNat)) ≤ (Meter.replan p s draws).work := by
  rw [← replan_res p] at h
  rw [Meter.replan, if_neg (by rw [hf]; simp)] at h ⊢
  obtain ⟨a, ha, h, e1⟩ := bind_work_eq h
  obtain ⟨q, hq, h, e2⟩ := bind_work_eq h
  rw [control_res] at ha
  have hc := control_least p (e' := a.1) (u := a.2) ha
  obtain ⟨k1, k2, -⟩ := control_kept (e' := a.1) (u := a.2) ha
  rw [e1, e2, path_work_eq p hq, k1, k2, free_work]
  have : p.flow * (8 * rounds s.ec.dt s.ec.horizon) = p.flow * (4 * rounds s.ec.dt s.ec.horizon) +
    p.flow * (4 * rounds s.ec.dt s.ec.horizon) := by ring
  omega

/-- **C131** (planned): an iteration that publishes a plan has spent at least this, half of it on the trajectory it
publishes. -/
theorem C131_iteration_least (p : Prices) {s t : Expl F} {tf : Option (TransformMsg F)} {draws : List Nat} {o : List (Out F)}
    (h : s.iteration tf draws = .ok (t, o)) {q : PathMsg F} (hq : Out.trajectory q ∈ o) :
    p.flow * (8 * rounds s.ec.dt s.ec.horizon) + p.adjoint * (4 * rounds s.ec.dt s.ec.horizon) +
      p.wave * (s.ec.basis.k.length * (min (s.localize tf).ec.buffer.memory.length s.ec.buffer.batch_size +
        rounds s.ec.dt s.ec.horizon + s.ec.steps.toNat)) ≤ (Meter.iteration p s tf draws).work := by
  have hl := localize_budget s tf
  have hec := (advance_budget (s.localize tf)).2.1
  rcases Expl.iteration_ok h with ⟨-, -, rfl⟩ | ⟨hc, r, o1, o2, hr, hav, ho⟩
  · simp at hq
  have hfol : (s.localize tf).advanceDwa.follow_dwa = false := by
    rcases Expl.replan_ok hr with ⟨-, -, rfl⟩ | ⟨hf, -⟩
    · exfalso
      rcases Expl.avoid_ok hav with ⟨-, -, rfl⟩ | ⟨-, ⟨-, b, u, -, -, rfl⟩ | ⟨-, ref, b, u, -, -, ⟨-, -, rfl⟩ | ⟨-, z, -, -, rfl⟩⟩⟩ <;>
        simp [ho] at hq
    · exact hf
  have hle := replan_least p hfol hr
  rw [hec, hl.1.dt, hl.1.horizon, hl.2, hl.1.steps, hl.1.batch] at hle
  refine le_trans hle ?_
  rw [Meter.iteration]
  dsimp only
  rw [if_pos hc]
  rw [bind_work_ok (by rw [replan_res]; exact hr)]
  exact Nat.le_add_right _ _

/-- The search for another twist after a plan, when its path is published. -/
theorem avoid_least (p : Prices) {s t : Expl F} {o : List (Out F)} (h : s.avoid = .ok (t, o)) {q : PathMsg F}
    (hq : Out.dwaPath q ∈ o) {B : Int}
    (hB : castI32 (Flt.floor (s.dwa.collision.boundary_radius /. s.grid.resolution)) = .ok B)
    (h1 : 1 ≤ lookout s.dwa.collision s.grid) (h2 : B ≤ lookout s.dwa.collision s.grid) (hn : 1 ≤ s.dwa.steps.toNat) :
    s.follow_dwa = false ∧ p.flow * (4 * rounds s.ec.dt s.ec.horizon) +
      s.dwa.vx_samples.toNat * (s.dwa.vy_samples.toNat * (s.dwa.vth_samples.toNat * p.cell)) ≤ (Meter.avoid p s).work := by
  rcases Expl.avoid_ok h with ⟨-, -, rfl⟩ | ⟨hv, ⟨-, b, u, -, -, rfl⟩ | ⟨hf, -⟩⟩
  · simp at hq
  · simp at hq
  refine ⟨hf, ?_⟩
  rw [← avoid_res p] at h
  rw [Meter.avoid] at h ⊢
  obtain ⟨v, hv', h, e1⟩ := bind_work_eq h
  rw [validateControl_res, hv] at hv'
  obtain rfl : false = v := Res.ok.inj hv'
  rw [e1]
  simp only [Bool.false_eq_true, if_false, hf] at h ⊢
  obtain ⟨l, hl, h, e2⟩ := bind_work_eq h
  obtain ⟨r, hr, h, e3⟩ := bind_work_eq h
  rw [e2, e3, solve_work_eq p hl]
  rw [controlTraj_res] at hr
  have := (C131_window_least p hB h1 h2 hn).2 _ _ hr
  omega

/-- **C131** (evaded): an iteration that publishes the path of another twist has planned, computed the trajectory twice
more and tried every sample of the window. -/
theorem C131_evasion_least (p : Prices) {s t : Expl F} {tf : Option (TransformMsg F)} {draws : List Nat} {o : List (Out F)}
    (h : s.iteration tf draws = .ok (t, o)) {q : PathMsg F} (hq : Out.dwaPath q ∈ o) {B : Int}
    (hB : castI32 (Flt.floor (s.dwa.collision.boundary_radius /. s.grid.resolution)) = .ok B)
    (h1 : 1 ≤ lookout s.dwa.collision s.grid) (h2 : B ≤ lookout s.dwa.collision s.grid) (hn : 1 ≤ s.dwa.steps.toNat) :
    p.flow * (12 * rounds s.ec.dt s.ec.horizon) + p.adjoint * (4 * rounds s.ec.dt s.ec.horizon) +
      p.wave * (s.ec.basis.k.length * (min (s.localize tf).ec.buffer.memory.length s.ec.buffer.batch_size +
        rounds s.ec.dt s.ec.horizon + s.ec.steps.toNat)) +
      s.dwa.vx_samples.toNat * (s.dwa.vy_samples.toNat * (s.dwa.vth_samples.toNat * p.cell)) ≤
        (Meter.iteration p s tf draws).work := by
  have hl := localize_budget s tf
  have hec := (advance_budget (s.localize tf)).2.1
  have hb : SameBudget s (s.localize tf).advanceDwa := hl.1.trans (advance_budget _).1
  have hg : (s.localize tf).advanceDwa.grid = s.grid := by
    rw [(advance_budget _).2.2]; exact (s.localize_frame tf).2.2.2.2.1
  rcases Expl.iteration_ok h with ⟨-, -, rfl⟩ | ⟨hc, r, o1, o2, hr, hav, ho⟩
  · simp at hq
  obtain ⟨hbr, hgr⟩ := replan_budget hr
  have hq2 : Out.dwaPath q ∈ o2 := by
    rcases Expl.replan_ok hr with ⟨-, -, rfl⟩ | ⟨-, ec', u, z, -, -, -, rfl⟩ <;> simpa [ho] using hq
  have hd : r.dwa = s.dwa := hbr.dwa.trans hb.dwa
  obtain ⟨hfr, hle'⟩ := avoid_least p hav hq2 (B := B) (by rw [hd, hgr, hg]; exact hB) (by rw [hd, hgr, hg]; exact h1)
    (by rw [hd, hgr, hg]; exact h2) (by rw [hd]; exact hn)
  have hfol : (s.localize tf).advanceDwa.follow_dwa = false := by
    rcases Expl.replan_ok hr with ⟨-, rfl, -⟩ | ⟨hf, -⟩
    · exact hfr
    · exact hf
  have hle := replan_least p hfol hr
  rw [hec, hl.1.dt, hl.1.horizon, hl.2, hl.1.steps, hl.1.batch] at hle
  rw [hd, hbr.dt, hbr.horizon, hb.dt, hb.horizon] at hle'
  rw [Meter.iteration]
  dsimp only
  rw [if_pos hc]
  rw [bind_work_ok (by rw [replan_res]; exact hr), bind_work_ok (by rw [avoid_res]; exact hav)]
  refine le_trans (le_of_eq ?_) (Nat.add_le_add hle (le_trans hle' (Nat.le_add_right _ _)))
  ring

/-- A detector looking one cell far on a map of three by three cells. -/
theorem near_reach : castI32 (Flt.floor (nearDetector.boundary_radius /. (mapOf sideMsg).resolution)) = .ok 0 ∧
    lookout nearDetector (mapOf sideMsg) = 1 := by
  constructor
  · rw [show (nearDetector.boundary_radius /. (mapOf sideMsg).resolution) = 0 by simp [mapOf, sideMsg, nearDetector],
      castI32_floor le_rfl (by norm_num), Int.floor_zero]
  · unfold lookout
    rw [show (nearDetector.search_radius /. (mapOf sideMsg).resolution) = 1 by
      simp [mapOf, sideMsg, nearDetector], castI32_floor zero_le_one (by norm_num), Int.floor_one]
    rfl

/-- A twist found free after one step: at least the four cells around the robot have been examined. -/
example : 4 ≤ (Meter.validateControl ⟨1, 0, 0, 0, 0, 0⟩ nearDetector (mapOf sideMsg) ⟨0.5, 2.5, 0⟩ ⟨1, 0, 0⟩ (1:ℝ) 1).work := by
  have h := C131_valid_least ⟨1, 0, 0, 0, 0, 0⟩ lost_valid near_reach.1
  rwa [near_reach.2, rounds_eq lost_steps] at h

/-- A search with a single sample on the same map: one cell at least. -/
example : 1 ≤ (Meter.controlTwist ⟨1, 0, 0, 0, 0, 0⟩ (sideDwa 1 1 1 (-1) 1) (mapOf sideMsg) midPose ⟨1, 1 + 1, 1⟩
    V3.zero).work := by
  have hok : ∃ b u, (sideDwa 1 1 1 (-1) 1).controlTwist (mapOf sideMsg) midPose ⟨1, 1 + 1, 1⟩ V3.zero = .ok (b, u) := by
    refine C57_total _ _ side_sensible _ _ _ fun v hv k hk => ?_
    rw [← mem_visited, side_visited _ _ _ _ _ (by norm_num), List.mem_singleton] at hv
    have hk0 : k = 0 := by
      have : k < 1 := hk
      omega
    subst hv hk0
    rw [midPose, straight_poses]
    norm_num [InRect, mapOf, sideMsg, sideDwa, show (3 : UInt32).toNat = 3 from rfl]
  obtain ⟨b, u, h⟩ := hok
  have hl : lookout (sideDwa 1 1 1 (-1) 1).collision (mapOf sideMsg) = 1 := near_reach.2
  have := (C131_window_least ⟨1, 0, 0, 0, 0, 0⟩ (d := sideDwa 1 1 1 (-1) 1) (r := (b, u)) (x := midPose)
    (vb := ⟨1, 1 + 1, 1⟩) near_reach.1 (by rw [hl]) (by rw [hl]; decide) (by decide)).1 V3.zero h
  simpa [sideDwa] using this

/-- A plan on a first map, whose size no controller knows: four points of the target and the sweep. -/
example : ∃ (e e' : ErgodicControl ℝ) (u : V3 ℝ), ¬ SameSize e (unitMap 0) ∧
    e.control (unitMap 0) ⟨0.5, 0.5, 0⟩ [] = .ok (e', u) ∧
    (Meter.control ⟨0, 0, 0, 1, 0, 0⟩ e (unitMap 0) ⟨0.5, 0.5, 0⟩ []).work = 32 := by
  obtain ⟨e, he, hx, hy, hm⟩ := demo_new
  obtain ⟨e', u, h⟩ := demo_control e he 0 ⟨0.5, 0.5, 0⟩
  have hs : ¬ SameSize e (unitMap 0) := by
    rintro ⟨h1, -⟩
    rw [hx] at h1
    norm_num [unitMap, almostEqual, real_fabs] at h1
  refine ⟨e, e', u, hs, h, ?_⟩
  have hi := he.inv
  have hst : e.steps = 2 := by
    have := hi.steps_eq
    rw [demo_steps, Res.ok.injEq] at this
    exact this.symm
  have hk : e.basis.k.length = 4 := by
    obtain ⟨lx, ly, hb⟩ := hi.basis_eq
    rw [hb]
    rfl
  have hp : targetPoints e.resolution (unitMap 0) = 4 := by
    unfold targetPoints
    rw [hi.resolution_eq, show (unitMap 0).xmax -. (unitMap 0).xmin = 1 by simp [unitMap],
      show (unitMap 0).ymax -. (unitMap 0).ymin = 1 by simp [unitMap],
      phiGrid_real 1 1 1 zero_le_one zero_le_one one_pos 2 2 (by rw [div_one, floor_unit]) (by rw [div_one, floor_unit])
        (by norm_num)]
    simp [gridList_length]
  rw [C131_plan_anew _ hs h, hm, hp, hi.dt_eq, hi.horizon_eq, rounds_eq demo_steps, hst]
  unfold targetPrice
  rw [hk]
  simp

/-- An iteration that plans: two trajectories of two columns with four evaluations of the model for each. -/
example : ∃ (s t : Expl ℝ) (o : List (Out ℝ)), s.iteration (some midTf) [] = .ok (t, o) ∧
    16 ≤ (Meter.iteration ⟨0, 1, 0, 0, 0, 0⟩ s (some midTf) []).work := by
  obtain ⟨target, ec, Rinv, o, hec, -⟩ := side_omni 1 1 (by norm_num) (by norm_num) 1 (-1) 1
  have hb : EcBuilt omniModel nearDetector 1 2 1 1 2 10 0 Rinv ⟨-1, -1, -1⟩ ⟨1, 1, 1⟩ (ec.setTarget target) :=
    ⟨ec, hec, .setTarget _ .start⟩
  obtain ⟨s, hs, h1, h2, h3, h4, h5, h6, h7, h8⟩ : ∃ s : Expl ℝ,
      EcBuilt omniModel nearDetector 1 2 1 1 2 10 0 Rinv ⟨-1, -1, -1⟩ ⟨1, 1, 1⟩ s.ec ∧ s.collision = nearDetector ∧
      s.dwa = sideDwa 1 (UInt32.ofNat 1) 1 (-1) 1 ∧ s.map_received = true ∧ s.grid = mapOf sideMsg ∧
      s.vb = ⟨1, 1 + 1, 1⟩ ∧ s.val_dt = 0.1 ∧ s.val_horizon = 0.1 ∧ s.follow_dwa = false :=
    ⟨{ (Expl.start ec nearDetector (sideDwa 1 (UInt32.ofNat 1) 1 (-1) 1) target "map" 0.1 0.1).1 with
      map_received := true, grid := mapOf sideMsg, vb := ⟨1, 1 + 1, 1⟩ }, hb, rfl, rfl, rfl, rfl, rfl, rfl, rfl, rfl⟩
  obtain ⟨ec', o, h, -, q, hq⟩ := side_tick s 1 1 1 (-1) 1 (by norm_num) le_rfl (by norm_num)
    (by norm_num) (by norm_num) (Or.inl rfl) hs h1 h2 h3 h4 h5 h6 h7 h8
  refine ⟨s, _, o, h, le_trans (le_of_eq ?_) (C131_iteration_least ⟨0, 1, 0, 0, 0, 0⟩ h hq)⟩
  rw [hs.inv.dt_eq, hs.inv.horizon_eq, rounds_eq demo_steps]
  simp

end Ergodic
