import Verif.Spec.Uninitialised
import Verif.Props.NotFinite

/-!
# Properties C100 and C101: coefficients that nobody has set; a map without extent

`phik_(num_basis * num_basis)` (ergodic_control.hpp:202) is not filled: before version 10.5 Armadillo
leaves its contents undefined.  They are read when the first map has no extent, because then
`configTarget` takes the map for one that it has seen.  Nothing depends on them even so: with a side
of length zero every gradient is NaN.
-/

namespace Ergodic
variable {M : Machine}
open NotNum

theorem throw_ne {α : Type} {x : Err} (v : α) : (Res.throw x : Res α) ≠ .ok v := nofun
theorem ub_ne {α : Type} (v : α) : (Res.ub : Res α) ≠ .ok v := nofun
theorem timeout_ne {α : Type} (v : α) : (Res.timeout : Res α) ≠ .ok v := nofun

theorem sin_not_num {a : RDbl M} (h : ¬ Num a) : Flt.sin a = .nan := by
  rcases cases_rd h with rfl | ⟨s, rfl⟩ <;> rfl

theorem cos_not_num {a : RDbl M} (h : ¬ Num a) : Flt.cos a = .nan := by
  rcases cases_rd h with rfl | ⟨s, rfl⟩ <;> rfl

theorem div_zero_not_num (a : RDbl M) : ¬ Num (a /. (.fin 0 : RDbl M)) := by
  show ¬ @Num M (RDbl.rd M (Dbl.div a (.fin 0)))
  refine rd ?_
  intro r
  cases a with
  | fin x =>
    simp only [Dbl.div, if_pos]
    split_ifs <;> exact fun h => Dbl.noConfusion h
  | nan => exact fun h => Dbl.noConfusion h
  | inf s => exact fun h => Dbl.noConfusion h

/-- With a side of length zero every gradient of a basis function is NaN. -/
theorem flat_dfk {b : Basis (RDbl M)} (h : b.lx = .fin 0 ∨ b.ly = .fin 0) (x : V2 (RDbl M)) (k : Int × Int) :
    b.dfk x k = ⟨.nan, .nan⟩ := by
  unfold Basis.dfk
  rcases h with h | h
  · have hk : ¬ Num (Flt.ofInt k.1 *. (Flt.pi /. b.lx) : RDbl M) := by
      rw [h]; exact mul_right (div_zero_not_num _) _
    dsimp only
    rw [sin_not_num (mul_left hk _), cos_not_num (mul_left hk _)]
    simp only [mul_nan_rd, nan_mul_rd]
  · have hk : ¬ Num (Flt.ofInt k.2 *. (Flt.pi /. b.ly) : RDbl M) := by
      rw [h]; exact mul_right (div_zero_not_num _) _
    dsimp only
    rw [sin_not_num (mul_left hk _), cos_not_num (mul_left hk _)]
    simp only [mul_nan_rd]

theorem flat_gradTimes {b : Basis (RDbl M)} (h : b.lx = .fin 0 ∨ b.ly = .fin 0) (hk : b.k ≠ [])
    (x : V2 (RDbl M)) {diff : List (RDbl M)} (hd : diff ≠ []) :
    ErgodicControl.gradTimes b x diff = ⟨.nan, .nan⟩ := by
  have hz : ∀ f : V2 (RDbl M) → RDbl M → RDbl M, (∀ w, f ⟨.nan, .nan⟩ w = .nan) →
      fsum (List.zipWith f (b.gradFourierBasis x) diff) = .nan := by
    intro f hf
    apply fsum_nan_rd
    have h0 : 0 < (List.zipWith f (b.gradFourierBasis x) diff).length := by
      rw [List.length_zipWith, Basis.gradFourierBasis, List.length_map]
      have := List.length_pos_iff.mpr hk
      have := List.length_pos_iff.mpr hd
      omega
    refine ⟨_, List.getElem_mem h0, ?_⟩
    rw [List.getElem_zipWith]
    simp only [Basis.gradFourierBasis, List.getElem_map]
    rw [flat_dfk h, hf]
  unfold ErgodicControl.gradTimes
  dsimp only
  rw [hz _ (fun w => nan_mul_rd _), hz _ (fun w => nan_mul_rd _)]

/-- The two objects differ at most in the coefficients, and if they do, the Fourier domain is the
one of the constructor. -/
def SameBut (n : Nat) (a b : ErgodicControl (RDbl M)) : Prop :=
  b = { a with phik := b.phik } ∧ a.phik.length = n ∧ b.phik.length = n ∧ a.basis.k.length = n ∧
    a.basis.lamdak.length = n ∧ (a.phik = b.phik ∨ a.basis.lx = .fin 0)

theorem same_gradient {n : Nat} {a b : ErgodicControl (RDbl M)} (h : SameBut n a b) {ck : List (RDbl M)}
    (hc : ck.length = n) (xt : List (V3 (RDbl M))) :
    a.gradErgodicMetric ck xt = b.gradErgodicMetric ck xt := by
  obtain ⟨e, la, lb, lk, ll, hp | hz⟩ := h
  · rw [e, ← hp]
  · rcases Nat.eq_zero_or_pos n with rfl | hn
    · have : a.phik = b.phik := by
        rw [List.length_eq_zero_iff.mp la, List.length_eq_zero_iff.mp lb]
      rw [e, ← this]
    have hk : a.basis.k ≠ [] := List.ne_nil_of_length_pos (by omega)
    have hd : ∀ p : List (RDbl M), p.length = n →
        List.zipWith (fun l d => l *. d) a.basis.lamdak (List.zipWith (fun c p => c -. p) ck p) ≠ [] := by
      intro p hp
      apply List.ne_nil_of_length_pos
      rw [List.length_zipWith, List.length_zipWith]
      omega
    rw [e]
    unfold ErgodicControl.gradErgodicMetric
    dsimp only
    apply List.map_congr_left
    intro x _
    rw [flat_gradTimes (Or.inl hz) hk _ (hd _ la), flat_gradTimes (Or.inl hz) hk _ (hd _ lb)]

/-- Two results: the same failure, or the same value and objects that differ in the coefficients. -/
def SameRes {α : Type} (n : Nat) (ra rb : Res (ErgodicControl (RDbl M) × α)) : Prop :=
  (∃ a b s, ra = .ok (a, s) ∧ rb = .ok (b, s) ∧ SameBut n a b) ∨ (ra = rb ∧ ∀ v, ra ≠ .ok v)

theorem same_config {n : Nat} {a b : ErgodicControl (RDbl M)} (h : SameBut n a b) (g : GridMap (RDbl M)) :
    (∃ a' b', a.configTarget g = .ok a' ∧ b.configTarget g = .ok b' ∧ SameBut n a' b' ∧
      a'.buffer = a.buffer ∧ a'.ut = a.ut) ∨
    (a.configTarget g = b.configTarget g ∧ ∀ v, a.configTarget g ≠ .ok v) := by
  obtain ⟨e, la, lb, lk, ll, hz⟩ := h
  generalize hq : b.phik = q at e lb hz
  subst e
  unfold ErgodicControl.configTarget
  dsimp only
  split
  · exact Or.inl ⟨_, _, rfl, rfl, ⟨rfl, la, lb, lk, ll, hz⟩, rfl, rfl⟩
  · cases h1 : ErgodicControl.phiGrid (g.xmax -. g.xmin) (g.ymax -. g.ymin) a.resolution with
    | ok pts =>
      rw [Res.ok_bind]
      cases h2 : Basis.spatialCoeff { a.basis with lx := g.xmax -. g.xmin, ly := g.ymax -. g.ymin }
          (a.target.fill ⟨g.xmin, g.ymin⟩ pts) pts with
      | ok phik =>
        have hl : phik.length = n := by
          unfold Basis.spatialCoeff at h2
          split at h2
          · simp at h2
          · rw [← Res.ok.inj h2, List.length_map]; exact lk
        exact Or.inl ⟨_, _, rfl, rfl, ⟨rfl, hl, hl, lk, ll, Or.inl rfl⟩, rfl, rfl⟩
      | throw x => exact Or.inr ⟨rfl, fun v => throw_ne v⟩
      | ub => exact Or.inr ⟨rfl, fun v => ub_ne v⟩
      | timeout => exact Or.inr ⟨rfl, fun v => timeout_ne v⟩
    | throw x => exact Or.inr ⟨rfl, fun v => throw_ne v⟩
    | ub => exact Or.inr ⟨rfl, fun v => ub_ne v⟩
    | timeout => exact Or.inr ⟨rfl, fun v => timeout_ne v⟩

theorem same_bind {α β : Type} {n : Nat} (r : Res β) (fa fb : β → Res (ErgodicControl (RDbl M) × α))
    (h : ∀ v, SameRes n (fa v) (fb v)) : SameRes n (r >>= fa) (r >>= fb) := by
  cases r with
  | ok v => exact h v
  | throw x => exact Or.inr ⟨rfl, fun v => throw_ne v⟩
  | ub => exact Or.inr ⟨rfl, fun v => ub_ne v⟩
  | timeout => exact Or.inr ⟨rfl, fun v => timeout_ne v⟩

theorem updateLoop_phik (e : ErgodicControl (RDbl M)) (p : List (RDbl M)) :
    ∀ xs rs, ({ e with phik := p } : ErgodicControl (RDbl M)).updateLoop xs rs = e.updateLoop xs rs := by
  intro xs
  induction xs with
  | nil => intro rs; cases rs <;> rfl
  | cons x xs ih =>
    intro rs
    cases rs with
    | nil => rfl
    | cons r rs =>
      simp only [ErgodicControl.updateLoop, ih]
      rfl

theorem same_control {n : Nat} {a b : ErgodicControl (RDbl M)} (h : SameBut n a b) (g : GridMap (RDbl M))
    (x : V3 (RDbl M)) (draws : List Nat) : SameRes n (a.control g x draws) (b.control g x draws) := by
  have h' : SameBut n { a with pose := x } { b with pose := x } := by
    obtain ⟨e, la, lb, lk, ll, hz⟩ := h
    refine ⟨?_, la, lb, lk, ll, hz⟩
    rw [e]
  unfold ErgodicControl.control
  rcases same_config h' g with ⟨a', b', ha, hb, hs, -⟩ | ⟨he, hf⟩
  · rw [ha, hb, Res.ok_bind, Res.ok_bind]
    have hgr : ∀ (us : List (V3 (RDbl M))) (xs : List (V3 (RDbl M))) (xt : List (V3 (RDbl M))),
        ({ b' with ut := us } : ErgodicControl (RDbl M)).gradErgodicMetric (a'.basis.trajCoeff xs) xt =
        ({ a' with ut := us } : ErgodicControl (RDbl M)).gradErgodicMetric (a'.basis.trajCoeff xs) xt := by
      intro us xs xt
      have := same_gradient hs (ck := a'.basis.trajCoeff xs) (by
        unfold Basis.trajCoeff; rw [List.length_map]; exact hs.2.2.2.1) xt
      exact this.symm
    obtain ⟨e, la, lb, lk, ll, hz⟩ := hs
    generalize hq : b'.phik = q at e lb hz
    subst e
    dsimp only at hgr ⊢
    refine same_bind _ _ _ fun us => ?_
    refine same_bind _ _ _ fun traj => ?_
    refine same_bind _ _ _ fun total => ?_
    split
    · exact Or.inr ⟨rfl, fun v => throw_ne v⟩
    · rw [hgr us]
      refine same_bind _ _ _ fun rhot => ?_
      have hu := updateLoop_phik { a' with ut := us } q
      dsimp only at hu
      rw [hu]
      refine same_bind _ _ _ fun ut' => ?_
      refine same_bind _ _ _ fun u => ?_
      exact Or.inl ⟨_, _, _, rfl, rfl, ⟨rfl, la, lb, lk, ll, hz⟩⟩
  · right
    rw [← he]
    cases hr : ({ a with pose := x } : ErgodicControl (RDbl M)).configTarget g with
    | ok v => exact absurd hr (hf v)
    | throw x => exact ⟨rfl, fun v => throw_ne v⟩
    | ub => exact ⟨rfl, fun v => ub_ne v⟩
    | timeout => exact ⟨rfl, fun v => timeout_ne v⟩

/-- One call of any member function. -/
theorem same_call {n : Nat} {a b : ErgodicControl (RDbl M)} (h : SameBut n a b) (c : EcCall (RDbl M)) :
    SameRes n (c.run a) (c.run b) := by
  have hs := h
  obtain ⟨e, la, lb, lk, ll, hz⟩ := h
  generalize hq : b.phik = q at e lb hz
  subst e
  cases c with
  | control g x draws =>
    unfold EcCall.run
    dsimp only
    rcases same_control hs g x draws with ⟨a', b', u, ha, hb, hs'⟩ | ⟨he, hf⟩
    · rw [ha, hb]; exact Or.inl ⟨_, _, _, rfl, rfl, hs'⟩
    · rw [← he]
      right
      cases hr : a.control g x draws with
      | ok v => exact absurd hr (hf v)
      | throw x => exact ⟨rfl, fun v => throw_ne v⟩
      | ub => exact ⟨rfl, fun v => ub_ne v⟩
      | timeout => exact ⟨rfl, fun v => timeout_ne v⟩
  | optTraj => exact same_bind a.optTraj _ _ fun xs => Or.inl ⟨_, _, _, rfl, rfl, hs⟩
  | path f => exact same_bind (a.path f) _ _ fun xs => Or.inl ⟨_, _, _, rfl, rfl, hs⟩
  | addStateMemory x => exact Or.inl ⟨_, _, _, rfl, rfl, ⟨rfl, la, lb, lk, ll, hz⟩⟩
  | timeStep => exact Or.inl ⟨_, _, _, rfl, rfl, hs⟩
  | setTarget t => exact Or.inl ⟨_, _, _, rfl, rfl, ⟨rfl, la, lb, lk, ll, hz⟩⟩

/-- C100: whatever the coefficients hold after construction, every caller sees the same. -/
theorem C100_uninitialised {model : TwistModel (RDbl M)} {collision : Collision (RDbl M)}
    {dt horizon resolution weight : RDbl M} {num_basis buffer_size batch_size : Nat}
    {Rinv : M3 (RDbl M)} {umin umax : V3 (RDbl M)} {e : ErgodicControl (RDbl M)}
    (hn : ErgodicControl.new model collision dt horizon resolution weight num_basis buffer_size batch_size
      Rinv umin umax = .ok e) (junk : List (RDbl M)) (hj : junk.length = num_basis * num_basis)
    (calls : List (EcCall (RDbl M))) : seenBy { e with phik := junk } calls = seenBy e calls := by
  have hs : SameBut (num_basis * num_basis) e { e with phik := junk } := by
    simp only [ErgodicControl.new, Res.bind_eq_ok] at hn
    obtain ⟨steps, -, hn⟩ := hn
    split at hn
    · simp at hn
    · rw [← Res.ok.inj hn]
      have h := C39_enumeration (RDbl M) (lit 0 0) (lit 0 0) num_basis
      exact ⟨rfl, List.length_replicate, hj, h.1, h.2.2.2, Or.inr (by simp [Basis.new])⟩
  have key : ∀ (calls : List (EcCall (RDbl M))) (a b : ErgodicControl (RDbl M)),
      SameBut (num_basis * num_basis) a b → seenBy b calls = seenBy a calls := by
    intro calls
    induction calls with
    | nil => intro a b _; rfl
    | cons c cs ih =>
      intro a b h
      unfold seenBy
      rcases same_call h c with ⟨a', b', s, ha, hb, hs'⟩ | ⟨he, hf⟩
      · rw [ha, hb]; dsimp only; rw [ih a' b' hs']
      · rw [← he]
  exact key calls _ _ hs

/-! ## C101: a map without extent -/

/-- The map has no extent along one axis (no cells, or cells of side zero), and the controller does
not take it for one of another size. -/
def FlatMap (e : ErgodicControl (RDbl M)) (g : GridMap (RDbl M)) : Prop :=
  (g.xmax -. g.xmin = .fin 0 ∧ (almostEqual (.fin 0) e.basis.lx = true → e.basis.lx = .fin 0)) ∨
  (g.ymax -. g.ymin = .fin 0 ∧ (almostEqual (.fin 0) e.basis.ly = true → e.basis.ly = .fin 0))

section
variable {model : TwistModel (RDbl M)} {collision : Collision (RDbl M)}
  {dt horizon resolution weight : RDbl M} {num_basis buffer_size batch_size : Nat}
  {Rinv : M3 (RDbl M)} {umin umax : V3 (RDbl M)} {e e' : ErgodicControl (RDbl M)}
  {g : GridMap (RDbl M)} {x u : V3 (RDbl M)} {draws : List Nat}

/-- C101: with a map without extent the controller commands and stores NaN. -/
theorem C101_control (hn : 0 < num_basis)
    (hb : EcBuilt model collision dt horizon resolution weight num_basis
      buffer_size batch_size Rinv umin umax e) (hg : FlatMap e g) (h : e.control g x draws = .ok (e', u)) :
    u = ⟨.nan, .nan, .nan⟩ ∧ ∀ v ∈ e'.ut, v = ⟨.nan, .nan, .nan⟩ := by
  have hflat : e'.basis.lx = .fin 0 ∨ e'.basis.ly = .fin 0 := by
    obtain ⟨ec, traj, pre, rhot, us, hcfg, -, -, -, -, -, rfl, -, -, -, -⟩ :=
      ErgodicControl.control_ok hb.inv.steps h
    rcases ErgodicControl.configTarget_ok hcfg with ⟨h1, h2, rfl⟩ | ⟨-, grid, phik, hgr, hp, rfl⟩
    · rcases hg with ⟨hx, hx'⟩ | ⟨hy, hy'⟩
      · rw [hx] at h1; exact Or.inl (hx' h1)
      · rw [hy] at h2; exact Or.inr (hy' h2)
    · rcases hg with ⟨hx, -⟩ | ⟨hy, -⟩
      · exact Or.inl hx
      · exact Or.inr hy
  obtain ⟨lx, ly, hbas⟩ := (hb.control h).inv.basis_eq
  have hc := C39_enumeration (RDbl M) lx ly num_basis
  have hpos : 0 < num_basis * num_basis := Nat.mul_pos hn hn
  refine control_nan_of_grad hb h fun ck xt hck eg he => ?_
  simp only [ErgodicControl.gradErgodicMetric, List.mem_map] at he
  obtain ⟨p, -, rfl⟩ := he
  refine ⟨lit 0 0, ?_⟩
  rw [flat_gradTimes hflat (List.ne_nil_of_length_pos (by rw [hbas, hc.1]; exact hpos)) _
    (List.ne_nil_of_length_pos (by
      rw [List.length_zipWith, List.length_zipWith, hck, (hb.control h).inv.phik_length, hbas, hc.2.2.2]
      omega))]
  simp only [nan_mul_rd]

/-- C101 for the omnidirectional robot: the iteration has undefined behaviour. -/
theorem C101_omni (hb : 0 < num_basis) (s : Expl (RDbl M)) (tf : Option (TransformMsg (RDbl M)))
    (he : EcBuilt omniModel collision dt horizon resolution weight num_basis buffer_size batch_size Rinv
      umin umax (s.localize tf).ec) (hm : s.map_received = true) (hp : (s.localize tf).pose_known = true)
    (hf : (s.localize tf).advanceDwa.follow_dwa = false) (hg : FlatMap (s.localize tf).ec s.grid)
    (hc : ∃ r, (s.localize tf).ec.control s.grid (s.localize tf).pose draws = .ok r) {n : UInt32}
    (hn : numSteps s.val_horizon s.val_dt = .ok n) (hpos : 0 < n.toNat) :
    s.iteration tf draws = .ub :=
  nan_omni s tf draws he hm hp hf (fun _ _ h => C101_control hb he hg h) hc hn hpos

/-- C101 for the cart: the iteration throws, and nothing catches it. -/
theorem C101_cart (hb : 0 < num_basis) (s : Expl (RDbl M)) (tf : Option (TransformMsg (RDbl M)))
    (he : EcBuilt cartModel collision dt horizon resolution weight num_basis buffer_size batch_size Rinv
      umin umax (s.localize tf).ec) (hm : s.map_received = true) (hp : (s.localize tf).pose_known = true)
    (hf : (s.localize tf).advanceDwa.follow_dwa = false) (hg : FlatMap (s.localize tf).ec s.grid)
    (hc : ∃ r, (s.localize tf).ec.control s.grid (s.localize tf).pose draws = .ok r) :
    s.iteration tf draws = .throw .invalidArgument :=
  nan_cart s tf draws he hm hp hf (fun _ _ h => C101_control hb he hg h) hc

end

/-! ## a run of each node into it -/

/-- A message without cells, as a mapper may publish before its first scan. -/
noncomputable def emptyMsg : OccupancyGrid (RDbl ieee) :=
  { width := 0, height := 0, resolution := .fin 1, originX := .fin 0, originY := .fin 0, data := [] }

/-- Its map. -/
noncomputable def emptyMap : GridMap (RDbl ieee) :=
  { xsize := 0, ysize := 0, resolution := .fin 1, xmin := .fin 0, xmax := .fin 0, ymin := .fin 0,
    ymax := .fin 0, data := [] }

theorem emptyMsg_map : GridMap.update GridMap.empty emptyMsg = emptyMap := by
  have h : (RDbl.fin 1 : RDbl ieee) *. Flt.ofInt ((0 : UInt32).toNat : Int) +. .fin 0 = .fin 0 := by
    rw [show ((0 : UInt32).toNat : Int) = 0 from rfl, RDbl.ofInt_fin, Int.cast_zero, ieee.rnd_zero,
      RDbl.mul_fin, mul_zero, ieee.rnd_zero, RDbl.add_fin, add_zero, ieee.rnd_zero]
  show GridMap.mk _ _ _ _ _ _ _ _ = _
  unfold emptyMap
  simp only [emptyMsg]
  congr 1

theorem empty_side : emptyMap.xmax -. emptyMap.xmin = .fin 0 ∧ emptyMap.ymax -. emptyMap.ymin = .fin 0 := by
  have h : (.fin 0 : RDbl ieee) -. .fin 0 = .fin 0 := by rw [RDbl.sub_fin, sub_zero, ieee.rnd_zero]
  exact ⟨h, h⟩

theorem empty_flat {e : ErgodicControl (RDbl ieee)} (h : e.basis.lx = .fin 0) : FlatMap e emptyMap :=
  Or.inl ⟨empty_side.1, fun _ => h⟩

theorem zero_almost : almostEqual (.fin 0 : RDbl ieee) (.fin 0) = true := by
  unfold almostEqual
  rw [RDbl.sub_fin, sub_zero, ieee.rnd_zero, fabs_rd le_rfl, RDbl.lit_fin, RDbl.lt_fin]
  refine rnd_pos ?_
  have : (1 : ℝ) / 2 ^ 1000 ≤ 1 / 2 ^ 40 :=
    one_div_le_one_div_of_le (by positivity) (pow_le_pow_right₀ (by norm_num) (by norm_num))
  refine this.trans ?_
  norm_num

/-- The controller keeps the coefficients it was built with. -/
theorem empty_config {e : ErgodicControl (RDbl ieee)} (hx : e.basis.lx = .fin 0) (hy : e.basis.ly = .fin 0) :
    ∃ ec, e.configTarget emptyMap = .ok ec := by
  unfold ErgodicControl.configTarget
  dsimp only
  rw [empty_side.1, empty_side.2, hx, hy, zero_almost]
  exact ⟨_, rfl⟩

theorem demo_side {model : TwistModel (RDbl ieee)} {l : ℝ} {e0 : ErgodicControl (RDbl ieee)}
    (h : ErgodicControl.new model ⟨.fin 1, .fin 1, .fin 1, .fin 1⟩ (.fin 1) (.fin 3) (.fin 1) (.fin 1) 3
        4 2 ⟨⟨.fin 1, .fin 0, .fin 0⟩, ⟨.fin 0, .fin 1, .fin 0⟩, ⟨.fin 0, .fin 0, .fin 1⟩⟩
        ⟨.fin (-1), .fin (-l), .fin (-1)⟩ ⟨.fin 1, .fin l, .fin 1⟩ = .ok e0) : e0.basis.ly = .fin 0 := by
  simp only [ErgodicControl.new, Res.bind_eq_ok] at h
  obtain ⟨steps, -, h⟩ := h
  split at h
  · simp at h
  · rw [← Res.ok.inj h]
    simp [Basis.new]

/-- C101: a run of both nodes on binary64 numbers.  All parameters are finite and the first map has no
cells.  The first iteration of the omnidirectional node has undefined behaviour and that of the cart
throws. -/
theorem C101_empty_map (dwa : DynamicWindow (RDbl ieee)) :
    (∃ ec : ErgodicControl (RDbl ieee),
      ErgodicControl.new omniModel ⟨.fin 1, .fin 1, .fin 1, .fin 1⟩ (.fin 1) (.fin 3) (.fin 1) (.fin 1) 3
        4 2 ⟨⟨.fin 1, .fin 0, .fin 0⟩, ⟨.fin 0, .fin 1, .fin 0⟩, ⟨.fin 0, .fin 0, .fin 1⟩⟩
        ⟨.fin (-1), .fin (-1), .fin (-1)⟩ ⟨.fin 1, .fin 1, .fin 1⟩ = .ok ec ∧
      (Expl.start ec ⟨.fin 1, .fin 1, .fin 1, .fin 1⟩ dwa farTarget "map" (.fin 1) (.fin 3)).1.run
        [.map emptyMsg, .tick (some middle) [0, 0]] = .ub) ∧
    ∃ ec : ErgodicControl (RDbl ieee),
      ErgodicControl.new cartModel ⟨.fin 1, .fin 1, .fin 1, .fin 1⟩ (.fin 1) (.fin 3) (.fin 1) (.fin 1) 3
        4 2 ⟨⟨.fin 1, .fin 0, .fin 0⟩, ⟨.fin 0, .fin 1, .fin 0⟩, ⟨.fin 0, .fin 0, .fin 1⟩⟩
        ⟨.fin (-1), .fin (-0), .fin (-1)⟩ ⟨.fin 1, .fin 0, .fin 1⟩ = .ok ec ∧
      (Expl.start ec ⟨.fin 1, .fin 1, .fin 1, .fin 1⟩ dwa farTarget "map" (.fin 1) (.fin 3)).1.run
        [.map emptyMsg, .tick (some middle) [0, 0]] = .throw .invalidArgument := by
  have hst : numSteps (.fin 3 : RDbl ieee) (.fin 1) = .ok 3 := by
    unfold numSteps
    have h3 := ieee.int 3 (by norm_num)
    rw [RDbl.div_fin _ one_ne_zero, div_one]
    norm_num at h3
    rw [h3, fabs_rd (by norm_num)]
    exact castU32_rd (n := 3) (by norm_num) (by norm_num) (by norm_num)
  set x : V3 (RDbl ieee) := ⟨middle.x, middle.y, getYaw middle.qx middle.qy middle.qz middle.qw⟩ with hx
  constructor
  · obtain ⟨e0, h0, hlx, hres, hn, -, hr⟩ := demo_blind omniModel 1 x
    have hly := demo_side h0
    refine ⟨e0, h0, ?_⟩
    have hb : EcBuilt _ _ _ _ _ _ _ _ _ _ _ _ ((e0.setTarget farTarget).addStateMemory x) :=
      ⟨e0, h0, .addStateMemory x (.setTarget farTarget .start)⟩
    have hc := C60_total (g := emptyMap) (x := x)
      (draws := [0, 0]) hb hn (fun y v _ => ⟨_, rfl⟩)
      (empty_config hlx hly) rfl hr
      (by rw [RDbl.lt_fin_false]; norm_num) (by rw [RDbl.lt_fin_false]; norm_num)
      (by rw [RDbl.lt_fin_false]; norm_num)
    obtain ⟨e', u, hc⟩ := hc
    have key := C101_omni (draws := [0, 0]) (by norm_num) ((Expl.start e0 ⟨.fin 1, .fin 1, .fin 1, .fin 1⟩ dwa farTarget "map"
      (.fin 1) (.fin 3)).1.mapCallback emptyMsg) (some middle) hb rfl rfl rfl
      (by
        show FlatMap _ (GridMap.update GridMap.empty emptyMsg)
        rw [emptyMsg_map]
        exact empty_flat hlx)
      ⟨(e', u), by
        show ErgodicControl.control _ (GridMap.update GridMap.empty emptyMsg) _ _ = _
        rw [emptyMsg_map]; exact hc⟩ hst (by decide)
    simp only [Expl.run, Expl.step, Res.ok_bind, key]
    rfl
  · obtain ⟨e0, h0, hlx, hres, hn, hut, hr⟩ := demo_blind cartModel 0 x
    have hly := demo_side h0
    refine ⟨e0, h0, ?_⟩
    have hb : EcBuilt _ _ _ _ _ _ _ _ _ _ _ _ ((e0.setTarget farTarget).addStateMemory x) :=
      ⟨e0, h0, .addStateMemory x (.setTarget farTarget .start)⟩
    have hz : (lit 0 0 : RDbl ieee) = .fin 0 := by simp
    have hf : ∀ y : V3 (RDbl ieee), ∀ v ∈ V3.zero :: ((e0.setTarget farTarget).addStateMemory x).ut,
        ∃ d, (cartModel : TwistModel (RDbl ieee)).f y v = .ok d := by
      intro y v hv
      have hv0 : v = V3.zero := by
        rcases List.mem_cons.mp hv with rfl | hv
        · rfl
        · exact hut v hv
      subst hv0
      refine ⟨⟨lit 0 0 *. Flt.cos y.c2, lit 0 0 *. Flt.sin y.c2, lit 0 0⟩, ?_⟩
      show SimpleCart.f y V3.zero = _
      unfold SimpleCart.f
      rw [if_neg]
      · rfl
      · rw [not_not]
        show almostEqual (lit 0 0) (lit 0 0) = true
        rw [hz]
        unfold almostEqual
        rw [RDbl.sub_fin, sub_zero, ieee.rnd_zero, fabs_rd le_rfl, RDbl.lit_fin, RDbl.lt_fin]
        refine rnd_pos ?_
        have : (1 : ℝ) / 2 ^ 1000 ≤ 1 / 2 ^ 40 :=
          one_div_le_one_div_of_le (by positivity) (pow_le_pow_right₀ (by norm_num) (by norm_num))
        refine this.trans ?_
        norm_num
    have hc := C60_total (g := emptyMap) (x := x)
      (draws := [0, 0]) hb hn hf
      (empty_config hlx hly) rfl hr
      (by rw [RDbl.lt_fin_false]; norm_num) (by rw [RDbl.lt_fin_false]; norm_num)
      (by rw [RDbl.lt_fin_false]; norm_num)
    obtain ⟨e', u, hc⟩ := hc
    have key := C101_cart (draws := [0, 0]) (by norm_num) ((Expl.start e0 ⟨.fin 1, .fin 1, .fin 1, .fin 1⟩ dwa farTarget "map"
      (.fin 1) (.fin 3)).1.mapCallback emptyMsg) (some middle) hb rfl rfl rfl
      (by
        show FlatMap _ (GridMap.update GridMap.empty emptyMsg)
        rw [emptyMsg_map]
        exact empty_flat hlx)
      ⟨(e', u), by
        show ErgodicControl.control _ (GridMap.update GridMap.empty emptyMsg) _ _ = _
        rw [emptyMsg_map]; exact hc⟩
    simp only [Expl.run, Expl.step, Res.ok_bind, key]
    rfl

/-- The coefficients the object starts with are read: with that map they are kept, and used by the
same call of `control`. -/
example : ∃ e ec : ErgodicControl (RDbl ieee),
    ErgodicControl.new omniModel ⟨.fin 1, .fin 1, .fin 1, .fin 1⟩ (.fin 1) (.fin 3) (.fin 1) (.fin 1) 3
      4 2 ⟨⟨.fin 1, .fin 0, .fin 0⟩, ⟨.fin 0, .fin 1, .fin 0⟩, ⟨.fin 0, .fin 0, .fin 1⟩⟩
      ⟨.fin (-1), .fin (-1), .fin (-1)⟩ ⟨.fin 1, .fin 1, .fin 1⟩ = .ok e ∧
    ({ e with phik := List.replicate 9 (.fin 7) } : ErgodicControl (RDbl ieee)).configTarget emptyMap = .ok ec ∧
    ec.phik = List.replicate 9 (.fin 7) ∧
    ∀ calls, seenBy { e with phik := List.replicate 9 (.fin 7) } calls = seenBy e calls := by
  obtain ⟨e, h, hlx, -⟩ := demo_blind omniModel 1 V3.zero
  have hly := demo_side h
  refine ⟨e, { e with phik := List.replicate 9 (.fin 7), map_pos := ⟨emptyMap.xmin, emptyMap.ymin⟩ }, h, ?_, ?_,
    fun calls => C100_uninitialised h _ rfl calls⟩
  · unfold ErgodicControl.configTarget
    dsimp only
    rw [empty_side.1, empty_side.2, hlx, hly, zero_almost]
    rfl
  · rfl

end Ergodic
