import Verif.Props.ExplorationRefuted
import Verif.Props.ErgodicUpdate

/-!
# The controller of the two executables (C61 and C64 for whole histories)

The theorems about the controller speak about one object.  Here they are carried over to the object
the executables build from their parameters, after any history of events.
-/

namespace Ergodic

/-! ## C61 for a node -/

/-- Every map of the history covers the rectangle `[x0, x1] × [y0, y1]`. -/
def SameRect (es : List (Event ℝ)) (x0 x1 y0 y1 : ℝ) : Prop :=
  ∀ m ∈ maps es, (mapOf m).xmin = x0 ∧ (mapOf m).xmax = x1 ∧ (mapOf m).ymin = y0 ∧ (mapOf m).ymax = y1

theorem rightCoeffs_congr {n : Nat} {t : Target ℝ} {g g' : GridMap ℝ} {res : ℝ} {phik : List ℝ}
    (hg : g'.xmin = g.xmin ∧ g'.xmax = g.xmax ∧ g'.ymin = g.ymin ∧ g'.ymax = g.ymax)
    (h : RightCoeffs n t g res phik) : RightCoeffs n t g' res phik := by
  obtain ⟨g1, g2, g3, g4⟩ := hg
  unfold RightCoeffs at h ⊢
  rw [g1, g2, g3, g4]
  exact h

/-- What holds of the controller's coefficients in a history on one rectangle. -/
theorem coeffs_inv {model : TwistModel ℝ} {collision : Collision ℝ} {dt horizon resolution weight : ℝ}
    {num_basis buffer_size batch_size : Nat} {Rinv : M3 ℝ} {umin umax : V3 ℝ} {ec : ErgodicControl ℝ}
    (hec : ErgodicControl.new model collision dt horizon resolution weight num_basis buffer_size
      batch_size Rinv umin umax = .ok ec) {col : Collision ℝ} {dwa : DynamicWindow ℝ}
    {target : Target ℝ} {frame : String} {val_dt val_horizon : ℝ} {es : List (Event ℝ)}
    {os : List (List (Out ℝ))} {s : Expl ℝ}
    (h : Trace (Expl.start ec col dwa target frame val_dt val_horizon).1 es os s)
    (g : GridMap ℝ) (hres : 0 < resolution) (hx : g.xmin ≤ g.xmax) (hy : g.ymin ≤ g.ymax)
    (hfit : (⌊(g.xmax - g.xmin) / resolution + 1 / 2⌋₊ + 1) *
      (⌊(g.ymax - g.ymin) / resolution + 1 / 2⌋₊ + 1) < 2 ^ 32)
    (hne : 1 / 10 ^ 12 ≤ g.xmax - g.xmin ∨ 1 / 10 ^ 12 ≤ g.ymax - g.ymin)
    (hr : SameRect es g.xmin g.xmax g.ymin g.ymax) :
    (¬ Replanned os.flatten ∧ s.ec.basis.lx = 0 ∧ s.ec.basis.ly = 0) ∨
    (RightCoeffs num_basis target g resolution s.ec.phik ∧ s.ec.basis.lx = g.xmax - g.xmin ∧
      s.ec.basis.ly = g.ymax - g.ymin) := by
  induction h with
  | nil =>
    left
    simp only [ErgodicControl.new, Res.bind_eq_ok] at hec
    obtain ⟨steps, -, hec⟩ := hec
    split at hec
    · simp at hec
    · simp only [Res.ok.injEq] at hec
      subst hec
      refine ⟨by simp [Replanned], ?_, ?_⟩
      · show (lit 0 0 : ℝ) = 0
        simp
      · show (lit 0 0 : ℝ) = 0
        simp
  | @snoc s t es os e o ht hs ih =>
    have ih := ih (fun m hm => hr m (by simp only [maps, List.filterMap_append, List.mem_append] at hm ⊢; exact Or.inl hm))
    have keep : ∀ (a : Expl ℝ) (o : List (Out ℝ)), a.ec.basis = s.ec.basis → a.ec.phik = s.ec.phik →
        (∀ p, Out.trajectory p ∉ o) →
        (¬ Replanned (os ++ [o]).flatten ∧ a.ec.basis.lx = 0 ∧ a.ec.basis.ly = 0) ∨
        (RightCoeffs num_basis target g resolution a.ec.phik ∧ a.ec.basis.lx = g.xmax - g.xmin ∧
          a.ec.basis.ly = g.ymax - g.ymin) := by
      intro a o h1 h2 h3
      rw [h1, h2]
      rcases ih with ⟨i1, i2, i3⟩ | i
      · left
        refine ⟨?_, i2, i3⟩
        rintro ⟨p, hp⟩
        simp only [List.flatten_append, List.mem_append, List.flatten_cons, List.flatten_nil,
          List.append_nil] at hp
        rcases hp with hp | hp
        · exact i1 ⟨p, hp⟩
        · exact h3 p hp
      · exact Or.inr i
    cases e with
    | map m =>
      simp only [Expl.step, Res.ok.injEq, Prod.mk.injEq] at hs
      obtain ⟨rfl, rfl⟩ := hs
      exact keep _ _ rfl rfl (by simp)
    | odom v =>
      simp only [Expl.step, Res.ok.injEq, Prod.mk.injEq] at hs
      obtain ⟨rfl, rfl⟩ := hs
      exact keep _ _ rfl rfl (by simp)
    | tick tf draws =>
      have hloc : (s.localize tf).ec.basis = s.ec.basis ∧ (s.localize tf).ec.phik = s.ec.phik := by
        cases tf <;> exact ⟨rfl, rfl⟩
      have hadv : (s.localize tf).advanceDwa.ec.basis = s.ec.basis ∧
          (s.localize tf).advanceDwa.ec.phik = s.ec.phik := by
        obtain ⟨i, f, e⟩ := (s.localize tf).advanceDwa_frame
        rw [e]; exact hloc
      rcases Expl.iteration_ok hs with ⟨-, rfl, rfl⟩ | ⟨hact, r, o1, o2, hrp, ha, rfl⟩
      · exact keep _ _ hloc.1 hloc.2 (by simp)
      · have ho2 : ∀ p, Out.trajectory p ∉ o2 := by
          rcases Expl.avoid_ok ha with ⟨-, -, rfl⟩ | ⟨-, ⟨-, b, u, -, -, rfl⟩ |
            ⟨-, ref, b, u, -, -, ⟨-, -, rfl⟩ | ⟨-, p, -, -, rfl⟩⟩⟩ <;> simp
        have hte : t.ec = r.ec := by
          rcases Expl.avoid_ok ha with ⟨-, rfl, -⟩ | ⟨-, ⟨-, b, u, -, rfl, -⟩ |
            ⟨-, ref, b, u, -, -, ⟨-, rfl, -⟩ | ⟨-, p, -, rfl, -⟩⟩⟩ <;> rfl
        have hi := (ht.inv.localize tf draws).advance
        rcases Expl.replan_ok hrp with ⟨-, rfl, rfl⟩ | ⟨-, ec', u, p, hc, -, rfl, rfl⟩
        · exact keep _ _ (by rw [hte]; exact hadv.1) (by rw [hte]; exact hadv.2) (by
            intro p hp
            simp only [List.nil_append, List.mem_append, List.mem_singleton, reduceCtorEq, or_false] at hp
            exact ho2 p hp)
        · right
          rw [hte]
          show RightCoeffs num_basis target g resolution ec'.phik ∧ _
          obtain ⟨i, f, he⟩ := (s.localize tf).advanceDwa_frame
          -- the map
          have hmap : ∃ m ∈ maps (es ++ [Event.tick tf draws]),
              (s.localize tf).advanceDwa.grid = mapOf m := by
            have h1 := hi.map_received_eq
            rw [he] at h1
            rw [Bool.and_eq_true] at hact
            rw [show (s.localize tf).map_received = true from hact.1] at h1
            cases hl : (maps (es ++ [Event.tick tf draws])).getLast? with
            | none =>
              rw [List.getLast?_eq_none_iff] at hl
              rw [hl] at h1; simp at h1
            | some m => exact ⟨m, List.mem_of_getLast? hl, hi.grid_eq m hl⟩
          obtain ⟨m, hm, hgrid⟩ := hmap
          have hrect := hr m hm
          rw [hgrid] at hc
          have hb : EcBuilt model collision dt horizon resolution weight num_basis buffer_size batch_size
            Rinv umin umax (s.localize tf).advanceDwa.ec := ⟨ec, hec, hi.ec_reach⟩
          have htar : (s.localize tf).advanceDwa.ec.target = target := hi.target_eq
          have hcase : (1 / 10 ^ 12 ≤ |(mapOf m).xmax - (mapOf m).xmin -
                (s.localize tf).advanceDwa.ec.basis.lx| ∨
              1 / 10 ^ 12 ≤ |(mapOf m).ymax - (mapOf m).ymin - (s.localize tf).advanceDwa.ec.basis.ly|) ∨
              (RightCoeffs num_basis target g resolution s.ec.phik ∧ s.ec.basis.lx = g.xmax - g.xmin ∧
                s.ec.basis.ly = g.ymax - g.ymin) := by
            rcases ih with ⟨-, i2, i3⟩ | ih
            · left
              rw [hadv.1, i2, i3, hrect.1, hrect.2.1, hrect.2.2.1, hrect.2.2.2, sub_zero, sub_zero]
              rcases hne with h | h
              · exact Or.inl (h.trans (le_abs_self _))
              · exact Or.inr (h.trans (le_abs_self _))
            · exact Or.inr ih
          rcases hcase with hcase | ⟨i1, i2, i3⟩
          · obtain ⟨-, a2, a3, a4⟩ := C61_new_size_partial hb hc hres (by rw [hrect.1, hrect.2.1]; exact hx)
              (by rw [hrect.2.2.1, hrect.2.2.2]; exact hy)
              (by rw [hrect.1, hrect.2.1, hrect.2.2.1, hrect.2.2.2]; exact hfit) hcase
            rw [htar] at a4
            refine ⟨rightCoeffs_congr ⟨hrect.1.symm, hrect.2.1.symm, hrect.2.2.1.symm,
              hrect.2.2.2.symm⟩ a4, ?_, ?_⟩
            · show ec'.basis.lx = _
              rw [a2, hrect.1, hrect.2.1]
            · show ec'.basis.ly = _
              rw [a3, hrect.2.2.1, hrect.2.2.2]
          · obtain ⟨a1, -, a3⟩ := C61_same_size_keeps hb hc
              (by rw [hadv.1, i2, hrect.1, hrect.2.1]; norm_num)
              (by rw [hadv.1, i3, hrect.2.2.1, hrect.2.2.2]; norm_num)
            refine ⟨?_, ?_, ?_⟩
            · rw [a1, hadv.2]; exact i1
            · show ec'.basis.lx = _
              rw [a3, hadv.1, i2]
            · show ec'.basis.ly = _
              rw [a3, hadv.1, i3]

/-- The Gaussians listed in the parameters. -/
def ConfiguredTarget (p : Params ℝ) (t : Target ℝ) : Prop :=
  (p.targets.mapM fun t => Gaussian.new t.1 t.2) = .ok t.gaussians

/-- C61 for either executable, any history in which all maps cover the same rectangle: from the
first plan on, the coefficients the controller steers by are those of the configured target on
that rectangle, in the coordinates of the map.  Missing: maps of equal size at another position,
see `C61_refuted`. -/
theorem C61_node_partial (p : Params ℝ) (n n' : Node ℝ) (o out : List (Out ℝ)) (es : List (Event ℝ))
    (hn : Node.omni p = .ok (n, o) ∨ Node.cart p = .ok (n, o)) (hr : n.run es = .ok (n', out))
    (g : GridMap ℝ) (hg : SameRect es g.xmin g.xmax g.ymin g.ymax) (hres : 0 < p.target_resolution)
    (hx : g.xmin ≤ g.xmax) (hy : g.ymin ≤ g.ymax)
    (hfit : (⌊(g.xmax - g.xmin) / p.target_resolution + 1 / 2⌋₊ + 1) *
      (⌊(g.ymax - g.ymin) / p.target_resolution + 1 / 2⌋₊ + 1) < 2 ^ 32)
    (hne : 1 / 10 ^ 12 ≤ g.xmax - g.xmin ∨ 1 / 10 ^ 12 ≤ g.ymax - g.ymin) (hp : Replanned out) :
    ∃ t, ConfiguredTarget p t ∧
      RightCoeffs p.num_basis t g p.target_resolution n'.expl.ec.phik := by
  have fin : ∀ {model : TwistModel ℝ} {collision : Collision ℝ} {Rinv : M3 ℝ} {umin umax : V3 ℝ}
      {ec : ErgodicControl ℝ} {dwa : DynamicWindow ℝ} {gs : List (Gaussian ℝ)},
      ErgodicControl.new model collision p.ec_dt p.ec_horizon p.target_resolution p.expl_weight
        p.num_basis p.buffer_size p.batch_size Rinv umin umax = .ok ec →
      (n.expl, o) = Expl.start ec collision dwa ⟨gs⟩ p.map_frame_id p.val_dt p.val_horizon →
      RightCoeffs p.num_basis ⟨gs⟩ g p.target_resolution n'.expl.ec.phik := by
    intro model collision Rinv umin umax ec dwa gs hec hs
    have hup : n.up = true := by
      cases hu : n.up with
      | true => rfl
      | false =>
        rw [node_run_down n hu es] at hr
        simp only [Res.ok.injEq, Prod.mk.injEq] at hr
        rw [← hr.2] at hp
        simp [Replanned] at hp
    have h1 := (node_run_up n n' hup es out hr).1
    rw [show n.expl = _ from congrArg Prod.fst hs, run_iff_trace] at h1
    obtain ⟨os, ht, rfl⟩ := h1
    rcases coeffs_inv hec ht g hres hx hy hfit hne hg with ⟨h2, -⟩ | ⟨h2, -⟩
    · exact absurd hp h2
    · exact h2
  rcases hn with hn | hn
  · obtain ⟨w0, w1, w2, gs, collision, ec, dwa, ⟨-, -, -, hgs, -⟩, hec, -, hs, -⟩ := omni_parts hn
    exact ⟨⟨gs⟩, hgs, fin hec hs⟩
  · obtain ⟨w0, w1, gs, collision, ec, dwa, ⟨-, -, hgs, -⟩, hec, -, hs, -⟩ := cart_parts hn
    exact ⟨⟨gs⟩, hgs, fin hec hs⟩

/-! ## C64 for a node -/

theorem node_ec {p : Params ℝ} {n n' : Node ℝ} {o out : List (Out ℝ)} {es : List (Event ℝ)}
    {ec : ErgodicControl ℝ} {collision : Collision ℝ} {dwa : DynamicWindow ℝ} {target : Target ℝ}
    (hs : (n.expl, o) = Expl.start ec collision dwa target p.map_frame_id p.val_dt p.val_horizon)
    (hr : n.run es = .ok (n', out)) : EcReach ec n'.expl.ec := by
  cases hu : n.up with
  | true =>
    have h1 := (node_run_up n n' hu es out hr).1
    rw [show n.expl = _ from congrArg Prod.fst hs, run_iff_trace] at h1
    obtain ⟨os, ht, rfl⟩ := h1
    exact ht.inv.ec_reach
  | false =>
    rw [node_run_down n hu es] at hr
    simp only [Res.ok.injEq, Prod.mk.injEq] at hr
    rw [← hr.1, show n.expl = _ from congrArg Prod.fst hs]
    exact .setTarget _ .start

/-- C64 for the omni-directional robot: after any history, every control the update computes is the
minimiser, within the configured velocity limits, of the control Hamiltonian with the configured
control weights. -/
theorem C64_node_omni (p : Params ℝ) (n n' : Node ℝ) (o out : List (Out ℝ)) (es : List (Event ℝ))
    (hn : Node.omni p = .ok (n, o)) (hr : n.run es = .ok (n', out)) (w0 w1 w2 : ℝ) (ws : List ℝ)
    (hw : p.control_weights = w0 :: w1 :: w2 :: ws) (h0 : 0 < w0) (h1 : 0 < w1) (h2 : 0 < w2)
    (x rho u : V3 ℝ) (hu : n'.expl.ec.newControl x rho = .ok u) :
    WithinParams p u ∧ ∀ v, WithinParams p v →
      hamiltonian ⟨w0, w1, w2⟩ rho (omniModel.fdu x) u +
        (w0 * (v.c0 - u.c0) ^ 2 + w1 * (v.c1 - u.c1) ^ 2 + w2 * (v.c2 - u.c2) ^ 2) / 2 ≤
      hamiltonian ⟨w0, w1, w2⟩ rho (omniModel.fdu x) v := by
  obtain ⟨a0, a1, a2, gs, collision, ec, dwa, ⟨e0, e1, e2, -, -⟩, hec, -, hs, -⟩ := omni_parts hn
  rw [hw] at e0 e1 e2
  simp only [List.getElem?_cons_zero, List.getElem?_cons_succ, Option.some.injEq] at e0 e1 e2
  subst e0 e1 e2
  have hi := EcBuilt.inv ⟨ec, hec, node_ec hs hr⟩
  have hm := C64_minimises n'.expl.ec ⟨w0, w1, w2⟩ x rho u h0 h1 h2
    (by rw [hi.Rinv_eq]; simp [diag3]) hu
  rw [hi.umin_eq, hi.umax_eq, hi.model_eq] at hm
  have hin : ∀ v : V3 ℝ, InBox (F := ℝ) ⟨p.min_vel_x, p.min_vel_y, p.min_rot_vel⟩ v
      ⟨p.max_vel_x, p.max_vel_y, p.max_rot_vel⟩ ↔ WithinParams p v := by
    intro v
    rw [← inBox_real]; simp only [NotOutside, real_lt_false, WithinParams]
  exact ⟨(hin u).mp hm.1, fun v hv => hm.2 v ((hin v).mpr hv)⟩

/-- C64 for the cart: the same with the two configured weights for forward and rotational velocity,
among the controls without lateral velocity. -/
theorem C64_node_cart (p : Params ℝ) (n n' : Node ℝ) (o out : List (Out ℝ)) (es : List (Event ℝ))
    (hn : Node.cart p = .ok (n, o)) (hr : n.run es = .ok (n', out)) (w0 w1 : ℝ) (ws : List ℝ)
    (hw : p.control_weights = w0 :: w1 :: ws) (h0 : 0 < w0) (h1 : 0 < w1)
    (x rho u : V3 ℝ) (hu : n'.expl.ec.newControl x rho = .ok u) :
    (p.min_vel_x ≤ u.c0 ∧ u.c0 ≤ p.max_vel_x ∧ u.c1 = 0 ∧ p.min_rot_vel ≤ u.c2 ∧
      u.c2 ≤ p.max_rot_vel) ∧
    ∀ v : V3 ℝ, p.min_vel_x ≤ v.c0 → v.c0 ≤ p.max_vel_x → v.c1 = 0 → p.min_rot_vel ≤ v.c2 →
      v.c2 ≤ p.max_rot_vel →
      hamiltonian ⟨w0, 0, w1⟩ rho (cartModel.fdu x) u +
        (w0 * (v.c0 - u.c0) ^ 2 + w1 * (v.c2 - u.c2) ^ 2) / 2 ≤
      hamiltonian ⟨w0, 0, w1⟩ rho (cartModel.fdu x) v := by
  obtain ⟨a0, a1, gs, collision, ec, dwa, ⟨e0, e1, -, -⟩, hec, -, hs, -⟩ := cart_parts hn
  rw [hw] at e0 e1
  simp only [List.getElem?_cons_zero, List.getElem?_cons_succ, Option.some.injEq] at e0 e1
  subst e0 e1
  have hi := EcBuilt.inv ⟨ec, hec, node_ec hs hr⟩
  -- the lateral weight does not matter: the lateral limits are zero
  have hz : ∀ c : ℝ, ErgodicControl.clampR c (0 : ℝ) 0 = .ok 0 := by
    intro c
    have h1 : InBox (F := ℝ) ⟨0, 0, 0⟩ ⟨0, fclamp c 0 0, 0⟩ ⟨0, 0, 0⟩ := by
      rw [← inBox_real]
      have hb : ErgodicControl.clampR c (0 : ℝ) 0 = .ok (fclamp c 0 0) := by
        rw [ErgodicControl.clampR, if_neg (by rw [real_lt]; exact lt_irrefl _)]
      have := clampR_ok hb
      simp only [NotOutside, real_lt_false] at this ⊢
      exact ⟨⟨le_refl _, le_refl _⟩, this, le_refl _, le_refl _⟩
    rw [ErgodicControl.clampR, if_neg (by rw [real_lt]; exact lt_irrefl _)]
    rw [← inBox_real] at h1
    simp only [NotOutside, real_lt_false] at h1
    rw [le_antisymm h1.2.1.2 h1.2.1.1]
  have hu' : ({ n'.expl.ec with
      Rinv := ⟨⟨1 / w0, 0, 0⟩, ⟨0, 1 / 1, 0⟩, ⟨0, 0, 1 / w1⟩⟩ } : ErgodicControl ℝ).newControl x rho =
      .ok u := by
    rw [← hu]
    simp only [ErgodicControl.newControl, hi.Rinv_eq, hi.umin_eq, hi.umax_eq, diag3, M3.mulVec, M3.mul,
      M3.neg, V3.neg, real_lit, real_div, real_neg]
    norm_num
    simp only [hz]
  have hm := C64_minimises _ ⟨w0, 1, w1⟩ x rho u h0 one_pos h1 rfl hu'
  simp only [hi.umin_eq, hi.umax_eq, hi.model_eq] at hm
  have hin : ∀ v : V3 ℝ, InBox (F := ℝ) ⟨p.min_vel_x, lit 0 0, p.min_rot_vel⟩ v
      ⟨p.max_vel_x, lit 0 0, p.max_rot_vel⟩ ↔
      (p.min_vel_x ≤ v.c0 ∧ v.c0 ≤ p.max_vel_x ∧ v.c1 = 0 ∧ p.min_rot_vel ≤ v.c2 ∧
        v.c2 ≤ p.max_rot_vel) := by
    intro v
    rw [← inBox_real]
    simp only [NotOutside, real_lt_false, real_lit]
    norm_num
    constructor
    · rintro ⟨⟨a, b⟩, ⟨c, d⟩, e, f⟩
      exact ⟨a, b, le_antisymm d c, e, f⟩
    · rintro ⟨a, b, c, e, f⟩
      exact ⟨⟨a, b⟩, ⟨c.ge, c.le⟩, e, f⟩
  have hu1 := (hin u).mp hm.1
  refine ⟨hu1, fun v a b c d e => ?_⟩
  have := hm.2 v ((hin v).mpr ⟨a, b, c, d, e⟩)
  simp only [hamiltonian, hu1.2.2.1, c] at this ⊢
  linarith

/-- The hypotheses of `C61_node_partial` and `C64_node_omni` are met by a run in which the robot
stands in the middle of a 3 by 3 map. -/
example : ∃ (p : Params ℝ) (n n' : Node ℝ) (o out : List (Out ℝ)) (es : List (Event ℝ)),
    Node.omni p = .ok (n, o) ∧ n.run es = .ok (n', out) ∧ SameRect es 0 3 0 3 ∧
    0 < p.target_resolution ∧ (⌊((3:ℝ) - 0) / p.target_resolution + 1 / 2⌋₊ + 1) *
      (⌊((3:ℝ) - 0) / p.target_resolution + 1 / 2⌋₊ + 1) < 2 ^ 32 ∧ Replanned out ∧
    p.control_weights = [1, 1, 1] ∧ ∃ u, n'.expl.ec.newControl ⟨0, 0, 0⟩ ⟨1, 2, 3⟩ = .ok u := by
  obtain ⟨target, ec, Rinv, o, hec, hn⟩ := side_omni 1 1 (by norm_num) (by norm_num) (1/2) (-1) 1
  obtain ⟨t, out, hr, -, -, -, -, -, -, -, -, -, -, -, -, -, hp⟩ :=
    side_run target 1 1 (1/2) (-1) 1 (by norm_num) (by norm_num)
      (by norm_num) (by norm_num) (by norm_num) (Or.inl rfl) hec
  have hrun := node_run_of_expl ⟨_, !Flt.lt (2:ℝ) 1⟩ lt_two_one _ _ _ hr
  refine ⟨_, _, _, _, out, _, hn, hrun, ?_, ?_, ?_, hp, rfl, ?_⟩
  · intro m hm
    simp only [maps, Event.map?, List.filterMap_cons, List.filterMap_nil, List.mem_singleton] at hm
    subst hm
    simp only [mapOf, sideMsg, real_add, real_mul, real_ofInt, UInt32.toNat_ofNat]
    norm_num
  · show (0:ℝ) < 1; norm_num
  · have hf : ⌊(7:ℝ) / 2⌋₊ = 3 := by
      rw [Nat.floor_eq_iff (by norm_num)]; constructor <;> norm_num
    show (⌊((3:ℝ) - 0) / 1 + 1 / 2⌋₊ + 1) * (⌊((3:ℝ) - 0) / 1 + 1 / 2⌋₊ + 1) < 2 ^ 32
    norm_num [hf]
  · rw [run_iff_trace] at hr
    obtain ⟨os, ht, -⟩ := hr
    have hi := EcBuilt.inv ⟨ec, hec, ht.inv.ec_reach⟩
    exact C64_total _ _ _ (by rw [hi.umin_eq, hi.umax_eq]; norm_num)
      (by rw [hi.umin_eq, hi.umax_eq]; norm_num) (by rw [hi.umin_eq, hi.umax_eq]; norm_num)

end Ergodic
