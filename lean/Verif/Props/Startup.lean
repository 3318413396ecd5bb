import Verif.Props.Running

/-!
# Property C78: when a node starts

Exact arithmetic.
-/

namespace Ergodic

/-- What the start-up of either node checks, apart from the number of control weights. -/
def StartsWith (p : Params ℝ) : Prop :=
  (∀ t ∈ p.targets, t.2.c0 ≠ 0 ∧ t.2.c1 ≠ 0) ∧ p.boundary_radius ≤ p.search_radius ∧
  0 ≤ p.occupied_threshold ∧ p.occupied_threshold ≤ 100

theorem gaussian_ok (mu s : V2 ℝ) : (∃ g, Gaussian.new mu s = .ok g) ↔ s.c0 ≠ 0 ∧ s.c1 ≠ 0 := by
  unfold Gaussian.new
  dsimp only
  have h0 : (lit 0 0 : ℝ) = 0 := by simp
  simp only [real_mul, h0, real_lt, mul_self_pos]
  by_cases h : s.c0 ≠ 0 ∧ s.c1 ≠ 0
  · rw [if_neg (by tauto)]
    exact ⟨fun _ => h, fun _ => ⟨_, rfl⟩⟩
  · rw [if_pos (by tauto)]
    exact ⟨fun ⟨g, hg⟩ => by simp at hg, fun hh => absurd hh h⟩

theorem mapM_isOk {α β : Type} (f : α → Res β) (l : List α) :
    (∃ r, l.mapM f = .ok r) ↔ ∀ a ∈ l, ∃ b, f a = .ok b := by
  induction l with
  | nil => exact ⟨fun _ => by simp, fun _ => ⟨[], rfl⟩⟩
  | cons a l ih =>
    rw [List.mapM_cons]
    constructor
    · rintro ⟨r, hr⟩
      simp only [Res.bind_eq_ok] at hr
      obtain ⟨b, hb, r', hr', -⟩ := hr
      intro x hx
      rw [List.mem_cons] at hx
      rcases hx with rfl | hx
      · exact ⟨b, hb⟩
      · exact ih.mp ⟨r', hr'⟩ x hx
    · intro h
      obtain ⟨b, hb⟩ := h a (by simp)
      obtain ⟨r', hr'⟩ := ih.mpr fun x hx => h x (by simp [hx])
      rw [hb, Res.ok_bind, hr']
      exact ⟨_, rfl⟩

theorem collision_ok (b s o t : ℝ) : (∃ c, Collision.new b s o t = .ok c) ↔ b ≤ s ∧ 0 ≤ t ∧ t ≤ 100 := by
  unfold Collision.new
  have h0 : (lit 0 0 : ℝ) = 0 := by simp
  have h1 : (lit 100 0 : ℝ) = 100 := by simp
  simp only [h0, h1]
  by_cases h : s < b
  · rw [if_pos (by rwa [real_lt])]
    exact ⟨fun ⟨g, hg⟩ => by simp at hg, fun hh => absurd hh.1 (by linarith)⟩
  · rw [if_neg (by rwa [real_lt])]
    by_cases h2 : 100 < t ∨ t < 0
    · rw [if_pos (by rw [Bool.or_eq_true, real_lt, real_lt]; exact h2)]
      refine ⟨fun ⟨g, hg⟩ => by simp at hg, fun hh => ?_⟩
      rcases h2 with h2 | h2 <;> linarith [hh.2.1, hh.2.2]
    · rw [if_neg (by rw [Bool.or_eq_true, real_lt, real_lt]; exact h2)]
      push Not at h2
      exact ⟨fun _ => ⟨not_lt.mp h, h2.2, h2.1⟩, fun _ => ⟨_, rfl⟩⟩

theorem vecAt_some {α : Type} {l : List α} {i : Nat} (h : i < l.length) : ∃ v, vecAt l i = .ok v := by
  unfold vecAt
  rw [List.getElem?_eq_getElem h]
  exact ⟨_, rfl⟩

theorem control_starts {p : Params ℝ} (hp : Sane p) (model : TwistModel ℝ) (c : Collision ℝ) (Rinv : M3 ℝ)
    (umin umax : V3 ℝ) : ∃ ec, ErgodicControl.new model c p.ec_dt p.ec_horizon p.target_resolution
      p.expl_weight p.num_basis p.buffer_size p.batch_size Rinv umin umax = .ok ec := by
  obtain ⟨N, hN, hNf⟩ := numSteps_floor hp.ec_dt (by linarith [hp.ec_two, hp.ec_dt]) hp.ec_fits
  have h2 : 2 ≤ N.toNat := by
    rw [hNf]
    refine Nat.le_floor ?_
    rw [le_div_iff₀ hp.ec_dt]
    exact_mod_cast hp.ec_two
  unfold ErgodicControl.new
  rw [hN, Res.ok_bind, if_neg]
  · exact ⟨_, rfl⟩
  · rintro rfl
    revert h2
    decide

theorem window_starts {p : Params ℝ} (hp : Sane p) (c : Collision ℝ) (ay ylo yhi : ℝ) (n : UInt32) :
    ∃ d, DynamicWindow.new c p.dwa_dt p.dwa_horizon p.acc_dt p.acc_lim_x ay p.acc_lim_th p.max_vel_x
      p.min_vel_x yhi ylo p.max_rot_vel p.min_rot_vel p.vx_samples n p.vth_samples = .ok d := by
  obtain ⟨N, hN, -⟩ := numSteps_floor hp.dwa_dt hp.dwa_horizon hp.dwa_fits
  unfold DynamicWindow.new
  rw [hN]
  exact ⟨_, rfl⟩

/-- C78 for the omni-directional robot: with sane steps and limits, the start-up succeeds exactly
when there are three control weights, no standard deviation is zero, the search radius is not below
the boundary radius and the occupancy threshold is a percentage. -/
theorem C78_starts_omni (p : Params ℝ) (hp : Sane p) :
    (∃ n o, Node.omni p = .ok (n, o)) ↔ 3 ≤ p.control_weights.length ∧ StartsWith p := by
  constructor
  · rintro ⟨n, o, h⟩
    obtain ⟨w0, w1, w2, gs, collision, ec, dwa, ⟨-, -, h2, hgs, hcol⟩, -⟩ := omni_parts h
    have hg := (mapM_isOk _ _).mp ⟨gs, hgs⟩
    obtain ⟨a, b, c⟩ := (collision_ok _ _ _ _).mp ⟨_, hcol⟩
    refine ⟨?_, fun t ht => (gaussian_ok _ _).mp (hg t ht), a, b, c⟩
    by_contra hlt
    rw [List.getElem?_eq_none (by omega)] at h2
    simp at h2
  · rintro ⟨h3, hg, a, b, c⟩
    obtain ⟨w0, hw0⟩ := vecAt_some (show 0 < p.control_weights.length by omega)
    obtain ⟨w1, hw1⟩ := vecAt_some (show 1 < p.control_weights.length by omega)
    obtain ⟨w2, hw2⟩ := vecAt_some (show 2 < p.control_weights.length by omega)
    obtain ⟨gs, hgs⟩ := (mapM_isOk (fun t : V2 ℝ × V2 ℝ => Gaussian.new t.1 t.2) p.targets).mpr
      fun t ht => (gaussian_ok _ _).mpr (hg t ht)
    obtain ⟨col, hcol⟩ := (collision_ok p.boundary_radius p.search_radius p.obstacle_threshold
      p.occupied_threshold).mpr ⟨a, b, c⟩
    obtain ⟨ec, hec⟩ := control_starts hp omniModel col
      (diag3 (lit 1 0 /. w0) (lit 1 0 /. w1) (lit 1 0 /. w2)) ⟨p.min_vel_x, p.min_vel_y, p.min_rot_vel⟩
      ⟨p.max_vel_x, p.max_vel_y, p.max_rot_vel⟩
    obtain ⟨d, hd⟩ := window_starts hp col p.acc_lim_y p.min_vel_y p.max_vel_y p.vy_samples
    unfold Node.omni
    simp only [hw0, hw1, hw2, hgs, hcol, hec, hd, Res.ok_bind]
    exact ⟨_, _, rfl⟩

/-- C78 for the cart: two control weights suffice. -/
theorem C78_starts_cart (p : Params ℝ) (hp : Sane p) :
    (∃ n o, Node.cart p = .ok (n, o)) ↔ 2 ≤ p.control_weights.length ∧ StartsWith p := by
  constructor
  · rintro ⟨n, o, h⟩
    obtain ⟨w0, w1, gs, collision, ec, dwa, ⟨-, h2, hgs, hcol⟩, -⟩ := cart_parts h
    have hg := (mapM_isOk _ _).mp ⟨gs, hgs⟩
    obtain ⟨a, b, c⟩ := (collision_ok _ _ _ _).mp ⟨_, hcol⟩
    refine ⟨?_, fun t ht => (gaussian_ok _ _).mp (hg t ht), a, b, c⟩
    by_contra hlt
    rw [List.getElem?_eq_none (by omega)] at h2
    simp at h2
  · rintro ⟨h3, hg, a, b, c⟩
    obtain ⟨w0, hw0⟩ := vecAt_some (show 0 < p.control_weights.length by omega)
    obtain ⟨w1, hw1⟩ := vecAt_some (show 1 < p.control_weights.length by omega)
    obtain ⟨gs, hgs⟩ := (mapM_isOk (fun t : V2 ℝ × V2 ℝ => Gaussian.new t.1 t.2) p.targets).mpr
      fun t ht => (gaussian_ok _ _).mpr (hg t ht)
    obtain ⟨col, hcol⟩ := (collision_ok p.boundary_radius p.search_radius p.obstacle_threshold
      p.occupied_threshold).mpr ⟨a, b, c⟩
    obtain ⟨ec, hec⟩ := control_starts hp cartModel col
      (diag3 (lit 1 0 /. w0) (lit 0 0) (lit 1 0 /. w1)) ⟨p.min_vel_x, lit 0 0, p.min_rot_vel⟩
      ⟨p.max_vel_x, lit 0 0, p.max_rot_vel⟩
    obtain ⟨d, hd⟩ := window_starts hp col (lit 0 0) (lit 0 0) (lit 0 0) 0
    unfold Node.cart
    simp only [hw0, hw1, hgs, hcol, hec, hd, Res.ok_bind]
    exact ⟨_, _, rfl⟩

/-- C78: whatever the parameters and the arithmetic, too few control weights make the start-up throw
`std::out_of_range` before anything else is looked at. -/
theorem C78_too_few_weights {F : Type} [Flt F] (p : Params F) :
    (p.control_weights.length < 3 → Node.omni p = .throw .outOfRange) ∧
    (p.control_weights.length < 2 → Node.cart p = .throw .outOfRange) := by
  have hno : ∀ i, p.control_weights.length ≤ i → vecAt p.control_weights i = .throw .outOfRange := by
    intro i hi
    unfold vecAt
    rw [List.getElem?_eq_none hi]
  have hyes : ∀ i, i < p.control_weights.length → ∃ v, vecAt p.control_weights i = .ok v :=
    fun i hi => vecAt_some hi
  constructor
  · intro h
    unfold Node.omni
    by_cases h0 : 0 < p.control_weights.length
    · obtain ⟨w0, hw0⟩ := hyes 0 h0
      by_cases h1 : 1 < p.control_weights.length
      · obtain ⟨w1, hw1⟩ := hyes 1 h1
        simp only [hw0, hw1, hno 2 (by omega), Res.ok_bind, Res.throw_bind]
      · simp only [hw0, hno 1 (by omega), Res.ok_bind, Res.throw_bind]
    · simp only [hno 0 (by omega), Res.throw_bind]
  · intro h
    unfold Node.cart
    by_cases h0 : 0 < p.control_weights.length
    · obtain ⟨w0, hw0⟩ := hyes 0 h0
      simp only [hw0, hno 1 (by omega), Res.ok_bind, Res.throw_bind]
    · simp only [hno 0 (by omega), Res.throw_bind]

/-- Parameters meeting both sides of the equivalences. -/
example : Sane (sideParams 1 1 (-1) 1) ∧ StartsWith (sideParams 1 1 (-1) 1) ∧
    3 ≤ (sideParams 1 1 (-1) 1).control_weights.length := by
  refine ⟨side_sane, ⟨?_, ?_, ?_, ?_⟩, by simp [sideParams]⟩
  · intro t ht
    simp only [sideParams, List.mem_singleton] at ht
    subst ht
    norm_num
  all_goals simp only [sideParams]; norm_num

end Ergodic
