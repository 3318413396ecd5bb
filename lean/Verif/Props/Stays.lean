import Verif.Spec.Stays
import Verif.Props.Slip
import Verif.Props.ChangingMaps

/-!
# Property C125: an obstacle that stays on the maps stays clear of the robot, whatever else changes

Exact arithmetic.
-/

namespace Ergodic

/-! ## One check -/

/-- A free check keeps an obstacle out, if the robot cell changed by at most one king's move. -/
theorem kept_check {F : Type} [Flt F] (c : Collision F) {b rc : Int} (hb : 1 ≤ b) (hrc : b + 2 ≤ rc)
    (hseal : Sealed b rc) {g : GridMap F} {p : V3 F} {cfg : CollisionConfig} (hw : WellFormed g)
    (hcfg : c.config g p = .ok cfg) (hr : InRange g cfg) (h1 : cfg.r_bnd ≤ b) (h2 : cfg.r_col = rc)
    (h3 : rc ≤ cfg.r_max) {i j : Int} (ho : Occupied c.occupied_threshold g i j)
    (hf : c.collisionCheck g p = .ok false) {X Y : Int} (hX : |(j - cfg.cx) - X| ≤ 1) (hY : |(i - cfg.cy) - Y| ≤ 1)
    (hk : Kept b rc (max |X| |Y|) (min |X| |Y|)) :
    Kept b rc (max |j - cfg.cx| |i - cfg.cy|) (min |j - cfg.cx| |i - cfg.cy|) := by
  have hun := (C26_exact_partial c g hw p cfg hcfg hr).not.mp (by rw [hf]; simp)
  obtain ⟨k1, k2, k3, k4⟩ := king_max_min hX hY
  refine hk.step hb hrc hseal rfl rfl (le_min (abs_nonneg _) (abs_nonneg _)) min_le_max k1 k2 k3 k4 ?_
  intro r hr1 hr2 hring
  by_contra hle
  push Not at hle
  exact hun ⟨i, j, r, ho, by omega, by omega, by omega, hring, by rw [h2]; exact hle⟩

/-! ## Cells counted from the obstacle -/

/-- How many cells of side `ρ` lie between the cell of `x` and the cell centred at `o`, along one axis. -/
noncomputable def cellsFrom (o ρ x : ℝ) : Int := -⌊(x - o) / ρ + 1 / 2⌋

theorem cellsFrom_eq {o ρ x lo : ℝ} (hρ : 0 < ρ) {n : ℕ} {j : Int} (ho : lo + (j + 1 / 2) * ρ = o)
    (h0 : lo + n * ρ ≤ x) (h1 : x < lo + (n + 1) * ρ) : cellsFrom o ρ x = j - n := by
  have : ⌊(x - o) / ρ + 1 / 2⌋ = (n : Int) - j := by
    rw [Int.floor_eq_iff]
    have e : (x - o) / ρ + 1 / 2 = (x - (lo + j * ρ)) / ρ := by
      rw [← ho]; field_simp; ring
    rw [e, le_div_iff₀ hρ, div_lt_iff₀ hρ]
    push_cast
    constructor <;> linarith
  unfold cellsFrom
  rw [this]
  ring

theorem cellsFrom_near {o ρ x x' : ℝ} (hρ : 0 < ρ) (h : |x' - x| ≤ ρ) : |cellsFrom o ρ x' - cellsFrom o ρ x| ≤ 1 := by
  rw [abs_le] at h
  have key : ∀ a b : ℝ, a - b ≤ ρ → ⌊(a - o) / ρ + 1 / 2⌋ ≤ ⌊(b - o) / ρ + 1 / 2⌋ + 1 := by
    intro a b hab
    rw [← Int.floor_add_one]
    apply Int.floor_le_floor
    have : (a - o) / ρ ≤ (b - o) / ρ + 1 := by
      rw [div_add_one hρ.ne']
      exact div_le_div_of_nonneg_right (by linarith) hρ.le
    linarith
  have k1 := key x' x (by linarith)
  have k2 := key x x' (by linarith)
  unfold cellsFrom
  rw [abs_le]
  omega

theorem cellsFrom_bounds {o ρ x : ℝ} (hρ : 0 < ρ) : |(o - x) - cellsFrom o ρ x * ρ| ≤ ρ / 2 := by
  have h1 := Int.floor_le ((x - o) / ρ + 1 / 2)
  have h2 := Int.lt_floor_add_one ((x - o) / ρ + 1 / 2)
  have e : (x - o) / ρ * ρ = x - o := div_mul_cancel₀ _ hρ.ne'
  unfold cellsFrom
  rw [abs_le]
  push_cast
  constructor <;> nlinarith

/-- The distance to the obstacle, and the distance in cells. -/
theorem planar_cellsFrom {ox oy ρ : ℝ} (hρ : 0 < ρ) (x : V3 ℝ) :
    |planar ⟨ox, oy, 0⟩ x - √(((cellsFrom ox ρ x.c0) * (cellsFrom ox ρ x.c0) +
      (cellsFrom oy ρ x.c1) * (cellsFrom oy ρ x.c1) : Int) : ℝ) * ρ| ≤ √2 / 2 * ρ := by
  have bx := abs_le.mp (cellsFrom_bounds (o := ox) (x := x.c0) hρ)
  have bY := abs_le.mp (cellsFrom_bounds (o := oy) (x := x.c1) hρ)
  generalize cellsFrom ox ρ x.c0 = X at *
  generalize cellsFrom oy ρ x.c1 = Y at *
  let q : V3 ℝ := ⟨ox - X * ρ, oy - Y * ρ, 0⟩
  have h2 : √((X * X + Y * Y : Int) : ℝ) * ρ = planar ⟨ox, oy, 0⟩ q := by
    unfold planar
    rw [show √((X * X + Y * Y : Int) : ℝ) * ρ = √((X * X + Y * Y : Int) : ℝ) * √(ρ ^ 2) by
      rw [Real.sqrt_sq hρ.le], ← Real.sqrt_mul' _ (sq_nonneg _)]
    congr 1
    simp only [q]
    push_cast
    ring
  have h3 : planar x q ≤ √2 / 2 * ρ := by
    unfold planar
    rw [show √2 / 2 * ρ = √(2 * (ρ / 2) ^ 2) by
      rw [Real.sqrt_mul' _ (sq_nonneg _), Real.sqrt_sq (by linarith)]; ring]
    apply Real.sqrt_le_sqrt
    have a : (x.c0 - (ox - X * ρ)) ^ 2 ≤ (ρ / 2) ^ 2 := sq_le_sq' (by linarith) (by linarith)
    have b : (x.c1 - (oy - Y * ρ)) ^ 2 ≤ (ρ / 2) ^ 2 := sq_le_sq' (by linarith) (by linarith)
    simp only [q]
    linarith
  have h4 : planar q x = planar x q := by unfold planar; ring_nf
  rw [h2, abs_le]
  constructor
  · have := planar_triangle ⟨ox, oy, 0⟩ x q; linarith
  · have := planar_triangle ⟨ox, oy, 0⟩ q x; linarith

/-- The obstacle centred at `(ox, oy)` has not slipped past the circles around `x`. -/
def KeptAt (b rc : Int) (ox oy ρ : ℝ) (x : V3 ℝ) : Prop :=
  Kept b rc (max |cellsFrom ox ρ x.c0| |cellsFrom oy ρ x.c1|) (min |cellsFrom ox ρ x.c0| |cellsFrom oy ρ x.c1|)

/-- One period: a robot that moves by at most a cell, to a place that is free on a map that shows the obstacle. -/
theorem keptAt_step (c : Collision ℝ) {m : OccupancyGrid ℝ} {ρ ox oy : ℝ} (hs : Sensible c (mapOf m))
    (hsh : ShowsAt c.occupied_threshold ρ ox oy m)
    (hsr : c.boundary_radius + c.obstacle_threshold ≤ c.search_radius) (hb : ρ ≤ c.boundary_radius)
    (hrc : ⌊c.boundary_radius / ρ⌋ + 2 ≤ ⌊(c.boundary_radius + c.obstacle_threshold) / ρ⌋)
    (hseal : Sealed ⌊c.boundary_radius / ρ⌋ ⌊(c.boundary_radius + c.obstacle_threshold) / ρ⌋) {x y : V3 ℝ}
    (hin : InsideBy m ρ x) (hd : planar y x ≤ ρ) (hf : c.collisionCheck (mapOf m) y = .ok false)
    (hk : KeptAt ⌊c.boundary_radius / ρ⌋ ⌊(c.boundary_radius + c.obstacle_threshold) / ρ⌋ ox oy ρ x) :
    KeptAt ⌊c.boundary_radius / ρ⌋ ⌊(c.boundary_radius + c.obstacle_threshold) / ρ⌋ ox oy ρ y := by
  obtain ⟨hres, i, j, ho, ex, ey⟩ := hsh
  have hr : 0 < m.resolution := hs.res
  obtain ⟨d0, d1⟩ := planar_axes hd
  obtain ⟨l1, l2, l3, l4⟩ := hin
  have d0' := abs_le.mp d0
  have d1' := abs_le.mp d1
  obtain ⟨v, u, hcfg, hrange, ⟨-, x1, x2⟩, -, y1, y2⟩ := config_rect c (mapOf m) hs y
    ⟨by show m.originX ≤ _; linarith, by show _ ≤ m.originX + m.width.toNat * m.resolution; linarith,
      by show m.originY ≤ _; linarith, by show _ ≤ m.originY + m.height.toNat * m.resolution; linarith⟩
  change m.originX + u * m.resolution ≤ y.c0 at x1
  change m.originY + v * m.resolution ≤ y.c1 at y1
  replace x2 : y.c0 < m.originX + (u + 1) * m.resolution := by
    rcases x2 with x2 | ⟨-, x2⟩
    · exact x2
    · change y.c0 = m.originX + m.width.toNat * m.resolution at x2; linarith
  replace y2 : y.c1 < m.originY + (v + 1) * m.resolution := by
    rcases y2 with y2 | ⟨-, y2⟩
    · exact y2
    · change y.c1 = m.originY + m.height.toNat * m.resolution at y2; linarith
  have hres' : (mapOf m).resolution = ρ := hres
  rw [hres'] at hcfg hrange
  rw [hres] at x1 x2 y1 y2 hr
  have eu := cellsFrom_eq hr ex x1 x2
  have ev := cellsFrom_eq hr ey y1 y2
  have hb1 : 1 ≤ ⌊c.boundary_radius / ρ⌋ := by
    rw [Int.le_floor]; push_cast; rw [le_div_iff₀ hr]; linarith
  have hmax : ⌊(c.boundary_radius + c.obstacle_threshold) / ρ⌋ ≤ ⌊c.search_radius / ρ⌋ :=
    Int.floor_le_floor (div_le_div_of_nonneg_right hsr hr.le)
  have n0 := cellsFrom_near (o := ox) hr d0
  have n1 := cellsFrom_near (o := oy) hr d1
  rw [eu] at n0
  rw [ev] at n1
  unfold KeptAt
  rw [eu, ev]
  exact kept_check c hb1 hrc hseal hs.wf hcfg hrange le_rfl rfl hmax ho hf n0 n1 hk

/-! ## Consecutive iterations -/

/-- Consecutive iterations of a driven robot: where the first publication took it. -/
theorem driven_pair {T : ℝ} {s0 : Expl ℝ} {es : List (Event ℝ)} {os : List (List (Out ℝ))}
    {l : Option (V3 ℝ × List (V3 ℝ))} (hdr : Driven T es os l) : ∀ t, Trace s0 es os t →
    (∀ pre e mid e' post p q, es = pre ++ e :: (mid ++ e' :: post) → e.pose? = some p → poses mid = [] →
      e'.pose? = some q → ∃ os1 s1 s2 o, Trace s0 pre os1 s1 ∧ s1.step e = .ok (s2, o) ∧ o ∈ os ∧
        Moved T p (twists o) q) ∧
    (l = none → poses es = []) ∧
    ∀ pre e mid p, es = pre ++ e :: mid → e.pose? = some p → poses mid = [] →
      ∃ os1 s1 s2 o, Trace s0 pre os1 s1 ∧ s1.step e = .ok (s2, o) ∧ o ∈ os ∧ l = some (p, twists o) := by
  -- the last event is the second of a pair, or the pair is older
  have pair : ∀ {es : List (Event ℝ)} {z : Event ℝ} {os : List (List (Out ℝ))} {o' : List (Out ℝ)},
      (∀ pre e mid e' post p q, es = pre ++ e :: (mid ++ e' :: post) → e.pose? = some p → poses mid = [] →
        e'.pose? = some q → ∃ os1 s1 s2 o, Trace s0 pre os1 s1 ∧ s1.step e = .ok (s2, o) ∧ o ∈ os ∧
          Moved T p (twists o) q) →
      (∀ pre e mid p q, es = pre ++ e :: mid → e.pose? = some p → poses mid = [] → z.pose? = some q →
        ∃ os1 s1 s2 o, Trace s0 pre os1 s1 ∧ s1.step e = .ok (s2, o) ∧ o ∈ os ∧ Moved T p (twists o) q) →
      ∀ pre e mid e' post p q, es ++ [z] = pre ++ e :: (mid ++ e' :: post) → e.pose? = some p → poses mid = [] →
        e'.pose? = some q → ∃ os1 s1 s2 o, Trace s0 pre os1 s1 ∧ s1.step e = .ok (s2, o) ∧ o ∈ os ++ [o'] ∧
          Moved T p (twists o) q := by
    intro es z os o' hold hnew pre e mid e' post p q hsplit hp hmid hq
    have widen : (∃ os1 s1 s2 o, Trace s0 pre os1 s1 ∧ s1.step e = .ok (s2, o) ∧ o ∈ os ∧ Moved T p (twists o) q) →
        ∃ os1 s1 s2 o, Trace s0 pre os1 s1 ∧ s1.step e = .ok (s2, o) ∧ o ∈ os ++ [o'] ∧ Moved T p (twists o) q := by
      rintro ⟨a, b, c, d, h1, h2, h3, h4⟩
      exact ⟨a, b, c, d, h1, h2, by simp [h3], h4⟩
    apply widen
    rcases List.eq_nil_or_concat post with rfl | ⟨post', z', rfl⟩
    · have h2 : es ++ [z] = (pre ++ e :: mid) ++ [e'] := by rw [hsplit]; simp
      obtain ⟨h3, h4⟩ := List.append_inj' h2 rfl
      cases h4
      exact hnew pre e mid p q h3 hp hmid hq
    · have h2 : es ++ [z] = (pre ++ e :: (mid ++ e' :: post')) ++ [z'] := by rw [hsplit]; simp
      obtain ⟨h3, -⟩ := List.append_inj' h2 rfl
      exact hold pre e mid e' post' p q h3 hp hmid hq
  -- the last event is an iteration
  have iter : ∀ {es : List (Event ℝ)} {z : Event ℝ} {os : List (List (Out ℝ))} {o : List (Out ℝ)} {t t' : Expl ℝ}
      {r : V3 ℝ}, Trace s0 es os t → t.step z = .ok (t', o) → z.pose? = some r →
      ∀ pre e mid p, es ++ [z] = pre ++ e :: mid → e.pose? = some p → poses mid = [] →
        ∃ os1 s1 s2 o', Trace s0 pre os1 s1 ∧ s1.step e = .ok (s2, o') ∧ o' ∈ os ++ [o] ∧
          some (r, twists o) = some (p, twists o') := by
    intro es z os o t t' r ht hs hz pre e mid p hsplit hp hmid
    rcases List.eq_nil_or_concat mid with rfl | ⟨mid', z', rfl⟩
    · obtain ⟨h3, h4⟩ := List.append_inj' hsplit rfl
      cases h4
      rw [hz, Option.some.injEq] at hp
      subst h3 hp
      exact ⟨os, t, t', o, ht, hs, by simp, rfl⟩
    · have h2 : es ++ [z] = (pre ++ e :: mid') ++ [z'] := by rw [hsplit]; simp
      obtain ⟨-, h4⟩ := List.append_inj' h2 rfl
      cases h4
      rw [List.concat_eq_append, poses_snoc, hz] at hmid
      simp at hmid
  induction hdr with
  | nil =>
    intro t ht
    exact ⟨by intro pre e mid e' post p q h; simp at h, fun _ => rfl, by intro pre e mid p h; simp at h⟩
  | @callback es os l z o hd' hz ih =>
    intro t ht
    obtain ⟨t', ht', hs⟩ := ht.last
    obtain ⟨i1, i2, i3⟩ := ih t' ht'
    have hz' := pose_none_of_not_tick hz
    refine ⟨pair i1 (by intro pre e mid p q _ _ _ hq; rw [hz'] at hq; cases hq), ?_, ?_⟩
    · intro h; rw [poses_snoc, i2 h, hz']; rfl
    · intro pre e mid p hsplit hp hmid
      rcases List.eq_nil_or_concat mid with rfl | ⟨mid', z', rfl⟩
      · obtain ⟨-, h4⟩ := List.append_inj' hsplit rfl
        cases h4
        rw [hz'] at hp
        cases hp
      · have h2 : es ++ [z] = (pre ++ e :: mid') ++ [z'] := by rw [hsplit]; simp
        obtain ⟨h3, h4⟩ := List.append_inj' h2 rfl
        cases h4
        rw [List.concat_eq_append, poses_snoc, List.append_eq_nil_iff] at hmid
        obtain ⟨a, b, c, d, h5, h6, h7, h8⟩ := i3 pre e mid' p h3 hp hmid.1
        exact ⟨a, b, c, d, h5, h6, by simp [h7], h8⟩
  | @first es os r z o hd' hz ih =>
    intro t ht
    obtain ⟨t', ht', hs⟩ := ht.last
    obtain ⟨i1, i2, i3⟩ := ih t' ht'
    refine ⟨pair i1 ?_, by simp, iter ht' hs hz⟩
    intro pre e mid p q h hp hmid _
    obtain ⟨_, _, _, _, _, _, _, h8⟩ := i3 pre e mid p h hp hmid
    cases h8
  | @next es os p' us r z o hd' hz hmv ih =>
    intro t ht
    obtain ⟨t', ht', hs⟩ := ht.last
    obtain ⟨i1, i2, i3⟩ := ih t' ht'
    refine ⟨pair i1 ?_, by simp, iter ht' hs hz⟩
    intro pre e mid p q h hp hmid hq
    obtain ⟨a, b, c, d, h5, h6, h7, h8⟩ := i3 pre e mid p h hp hmid
    simp only [Option.some.injEq, Prod.mk.injEq] at h8
    obtain ⟨rfl, rfl⟩ := h8
    rw [hz, Option.some.injEq] at hq
    subst hq
    exact ⟨a, b, c, d, h5, h6, h7, hmv⟩

/-- The last iteration with a transform. -/
theorem last_iteration {l : List (Event ℝ)} (h : poses l ≠ []) :
    ∃ a e b p, l = a ++ e :: b ∧ e.pose? = some p ∧ poses b = [] := by
  induction l using List.reverseRecOn with
  | nil => exact absurd rfl h
  | append_singleton l e ih =>
    cases he : e.pose? with
    | some p => exact ⟨l, e, [], p, rfl, he, rfl⟩
    | none =>
      rw [poses_snoc, he] at h
      obtain ⟨a, e', b, p, rfl, hp, hb⟩ := ih (by simpa using h)
      exact ⟨a, e', b ++ [e], p, by simp, hp, by rw [poses_snoc, hb, he]; rfl⟩

theorem mem_poses_split {l : List (Event ℝ)} {y : V3 ℝ} (h : y ∈ poses l) :
    ∃ a e b, l = a ++ e :: b ∧ e.pose? = some y := by
  obtain ⟨e, he, hy⟩ := List.mem_filterMap.mp h
  obtain ⟨a, b, rfl⟩ := List.append_of_mem he
  exact ⟨a, e, b, rfl, hy⟩

/-! ## The closed loop -/

variable {ec : ErgodicControl ℝ} {collision : Collision ℝ} {dwa : DynamicWindow ℝ} {target : Target ℝ}
  {frame : String} {val_dt val_horizon : ℝ} {es : List (Event ℝ)} {os : List (List (Out ℝ))} {t : Expl ℝ}

theorem driven_kept (hcol : dwa.collision = collision)
    (hsteps : numSteps dwa.horizon dwa.dt = .ok dwa.steps) (hv : 0 < val_dt) (hd : 0 < dwa.dt) {T : ℝ}
    (hTv : Instant T val_dt val_horizon) (hTd : Instant T dwa.dt dwa.horizon)
    {l : Option (V3 ℝ × List (V3 ℝ))} (hdr : Driven T es os l)
    (ht : Trace (Expl.start ec collision dwa target frame val_dt val_horizon).1 es os t) {ρ ox oy : ℝ} (hρ : 0 < ρ)
    (hw : ∀ o ∈ os, ∀ u ∈ twists o, Measurable u ∧ speed u * T ≤ ρ)
    (hsr : collision.boundary_radius + collision.obstacle_threshold ≤ collision.search_radius)
    (hb : ρ ≤ collision.boundary_radius)
    (hrc : ⌊collision.boundary_radius / ρ⌋ + 2 ≤ ⌊(collision.boundary_radius + collision.obstacle_threshold) / ρ⌋)
    (hseal : Sealed ⌊collision.boundary_radius / ρ⌋ ⌊(collision.boundary_radius + collision.obstacle_threshold) / ρ⌋)
    {pre post : List (Event ℝ)} {e : Event ℝ} {x : V3 ℝ} (hes : es = pre ++ e :: post) (hx : e.pose? = some x)
    (hmap : ∀ a e' b m y, e :: post = a ++ e' :: b → e'.pose? = some y → (maps (pre ++ a)).getLast? = some m →
      Sensible collision (mapOf m) ∧ ShowsAt collision.occupied_threshold ρ ox oy m ∧ InsideBy m ρ y)
    (h0 : KeptAt ⌊collision.boundary_radius / ρ⌋ ⌊(collision.boundary_radius + collision.obstacle_threshold) / ρ⌋
      ox oy ρ x) :
    ∀ k a e' b y, a.length = k → e :: post = a ++ e' :: b → e'.pose? = some y →
      KeptAt ⌊collision.boundary_radius / ρ⌋ ⌊(collision.boundary_radius + collision.obstacle_threshold) / ρ⌋
        ox oy ρ y := by
  have hT : 0 ≤ T := by
    obtain ⟨k, rfl, -⟩ := hTv
    positivity
  intro k
  induction k using Nat.strong_induction_on with
  | _ k ih =>
    intro a e' b y hk hsplit hy
    rcases a with _ | ⟨a0, a⟩
    · simp only [List.nil_append, List.cons.injEq] at hsplit
      obtain ⟨rfl, -⟩ := hsplit
      rw [hx, Option.some.injEq] at hy
      subst hy
      exact h0
    · have ha0 : a0 = e := by
        simp only [List.cons_append, List.cons.injEq] at hsplit
        exact hsplit.1.symm
      obtain ⟨a1, e1, b1, y1, ha, hy1, hb1⟩ := last_iteration (l := a0 :: a) (by
        rw [ha0]; simp [poses, hx])
      rw [ha] at hsplit hk
      have hs1 : e :: post = a1 ++ e1 :: (b1 ++ e' :: b) := by rw [hsplit]; simp
      have hk1 := ih a1.length (by rw [← hk]; simp) a1 e1 _ y1 rfl hs1 hy1
      obtain ⟨os1, s1, s2, o, ht1, hstep, ho, hmv⟩ := (driven_pair hdr t ht).1 (pre ++ a1) e1 b1 e' b y1 y
        (by rw [hes, hs1]; simp) hy1 hb1 hy
      have rest : y.c0 = y1.c0 → y.c1 = y1.c1 → KeptAt ⌊collision.boundary_radius / ρ⌋
          ⌊(collision.boundary_radius + collision.obstacle_threshold) / ρ⌋ ox oy ρ y := by
        intro h1 h2
        unfold KeptAt
        rw [h1, h2]
        exact hk1
      have hp1 : (poses (pre ++ a1 ++ [e1])).getLast? = some y1 := by rw [poses_snoc, hy1]; simp
      have h1 := C67_one_per_iteration ht1 hstep
      split at h1
      case isTrue hcond =>
        obtain ⟨u, hu⟩ := List.length_eq_one_iff.mp h1
        obtain ⟨m, hm⟩ : ∃ m, (maps (pre ++ a1)).getLast? = some m := by
          cases hl : (maps (pre ++ a1)).getLast? with
          | some m => exact ⟨m, rfl⟩
          | none => exact absurd (List.getLast?_eq_none_iff.mp hl) hcond.2.1
        obtain ⟨g1, g2, g3⟩ := hmap a1 e1 _ m y1 hs1 hy1 hm
        have hnear : planar y y1 ≤ ρ := moved_near hT hρ.le (fun u hu => (hw o ho u hu).2) hmv
        rw [hu] at hmv
        rcases C89_period ht1 hstep hcol hsteps hv hd hTv hTd u (by rw [hu]; simp)
          (hw o ho u (by rw [hu]; simp)).1 m y1 hm hp1 y hmv with hf | ⟨h2, h3⟩
        · exact keptAt_step collision g1 g2 hsr hb hrc hseal g3 hnear hf hk1
        · exact rest h2 h3
      case isFalse =>
        obtain ⟨h2, h3, -⟩ := hmv.1 (List.length_eq_zero_iff.mp h1)
        exact rest h2 h3

/-- C125 for the nodes: however the maps change, a cell that is occupied on every map in use from some
iteration on, and farther from the robot at that iteration than the padded radius and half a cell's diagonal,
is outside the boundary radius (less half a cell's diagonal) at that and every later iteration.  The maps may
grow by whole cells, move, forget and gain other obstacles, even on top of the robot. -/
theorem C125_closed_loop {p : Params ℝ} {n : Node ℝ} {o0 : List (Out ℝ)}
    (hn : Node.cart p = .ok (n, o0) ∨ Node.omni p = .ok (n, o0)) (hv : 0 < p.val_dt) (hd : 0 < p.dwa_dt)
    {T : ℝ} (hTv : Instant T p.val_dt p.val_horizon) (hTd : Instant T p.dwa_dt p.dwa_horizon)
    (ht : Trace n.expl es os t) {l : Option (V3 ℝ × List (V3 ℝ))} (hdr : Driven T es os l) {ρ ox oy : ℝ} (hρ : 0 < ρ)
    (hw : ∀ o ∈ os, ∀ u ∈ twists o, Measurable u ∧ speed u * T ≤ ρ)
    (hsr : n.expl.collision.boundary_radius + n.expl.collision.obstacle_threshold ≤ n.expl.collision.search_radius)
    (hb : ρ ≤ n.expl.collision.boundary_radius)
    (hp : 3 * ρ ≤ n.expl.collision.obstacle_threshold ∨
      2 * ρ ≤ n.expl.collision.obstacle_threshold ∧ n.expl.collision.boundary_radius < 22 * ρ)
    {pre post : List (Event ℝ)} {e : Event ℝ} {x : V3 ℝ} (hes : es = pre ++ e :: post) (hx : e.pose? = some x)
    (hmap : ∀ a e' b m y, e :: post = a ++ e' :: b → e'.pose? = some y → (maps (pre ++ a)).getLast? = some m →
      Sensible n.expl.collision (mapOf m) ∧ ShowsAt n.expl.collision.occupied_threshold ρ ox oy m ∧ InsideBy m ρ y)
    (h0 : n.expl.collision.boundary_radius + n.expl.collision.obstacle_threshold + √2 / 2 * ρ <
      planar ⟨ox, oy, 0⟩ x) :
    ∀ y ∈ poses (e :: post), n.expl.collision.boundary_radius - √2 / 2 * ρ < planar ⟨ox, oy, 0⟩ y := by
  have main : ∀ (ec : ErgodicControl ℝ) (collision : Collision ℝ) (dwa : DynamicWindow ℝ) (target : Target ℝ),
      (n.expl, o0) = Expl.start ec collision dwa target p.map_frame_id p.val_dt p.val_horizon →
      dwa.collision = collision → numSteps dwa.horizon dwa.dt = .ok dwa.steps → dwa.dt = p.dwa_dt →
      dwa.horizon = p.dwa_horizon →
      ∀ y ∈ poses (e :: post), n.expl.collision.boundary_radius - √2 / 2 * ρ < planar ⟨ox, oy, 0⟩ y := by
    intro ec collision dwa target he hc hst e1 e2
    have h1 : n.expl = (Expl.start ec collision dwa target p.map_frame_id p.val_dt p.val_horizon).1 := by
      rw [← he]
    have h2 : n.expl.collision = collision := by rw [h1]; rfl
    rw [h2] at hsr hb hp hmap h0 ⊢
    rw [h1] at ht
    rw [← e1] at hd hTd
    rw [← e2] at hTd
    have hb1 : 1 ≤ ⌊collision.boundary_radius / ρ⌋ := by
      rw [Int.le_floor]; push_cast; rw [le_div_iff₀ hρ]; linarith
    have pad : ∀ k : Int, k * ρ ≤ collision.obstacle_threshold →
        ⌊collision.boundary_radius / ρ⌋ + k ≤ ⌊(collision.boundary_radius + collision.obstacle_threshold) / ρ⌋ := by
      intro k hk
      rw [Int.le_floor, le_div_iff₀ hρ]
      push_cast
      have := Int.floor_le (collision.boundary_radius / ρ)
      rw [le_div_iff₀ hρ] at this
      linarith
    obtain ⟨hrc, hseal⟩ : ⌊collision.boundary_radius / ρ⌋ + 2 ≤
        ⌊(collision.boundary_radius + collision.obstacle_threshold) / ρ⌋ ∧
        Sealed ⌊collision.boundary_radius / ρ⌋ ⌊(collision.boundary_radius + collision.obstacle_threshold) / ρ⌋ := by
      rcases hp with hp | ⟨hp, hp'⟩
      · have := pad 3 (by push_cast; exact hp)
        exact ⟨by omega, sealed_three hb1 this⟩
      · have := pad 2 (by push_cast; exact hp)
        have h22 : ⌊collision.boundary_radius / ρ⌋ < 22 := by
          rw [Int.floor_lt]; push_cast; rw [div_lt_iff₀ hρ]; linarith
        exact ⟨this, sealed_two hb1 (by omega) this⟩
    have hfl := Int.floor_le ((collision.boundary_radius + collision.obstacle_threshold) / ρ)
    have hfb := Int.lt_floor_add_one (collision.boundary_radius / ρ)
    rw [le_div_iff₀ hρ] at hfl
    rw [div_lt_iff₀ hρ] at hfb
    have hpos : (0 : ℝ) ≤ ⌊(collision.boundary_radius + collision.obstacle_threshold) / ρ⌋ := by
      have : (0 : Int) ≤ ⌊(collision.boundary_radius + collision.obstacle_threshold) / ρ⌋ := by omega
      exact_mod_cast this
    have hk0 : KeptAt ⌊collision.boundary_radius / ρ⌋
        ⌊(collision.boundary_radius + collision.obstacle_threshold) / ρ⌋ ox oy ρ x := by
      left
      rw [max_min_sq]
      have := abs_le.mp (planar_cellsFrom (ox := ox) (oy := oy) hρ x)
      have h3 := (Real.lt_sqrt hpos).mp (show _ < √(((cellsFrom ox ρ x.c0) * (cellsFrom ox ρ x.c0) +
        (cellsFrom oy ρ x.c1) * (cellsFrom oy ρ x.c1) : Int) : ℝ) by nlinarith)
      rw [pow_two] at h3
      exact_mod_cast h3
    intro y hy
    obtain ⟨a, e', b, hsplit, hy'⟩ := mem_poses_split hy
    have hk := (driven_kept hc hst hv hd hTv hTd hdr ht hρ hw hsr hb hrc hseal hes hx hmap hk0 a.length a e' b y rfl
      hsplit hy').far hb1 hrc
    rw [max_min_sq] at hk
    have := abs_le.mp (planar_cellsFrom (ox := ox) (oy := oy) hρ y)
    have h3 : (⌊collision.boundary_radius / ρ⌋ : ℝ) + 1 ≤ √(((cellsFrom ox ρ y.c0) * (cellsFrom ox ρ y.c0) +
        (cellsFrom oy ρ y.c1) * (cellsFrom oy ρ y.c1) : Int) : ℝ) := by
      apply Real.le_sqrt_of_sq_le
      rw [pow_two]
      exact_mod_cast hk
    nlinarith
  have win : ∀ {c : Collision ℝ} {ay ylo yhi : ℝ} {ny : UInt32} {dwa : DynamicWindow ℝ},
      DynamicWindow.new c p.dwa_dt p.dwa_horizon p.acc_dt p.acc_lim_x ay p.acc_lim_th
        p.max_vel_x p.min_vel_x yhi ylo p.max_rot_vel p.min_rot_vel p.vx_samples ny p.vth_samples = .ok dwa →
      dwa.collision = c ∧ numSteps dwa.horizon dwa.dt = .ok dwa.steps ∧ dwa.dt = p.dwa_dt ∧
      dwa.horizon = p.dwa_horizon := by
    intro c ay ylo yhi ny dwa h
    simp only [DynamicWindow.new, Res.bind_eq_ok, Res.ok.injEq] at h
    obtain ⟨k, hk, rfl⟩ := h
    exact ⟨rfl, hk, rfl, rfl⟩
  rcases hn with hn | hn
  · obtain ⟨_, _, target, collision, ec, dwa, -, hdw, he, -⟩ := cart_ok hn
    obtain ⟨a, b, c, d⟩ := win hdw
    exact main ec collision dwa target he a b c d
  · obtain ⟨_, _, _, target, collision, ec, dwa, -, hdw, he, -⟩ := omni_ok hn
    obtain ⟨a, b, c, d⟩ := win hdw
    exact main ec collision dwa target he a b c d

/-- C125 for the shipped radii (config/explore_omni.yaml:35-37, config/explore_cart.yaml:29-31) and cells of at
most 10 cm: on maps that change, an obstacle that stays and is farther away than 0.9 m and half a cell's diagonal
when it is first known never comes within 0.7 m less half a cell's diagonal. -/
theorem C125_shipped {p : Params ℝ} {n : Node ℝ} {o0 : List (Out ℝ)}
    (hn : Node.cart p = .ok (n, o0) ∨ Node.omni p = .ok (n, o0)) (hv : 0 < p.val_dt) (hd : 0 < p.dwa_dt)
    {T : ℝ} (hTv : Instant T p.val_dt p.val_horizon) (hTd : Instant T p.dwa_dt p.dwa_horizon)
    (ht : Trace n.expl es os t) {l : Option (V3 ℝ × List (V3 ℝ))} (hdr : Driven T es os l)
    (hc : n.expl.collision.boundary_radius = 0.7) (hc1 : n.expl.collision.search_radius = 1)
    (hc2 : n.expl.collision.obstacle_threshold = 0.2) {ρ ox oy : ℝ} (hρ : 0 < ρ) (hρ' : ρ ≤ 0.1)
    (hw : ∀ o ∈ os, ∀ u ∈ twists o, Measurable u ∧ speed u * T ≤ ρ)
    {pre post : List (Event ℝ)} {e : Event ℝ} {x : V3 ℝ} (hes : es = pre ++ e :: post) (hx : e.pose? = some x)
    (hmap : ∀ a e' b m y, e :: post = a ++ e' :: b → e'.pose? = some y → (maps (pre ++ a)).getLast? = some m →
      Sensible n.expl.collision (mapOf m) ∧ ShowsAt n.expl.collision.occupied_threshold ρ ox oy m ∧ InsideBy m ρ y)
    (h0 : 0.9 + √2 / 2 * ρ < planar ⟨ox, oy, 0⟩ x) :
    ∀ y ∈ poses (e :: post), 0.7 - √2 / 2 * ρ < planar ⟨ox, oy, 0⟩ y := by
  rw [← hc]
  refine C125_closed_loop hn hv hd hTv hTd ht hdr hρ hw (by rw [hc, hc1, hc2]; norm_num)
    (by rw [hc]; norm_num at hρ' ⊢; linarith) ?_ hes hx hmap ?_
  · rw [hc, hc2]
    rcases le_or_gt (3 * ρ) 0.2 with h | h
    · exact .inl h
    · refine .inr ⟨by norm_num at hρ' ⊢; linarith, by norm_num at h ⊢; linarith⟩
  · rw [hc, hc2]
    norm_num at h0 ⊢
    linarith

/-! ## A history that meets the hypotheses -/

theorem pillar_run_of {n : Node ℝ} {o : List (Out ℝ)} (hn : Node.omni pillarParams = .ok (n, o))
    (es : List (Event ℝ)) (hodo : odoms es = [])
    (hs : AllSupplied thickDetector pillarParams.target_resolution pillarParams.buffer_size pillarParams.batch_size es)
    (hr : AlwaysRoom (1 * max pillarParams.val_horizon pillarParams.dwa_horizon) es) :
    ∃ os t, Trace n.expl es os t ∧ ∀ o ∈ os, ∀ u ∈ twists o, WithinParams pillarParams u := by
  have hrec : RecoverableAll pillarParams ⟨0, 0, 0⟩ := by
    simp only [RecoverableAll, Recoverable, pillarParams, driveParams, sideParams]
    norm_num
  have hodo' : ∀ v ∈ odoms es, RecoverableAll pillarParams v := by rw [hodo]; simp
  obtain ⟨n', out, hrun⟩ := C77_omni_partial pillarParams n o thickDetector es pillar_sane pillar_collision hrec hodo'
    hn 1 (fun u hu => by
      obtain ⟨a, b, -⟩ := pillar_within hu
      unfold speed
      rw [b]
      simpa [Real.sqrt_sq_eq_abs] using a) hs hr
  have hlim : LimitsOk pillarParams := by
    simp [LimitsOk, WithinParams, pillarParams, driveParams, sideParams]
  have hin := C70_omni_partial pillarParams n n' o out _ hlim hrec hodo' hn hrun
  obtain ⟨_, _, _, _, _, _, _, -, -, -, hup⟩ := omni_ok hn
  have hup' : n.up = true := by
    rw [hup]
    have : Flt.lt pillarParams.ec_horizon pillarParams.dwa_horizon = false := by
      rw [real_lt_false]
      simp only [pillarParams, driveParams, sideParams]
      norm_num
    rw [this]
    rfl
  have h1 := (node_run_up n n' hup' _ out hrun).1
  rw [run_iff_trace] at h1
  obtain ⟨os, ht, rfl⟩ := h1
  refine ⟨os, _, ht, fun o' ho' u hu => hin u ?_⟩
  simp only [twists, List.mem_filterMap, List.mem_flatten] at hu ⊢
  obtain ⟨x, hx, hux⟩ := hu
  exact ⟨x, ⟨o', ho', hx⟩, hux⟩

/-- `pillarMsg` grown by four columns to the left, with obstacles all over it. -/
def fullMsg : OccupancyGrid ℝ := ⟨24, 20, 1, -4, 0, List.replicate 480 100⟩

theorem fullMsg_wf : WellFormed (mapOf fullMsg) := by
  refine ⟨by decide, ?_⟩
  change (List.replicate 480 100 : List Int8).length = 480
  rw [List.length_replicate]

theorem fullMsg_sensible : Sensible thickDetector (mapOf fullMsg) := by
  refine ⟨fullMsg_wf, ?_, by decide, by decide, by decide, by decide, ?_, ?_, ?_, ?_, ?_⟩ <;>
    norm_num [thickDetector, mapOf, fullMsg]

theorem fullMsg_fits : TargetGridFits (mapOf fullMsg) 1 := by
  have hf : ⌊(20:ℝ) + 1 / 2⌋₊ = 20 := by
    rw [Nat.floor_eq_iff (by norm_num)]; constructor <;> norm_num
  have hf' : ⌊(24:ℝ) + 1 / 2⌋₊ = 24 := by
    rw [Nat.floor_eq_iff (by norm_num)]; constructor <;> norm_num
  simp only [TargetGridFits, mapOf, fullMsg, real_mul, real_add, real_ofInt, show (20 : UInt32).toNat = 20 from rfl,
    show (24 : UInt32).toNat = 24 from rfl]
  norm_num
  rw [show (41:ℝ)/2 = 20 + 1/2 by norm_num, show (49:ℝ)/2 = 24 + 1/2 by norm_num, hf, hf']
  norm_num

theorem fullMsg_shows : ShowsAt thickDetector.occupied_threshold 1 0.5 0.5 fullMsg := by
  refine ⟨rfl, 0, 4, ⟨by norm_num, by decide, by norm_num, by decide, 100, ?_, ?_⟩, ?_, ?_⟩
  · show (List.replicate 480 (100 : Int8))[0 * (24 : UInt32).toNat + 4]? = some 100
    rw [List.getElem?_replicate, if_pos (by decide)]
  · simp only [thickDetector]
    rw [real_lt_false, show ((100 : Int8).toInt) = 100 from by decide]
    norm_num
  · norm_num [fullMsg]
  · norm_num [fullMsg]

theorem pillarMsg_shows : ShowsAt thickDetector.occupied_threshold 1 0.5 0.5 pillarMsg := by
  refine ⟨rfl, 0, 0, ?_, ?_, ?_⟩
  · rw [pillarMsg_map]
    exact (pillarGrid_occupied 0 0).mpr ⟨rfl, rfl⟩
  · norm_num [pillarMsg]
  · norm_num [pillarMsg]

/-- The hypotheses of `C125_closed_loop` are met by a history in which the map changes between two
iterations: it grows, and obstacles appear all over it. -/
example : ∃ (n : Node ℝ) (o0 : List (Out ℝ)) (es : List (Event ℝ)) (os : List (List (Out ℝ))) (t : Expl ℝ)
    (l : Option (V3 ℝ × List (V3 ℝ))) (pre post : List (Event ℝ)) (e : Event ℝ) (x : V3 ℝ),
    Node.omni pillarParams = .ok (n, o0) ∧
    Instant 0.1 pillarParams.val_dt pillarParams.val_horizon ∧
    Instant 0.1 pillarParams.dwa_dt pillarParams.dwa_horizon ∧ Trace n.expl es os t ∧ Driven 0.1 es os l ∧
    (∀ o ∈ os, ∀ u ∈ twists o, Measurable u ∧ speed u * 0.1 ≤ 1) ∧
    n.expl.collision.boundary_radius + n.expl.collision.obstacle_threshold ≤ n.expl.collision.search_radius ∧
    1 ≤ n.expl.collision.boundary_radius ∧ 3 * 1 ≤ n.expl.collision.obstacle_threshold ∧
    es = pre ++ e :: post ∧ e.pose? = some x ∧
    (∀ a e' b m y, e :: post = a ++ e' :: b → e'.pose? = some y → (maps (pre ++ a)).getLast? = some m →
      Sensible n.expl.collision (mapOf m) ∧ ShowsAt n.expl.collision.occupied_threshold 1 0.5 0.5 m ∧
        InsideBy m 1 y) ∧
    n.expl.collision.boundary_radius + n.expl.collision.obstacle_threshold + √2 / 2 * 1 <
      planar ⟨0.5, 0.5, 0⟩ x ∧
    maps es = [pillarMsg, fullMsg] ∧ (poses es).length = 2 ∧ twists os.flatten ≠ [] := by
  obtain ⟨n, o0, hn⟩ := pillar_starts
  obtain ⟨os1, t1, ht1, hin1⟩ := pillar_run hn [10.5] (by intro x hx; simp at hx; subst hx; norm_num)
  obtain ⟨_, _, _, target, collision, ec, dwa, -, -, he, -⟩ := omni_ok hn
  have hst : n.expl = (Expl.start ec collision dwa target pillarParams.map_frame_id pillarParams.val_dt
      pillarParams.val_horizon).1 := by rw [← he]
  have hcoll : n.expl.collision = thickDetector := by
    obtain ⟨_, _, _, _, collision, _, _, ⟨-, -, -, -, hc⟩, -, -, he, -⟩ := omni_parts hn
    rw [pillar_collision, Res.ok.injEq] at hc
    have h1 := congrArg (fun r => r.1.collision) he
    rw [hc]
    exact h1
  -- the first iteration
  obtain ⟨osa, o1, ta, rfl, hta, hs1⟩ := Trace.unsnoc (es := [.map pillarMsg])
    (e := .tick (some (rowTf 10.5)) []) ht1
  obtain ⟨osb, oa, tb, rfl, htb, hsa⟩ := Trace.unsnoc (es := []) (e := .map pillarMsg) hta
  have hosb : osb = [] := (Trace.det htb .nil).1
  subst hosb
  have hone : (twists o1).length = 1 := by
    rw [hst] at hta
    rw [C67_one_per_iteration hta hs1, if_pos]
    refine ⟨rfl, by simp [maps, Event.map?], ?_⟩
    rw [poses_snoc, row_pose]
    simp
  obtain ⟨u, hu⟩ := List.length_eq_one_iff.mp hone
  obtain ⟨hu0, hu1, hu2⟩ := pillar_within (hin1 o1 (by simp) u (by rw [hu]; simp))
  have hu0 := abs_le.mp hu0
  -- the second
  have hevents : ∀ e : Event ℝ, e ∈ [Event.map pillarMsg, .tick (some (rowTf 10.5)) [], .map fullMsg,
      .tick (some (rowTf (10.5 + 0.1 * u.c0))) []] → e.odom? = none := by
    intro e he
    simp only [List.mem_cons, List.not_mem_nil, or_false] at he
    rcases he with rfl | rfl | rfl | rfl <;> rfl
  obtain ⟨os2, t2, ht2, hin2⟩ := pillar_run_of hn
    [.map pillarMsg, .tick (some (rowTf 10.5)) [], .map fullMsg, .tick (some (rowTf (10.5 + 0.1 * u.c0))) []]
    (by unfold odoms; rw [List.filterMap_eq_nil_iff]; exact hevents)
    (by
      intro pre tf draws post h
      rcases four_events h with ⟨rfl, rfl, rfl⟩ | ⟨rfl, rfl, rfl⟩
      · refine ⟨rfl, by simp, fun m hm => ?_⟩
        simp only [maps, List.filterMap_cons, Event.map?, List.filterMap_nil, List.getLast?_singleton,
          Option.some.injEq] at hm
        subst hm
        exact ⟨pillarMsg_map ▸ thick_sensible, pillar_fits⟩
      · refine ⟨rfl, by simp, fun m hm => ?_⟩
        simp only [maps, List.filterMap_cons, Event.map?, List.filterMap_nil, List.getLast?_cons_cons,
          List.getLast?_singleton, Option.some.injEq] at hm
        subst hm
        exact ⟨fullMsg_sensible, fullMsg_fits⟩)
    (by
      intro pre tf draws post m x h hm hx
      rcases four_events h with ⟨rfl, rfl, rfl⟩ | ⟨rfl, rfl, rfl⟩
      · simp only [maps, List.filterMap_cons, Event.map?, List.filterMap_nil, List.getLast?_singleton,
          Option.some.injEq] at hm
        subst hm
        rw [poses_snoc, row_pose] at hx
        simp only [Option.toList_some, List.getLast?_append, List.getLast?_singleton, Option.some_or,
          Option.some.injEq] at hx
        subst hx
        simp only [Room, mapOf, pillarMsg, pillarParams, driveParams, sideParams]
        norm_num
      · simp only [maps, List.filterMap_cons, Event.map?, List.filterMap_nil, List.getLast?_cons_cons,
          List.getLast?_singleton, Option.some.injEq] at hm
        subst hm
        rw [poses_snoc, row_pose] at hx
        simp only [Option.toList_some, List.getLast?_append, List.getLast?_singleton, Option.some_or,
          Option.some.injEq] at hx
        subst hx
        simp only [Room, mapOf, fullMsg, pillarParams, driveParams, sideParams]
        norm_num
        constructor <;> linarith)
  obtain ⟨osc, o2, tc, rfl, htc, hs2⟩ := Trace.unsnoc
    (es := [.map pillarMsg] ++ [.tick (some (rowTf 10.5)) []] ++ [.map fullMsg])
    (e := .tick (some (rowTf (10.5 + 0.1 * u.c0))) []) ht2
  obtain ⟨osd, ob, td, rfl, htd, hsd⟩ := Trace.unsnoc
    (es := [.map pillarMsg] ++ [.tick (some (rowTf 10.5)) []]) (e := .map fullMsg) htc
  obtain ⟨rfl, -⟩ := Trace.det htd ht1
  have hdr : Driven 0.1 ([] ++ [.map pillarMsg] ++ [.tick (some (rowTf 10.5)) []] ++ [.map fullMsg])
      ([] ++ [oa] ++ [o1] ++ [ob]) (some (⟨10.5, 18.5, 0⟩, twists o1)) :=
    .callback (.first (.callback .nil rfl) (row_pose _ _)) rfl
  refine ⟨n, o0, _, _, t2, _, [.map pillarMsg], [.map fullMsg, .tick (some (rowTf (10.5 + 0.1 * u.c0))) []],
    .tick (some (rowTf 10.5)) [], ⟨10.5, 18.5, 0⟩, hn, ⟨0, ?_, ?_⟩, ⟨0, ?_, ?_⟩, ht2,
    .next hdr (row_pose _ _) ?_, ?_, ?_, ?_, ?_, rfl, row_pose _ _, ?_, ?_, rfl, rfl, ?_⟩
  · simp only [pillarParams, driveParams, sideParams]; norm_num
  · simp only [pillarParams, driveParams, sideParams]; norm_num
  · simp only [pillarParams, driveParams, sideParams]; norm_num
  · simp only [pillarParams, driveParams, sideParams]; norm_num
  · rw [hu]
    refine ⟨by simp, ?_⟩
    intro v hv
    rw [List.mem_singleton] at hv
    subst hv
    simp only [flow, hu1, hu2, if_true]
    refine ⟨by simp; ring, by simp, 0, by simp⟩
  · intro o ho v hv
    obtain ⟨h0, h1, h2⟩ := pillar_within (hin2 o ho v hv)
    refine ⟨.inl h2, ?_⟩
    have : speed v ≤ 1 := by
      unfold speed
      rw [h1]
      simpa [Real.sqrt_sq_eq_abs] using h0
    linarith
  · rw [hcoll]; norm_num [thickDetector]
  · rw [hcoll]; norm_num [thickDetector]
  · rw [hcoll]; norm_num [thickDetector]
  · rw [hcoll]
    intro a e' b m y h hy hm
    rcases a with _ | ⟨a0, _ | ⟨a1, a⟩⟩
    · simp only [List.nil_append, List.cons.injEq] at h
      obtain ⟨rfl, -⟩ := h
      rw [row_pose, Option.some.injEq] at hy
      simp only [maps, List.append_nil, List.filterMap_cons, Event.map?, List.filterMap_nil, List.getLast?_singleton,
        Option.some.injEq] at hm
      subst hy hm
      refine ⟨pillarMsg_map ▸ thick_sensible, pillarMsg_shows, ?_, ?_, ?_, ?_⟩
      all_goals
        simp only [pillarMsg, show (20 : UInt32).toNat = 20 from rfl]
        norm_num
    · simp only [List.nil_append, List.cons_append, List.cons.injEq] at h
      obtain ⟨-, rfl, -⟩ := h
      cases hy
    · rcases a with _ | ⟨a2, a⟩
      · simp only [List.nil_append, List.cons_append, List.cons.injEq] at h
        obtain ⟨rfl, rfl, rfl, -⟩ := h
        rw [row_pose, Option.some.injEq] at hy
        simp only [maps, List.cons_append, List.nil_append, List.filterMap_cons, Event.map?, List.filterMap_nil,
          List.getLast?_cons_cons, List.getLast?_singleton, Option.some.injEq] at hm
        subst hy hm
        refine ⟨fullMsg_sensible, fullMsg_shows, ?_, ?_, ?_, ?_⟩
        all_goals
          simp only [fullMsg, show (20 : UInt32).toNat = 20 from rfl, show (24 : UInt32).toNat = 24 from rfl]
          norm_num
          try linarith
      · simp at h
  · rw [hcoll]
    have h3 : √2 ≤ 2 := by rw [Real.sqrt_le_left (by norm_num)]; norm_num
    refine lt_of_lt_of_le (b := 10) ?_ ?_
    · norm_num [thickDetector]
      linarith
    · apply Real.le_sqrt_of_sq_le
      norm_num
  · intro h
    have : u ∈ twists ([oa] ++ [o1] ++ [ob] ++ [o2]).flatten := by
      simp only [List.flatten_append, List.flatten_singleton, twists_append, List.mem_append]
      left; left; right
      rw [hu]; simp
    simp only [List.nil_append] at h
    rw [h] at this
    simp at this

end Ergodic
