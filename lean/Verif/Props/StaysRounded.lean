import Verif.Props.Stays
import Verif.Props.SlipRounded
import Verif.Props.ChangingRounded

/-!
# Property C125 with rounding, callbacks at any moment and imperfect robots

Rounded arithmetic (`RDbl`) of any machine with accurate trigonometry. The robot is where the transform says up to
`δ`, ends up within `η` of where a twist leads, and rests when told to; callbacks may come between any two steps of an
iteration (`DrivenR`, Spec/RoundedLoop.lean). The maps change and their origins may be off a common lattice: an
obstacle may lie up to `ν` elsewhere on each of them.
-/

namespace Ergodic
variable {M : Machine}

/-- `m` was the latest map at some moment after the last iteration of the history or at its end. -/
def RecentMap (es : List (Event (RDbl M))) (m : OccupancyGrid (RDbl M)) : Prop :=
  ∃ a b, es = a ++ b ∧ poses b = [] ∧ (maps a).getLast? = some m

/-- The map has cells of side `r`, one of them occupied and centred within `ν` of `(ox, oy)` along each axis, and
the point `(x, y)` lies in the map, `D` from its edges. -/
structure ShowsR (c : Collision (RDbl M)) (r b s o ν ox oy D x y : ℝ) (m : OccupancyGrid (RDbl M)) : Prop where
  placed : ∃ ax ay, SensibleRd c (mapOf m) ax ay r b s o ∧
    (∃ i j : Int, Occupied c.occupied_threshold (mapOf m) i j ∧
      |ax + (j + 1 / 2) * r - ox| ≤ ν ∧ |ay + (i + 1 / 2) * r - oy| ≤ ν) ∧
    ax + D ≤ x ∧ x ≤ ax + m.width.toNat * r - D ∧ ay + D ≤ y ∧ y ≤ ay + m.height.toNat * r - D

/-- The obstacle at `(ox, oy)` has not slipped past the circles around a point, up to `d`. -/
def KeptR (b rc : Int) (ox oy r d : ℝ) (q : ℝ × ℝ) : Prop :=
  ∃ X Y : Int, |(ox - q.1) - X * r| ≤ r / 2 + d ∧ |(oy - q.2) - Y * r| ≤ r / 2 + d ∧
    Kept b rc (max |X| |Y|) (min |X| |Y|)

/-- Distance in the plane. -/
noncomputable def apart (ox oy : ℝ) (q : ℝ × ℝ) : ℝ := √((ox - q.1) ^ 2 + (oy - q.2) ^ 2)

theorem apart_cells {ox oy r d : ℝ} (hr : 0 < r) {q : ℝ × ℝ} {X Y : Int} (hX : |(ox - q.1) - X * r| ≤ r / 2 + d)
    (hY : |(oy - q.2) - Y * r| ≤ r / 2 + d) :
    |apart ox oy q - √((X * X + Y * Y : Int) : ℝ) * r| ≤ √2 * (r / 2 + d) := by
  have hd : 0 ≤ r / 2 + d := (abs_nonneg _).trans hX
  rw [abs_le] at hX hY
  let o : V3 ℝ := ⟨ox, oy, 0⟩
  let z : V3 ℝ := ⟨ox - X * r, oy - Y * r, 0⟩
  let p : V3 ℝ := ⟨q.1, q.2, 0⟩
  have h1 : apart ox oy q = planar o p := rfl
  have h2 : √((X * X + Y * Y : Int) : ℝ) * r = planar o z := by
    unfold planar
    rw [show √((X * X + Y * Y : Int) : ℝ) * r = √((X * X + Y * Y : Int) : ℝ) * √(r ^ 2) by
      rw [Real.sqrt_sq hr.le], ← Real.sqrt_mul' _ (sq_nonneg _)]
    congr 1
    simp only [o, z]
    push_cast
    ring
  have h3 : planar p z ≤ √2 * (r / 2 + d) := by
    unfold planar
    rw [show √2 * (r / 2 + d) = √(2 * (r / 2 + d) ^ 2) by
      rw [Real.sqrt_mul' _ (sq_nonneg _), Real.sqrt_sq hd]]
    apply Real.sqrt_le_sqrt
    have a : (q.1 - (ox - X * r)) ^ 2 ≤ (r / 2 + d) ^ 2 := sq_le_sq' (by linarith) (by linarith)
    have b : (q.2 - (oy - Y * r)) ^ 2 ≤ (r / 2 + d) ^ 2 := sq_le_sq' (by linarith) (by linarith)
    simp only [p, z]
    linarith
  have h4 : planar z p = planar p z := by unfold planar; ring_nf
  rw [h1, h2, abs_le]
  constructor
  · have := planar_triangle o p z; linarith
  · have := planar_triangle o z p; linarith

theorem king_of_near {o x x' r d σ : ℝ} {X X' : Int} (hr : 0 < r) (h : |(o - x) - X * r| ≤ r / 2 + d)
    (h' : |(o - x') - X' * r| ≤ r / 2 + d) (hσ : |x' - x| ≤ σ) (hd : σ + 2 * d < r) : |X' - X| ≤ 1 := by
  rw [abs_le] at h h' hσ
  have k : ((X' - X : Int) : ℝ) * r < 2 * r ∧ -(2 * r) < ((X' - X : Int) : ℝ) * r := by
    push_cast
    constructor <;> linarith
  have k1 : ((X' - X : Int) : ℝ) < 2 := lt_of_mul_lt_mul_right k.1 hr.le
  have k2 : (-2 : ℝ) < ((X' - X : Int) : ℝ) := by
    have : (-2 : ℝ) * r < ((X' - X : Int) : ℝ) * r := by linarith [k.2]
    exact lt_of_mul_lt_mul_right this hr.le
  have k1' : X' - X < 2 := by exact_mod_cast k1
  have k2' : -2 < X' - X := by exact_mod_cast k2
  rw [abs_le]
  omega

/-- One period. -/
theorem keptR_step {c : Collision (RDbl M)} {m : OccupancyGrid (RDbl M)} {r b s o ν ox oy D x y ε d σ : ℝ}
    (hsh : ShowsR c r b s o ν ox oy D x y m) (hb : 1 ≤ cellsRd M b r)
    (hrc : cellsRd M b r + 2 ≤ cellsRd M (M.rnd (b + o)) r)
    (hseal : Sealed (cellsRd M b r) (cellsRd M (M.rnd (b + o)) r))
    (hsr : cellsRd M (M.rnd (b + o)) r ≤ cellsRd M s r) {q q' : ℝ × ℝ}
    (hfree : NearFree c m ε q') (hin : |q'.1 - x| + ε ≤ D ∧ |q'.2 - y| + ε ≤ D) (hd : r / 2 ^ 17 + ν + ε ≤ d)
    (hσ : |q'.1 - q.1| ≤ σ ∧ |q'.2 - q.2| ≤ σ) (hσd : σ + 2 * d < r)
    (hk : KeptR (cellsRd M b r) (cellsRd M (M.rnd (b + o)) r) ox oy r d q) :
    KeptR (cellsRd M b r) (cellsRd M (M.rnd (b + o)) r) ox oy r d q' := by
  obtain ⟨ax, ay, hs, ⟨i, j, ho, ex, ey⟩, l1, l2, l3, l4⟩ := hsh
  obtain ⟨P, ⟨px, py, pθ, rfl, p1, p2⟩, hf⟩ := hfree
  obtain ⟨X, Y, hX, hY, hk⟩ := hk
  have hr := hs.placed.positive
  obtain ⟨n1, n2⟩ := hin
  have n1' : |px - x| ≤ D := by
    have := abs_add_le (px - q'.1) (q'.1 - x)
    rw [show px - q'.1 + (q'.1 - x) = px - x by ring] at this
    linarith
  have n2' : |py - y| ≤ D := by
    have := abs_add_le (py - q'.2) (q'.2 - y)
    rw [show py - q'.2 + (q'.2 - y) = py - y by ring] at this
    linarith
  rw [abs_le] at n1' n2'
  obtain ⟨v, u, -, ⟨e1, e2, e3, e4⟩, cfg, h1, h2, h3, h4, h5, h6, h7⟩ := config_rd hs (x := px) (y := py)
    ⟨by linarith, by show px ≤ ax + m.width.toNat * r; linarith, by linarith,
      by show py ≤ ay + m.height.toNat * r; linarith⟩ (.fin pθ)
  have near : ∀ (a o' p q' : ℝ) (u : ℕ) (j : Int), |a + (j + 1 / 2) * r - o'| ≤ ν → |p - q'| ≤ ε →
      a + u * r - r / 2 ^ 17 ≤ p → p ≤ a + (u + 1) * r + r / 2 ^ 17 →
      |(o' - q') - ((j - u : Int) : ℝ) * r| ≤ r / 2 + d := by
    intro a o' p q' u j h1 h2 h3 h4
    rw [abs_le] at h1 h2 ⊢
    push_cast
    constructor <;> linarith
  have nX := near ax ox px q'.1 u.toNat j ex p1 e1 e2
  have nY := near ay oy py q'.2 v.toNat i ey p2 e3 e4
  have kX := king_of_near hr hX nX hσ.1 hσd
  have kY := king_of_near hr hY nY hσ.2 hσd
  refine ⟨_, _, nX, nY, ?_⟩
  rw [← h3] at kX ⊢
  rw [← h4] at kY ⊢
  exact kept_check c hb hrc hseal hs.wf h1 h2 h5.le h6 (by rw [h7]; exact hsr) ho hf kX kY hk

section
variable {ec : ErgodicControl (RDbl M)} {collision : Collision (RDbl M)} {dwa : DynamicWindow (RDbl M)}
  {target : Target (RDbl M)} {frame : String} {dv dd : ℝ} {val_horizon : RDbl M}
  {es : List (Event (RDbl M))} {os : List (List (Out (RDbl M)))} {t : Expl (RDbl M)}
  {T τ δ η v w X : ℝ} {K : ℕ}

theorem drivenR_kept (hM : AccurateTrig M) (hcol : dwa.collision = collision)
    (hdt : dwa.dt = .fin dd) (hsteps : numSteps dwa.horizon dwa.dt = .ok dwa.steps)
    (hv : StepOk dv v w) (hd : StepOk dd v w) (hK : K ≤ 2 ^ 40) (hT0 : 0 ≤ T)
    (hTv : NearInstant T τ K dv val_horizon) (hTd : NearInstant T τ K dd dwa.horizon)
    {l : Option ((ℝ × ℝ) × V3 (RDbl M) × List (V3 (RDbl M)))} {rs : List (ℝ × ℝ)} {ε ν d r b s o ox oy : ℝ}
    (hε : η + v * τ + simError v (max dv dd) X K ≤ ε) (hde : r / 2 ^ 17 + ν + ε ≤ d)
    (hσ : v * T + η + δ + 2 * d < r) (hb : 1 ≤ cellsRd M b r)
    (hrc : cellsRd M b r + 2 ≤ cellsRd M (M.rnd (b + o)) r)
    (hseal : Sealed (cellsRd M b r) (cellsRd M (M.rnd (b + o)) r))
    (hsr : cellsRd M (M.rnd (b + o)) r ≤ cellsRd M s r) (k : ℕ)
    (hdr : DrivenR T δ η (Expl.start ec collision dwa target frame (.fin dv) val_horizon).1 es os t l rs) :
    (∀ o ∈ os, ∀ u ∈ twists o, Slow v w u) → (∀ p ∈ poses es, Located X p) →
    (∀ pre e post m x y θ, es = pre ++ e :: post → k ≤ (poses pre).length →
      e.pose? = some ⟨.fin x, .fin y, .fin θ⟩ → RecentMap pre m →
      ShowsR collision r b s o ν ox oy (v * T + η + ε) x y m) →
    (∀ q, rs[k]? = some q → KeptR (cellsRd M b r) (cellsRd M (M.rnd (b + o)) r) ox oy r d q) →
    (∀ i q, k ≤ i → rs[i]? = some q → KeptR (cellsRd M b r) (cellsRd M (M.rnd (b + o)) r) ox oy r d q) ∧
    rs.length = (poses es).length ∧
    ∀ p pose us, l = some (p, pose, us) → k < rs.length → ∀ q', Followed η T p pose us q' →
      KeptR (cellsRd M b r) (cellsRd M (M.rnd (b + o)) r) ox oy r d q' := by
  -- an iteration at `q`, believed to be at `pose`
  have iter : ∀ {es : List (Event (RDbl M))} {os : List (List (Out (RDbl M)))} {t t' : Expl (RDbl M)}
      {tf : Option (TransformMsg (RDbl M))} {draws : List Nat} {c : Slots (RDbl M)} {msgs : List (V3 (RDbl M))}
      {g : Gaps} {out : List (Out (RDbl M))} {q : ℝ × ℝ} {pose : V3 (RDbl M)},
      TornTrace (Expl.start ec collision dwa target frame (.fin dv) val_horizon).1 es os t →
      (Event.tick tf draws).pose? = some pose → Within δ q pose → t.iterationT tf draws c msgs g = .ok (t', out) →
      (∀ u ∈ twists out, Slow v w u) → Located X pose →
      (∀ x y θ m, pose = ⟨.fin x, .fin y, .fin θ⟩ → RecentMap (es ++ asEvents (c.all ++ odomCallbacks msgs)) m →
        ShowsR collision r b s o ν ox oy (v * T + η + ε) x y m) →
      KeptR (cellsRd M b r) (cellsRd M (M.rnd (b + o)) r) ox oy r d q →
      ∀ q', Followed η T q pose (twists out) q' →
        KeptR (cellsRd M b r) (cellsRd M (M.rnd (b + o)) r) ox oy r d q' := by
    intro es os t t' tf draws c msgs g out q pose ht hp hwi hs hw hX hsh hq q' hfo
    obtain ⟨x, y, θ, rfl, d0, d1⟩ := hwi
    rcases next_near_current hM ht hs hcol hdt hsteps hv hd hK hT0 hTv hTd hw hp hX hε hfo with rfl |
      ⟨⟨n0, n1⟩, cs1, cs2, m, hall, hm, hfree⟩
    · exact hq
    · refine keptR_step (σ := v * T + η + δ) (hsh x y θ m rfl ⟨es ++ asEvents cs1, asEvents (cs2 ++ odomCallbacks msgs), ?_,
        poses_asEvents _, hm⟩) hb hrc hseal hsr hfree ⟨by linarith, by linarith⟩ hde ⟨?_, ?_⟩ hσ hq
      · rw [hall, List.append_assoc, List.append_assoc, ← asEvents_append]
      · rw [abs_le] at n0 d0 ⊢
        constructor <;> linarith
      · rw [abs_le] at n1 d1 ⊢
        constructor <;> linarith
  have hposes : ∀ (es : List (Event (RDbl M))) (b : List (Callback (RDbl M))) (tf : Option (TransformMsg (RDbl M)))
      (draws : List Nat) (p : V3 (RDbl M)), (Event.tick tf draws).pose? = some p →
      poses (es ++ asEvents b ++ [.tick tf draws]) = poses es ++ [p] := by
    intro es b tf draws p hp
    rw [poses_append, poses_append, poses_asEvents, List.append_nil]
    simp [poses, hp]
  have snoc : ∀ {rs : List (ℝ × ℝ)} {q : ℝ × ℝ},
      (∀ i q, k ≤ i → rs[i]? = some q → KeptR (cellsRd M b r) (cellsRd M (M.rnd (b + o)) r) ox oy r d q) →
      (k ≤ rs.length → KeptR (cellsRd M b r) (cellsRd M (M.rnd (b + o)) r) ox oy r d q) →
      ∀ i q', k ≤ i → (rs ++ [q])[i]? = some q' →
        KeptR (cellsRd M b r) (cellsRd M (M.rnd (b + o)) r) ox oy r d q' := by
    intro rs q hold hnew i q' hi hq'
    rcases lt_trichotomy i rs.length with h | h | h
    · rw [List.getElem?_append_left h] at hq'
      exact hold i q' hi hq'
    · subst h
      rw [List.getElem?_concat_length, Option.some.injEq] at hq'
      subst hq'
      exact hnew hi
    · rw [List.getElem?_eq_none (by simp; omega)] at hq'
      cases hq'
  induction hdr with
  | nil => intro _ _ _ _; exact ⟨by simp, rfl, by simp⟩
  | @first es os t t' tf draws c msgs g out rs q pose hd' he hwi hs ih =>
    intro hw hX hsh h0
    rw [hposes _ _ _ _ _ he] at hX
    obtain ⟨i1, i2, -⟩ := ih (fun o ho => hw o (by simp [ho])) (fun p hp => hX p (by simp [hp]))
      (fun pre e post m x y θ hes => hsh pre e (post ++ (asEvents (c.all ++ odomCallbacks msgs) ++ [.tick tf draws]))
        m x y θ (by rw [hes]; simp))
      (fun q' hq' => h0 q' (by rw [List.getElem?_append_left (List.getElem?_eq_some_iff.mp hq').1]; exact hq'))
    have hnone : ∀ {es os t l rs}, DrivenR T δ η (Expl.start ec collision dwa target frame (.fin dv) val_horizon).1 es os t l rs →
        l = none → rs = [] := by
      intro es os t l rs h hl
      cases h with
      | nil => rfl
      | first => cases hl
      | next => cases hl
    have hrs : rs = [] := hnone hd' rfl
    subst hrs
    have hnew : k ≤ ([] : List (ℝ × ℝ)).length → KeptR (cellsRd M b r) (cellsRd M (M.rnd (b + o)) r) ox oy r d q := by
      intro hk
      have hk : k = 0 := by simpa using hk
      subst hk
      exact h0 q rfl
    refine ⟨snoc i1 hnew, by rw [hposes _ _ _ _ _ he, List.length_append, List.length_append, i2]; rfl, ?_⟩
    rintro p' pose' us' hl hk
    cases hl
    have hk0 : k ≤ 0 := by simpa using hk
    refine iter hd'.trace he hwi hs (hw out (by simp)) (hX pose (by simp)) ?_ (hnew hk0)
    intro x y θ m hpose hrec
    exact hsh _ _ [] m x y θ rfl (by omega) (by rw [he, hpose]) hrec
  | @next es os t t' tf draws c msgs g out rs p0 pose0 us q pose hd' he hwi hfo hs ih =>
    intro hw hX hsh h0
    rw [hposes _ _ _ _ _ he] at hX
    obtain ⟨i1, i2, i3⟩ := ih (fun o ho => hw o (by simp [ho])) (fun p hp => hX p (by simp [hp]))
      (fun pre e post m x y θ hes => hsh pre e (post ++ (asEvents (c.all ++ odomCallbacks msgs) ++ [.tick tf draws]))
        m x y θ (by rw [hes]; simp))
      (fun q' hq' => h0 q' (by rw [List.getElem?_append_left (List.getElem?_eq_some_iff.mp hq').1]; exact hq'))
    have hnew : k ≤ rs.length → KeptR (cellsRd M b r) (cellsRd M (M.rnd (b + o)) r) ox oy r d q := by
      intro hk
      rcases hk.eq_or_lt with hk | hk
      · exact h0 q (by rw [hk, List.getElem?_concat_length])
      · exact i3 p0 pose0 us rfl hk q hfo
    refine ⟨snoc i1 hnew, by rw [hposes _ _ _ _ _ he, List.length_append, List.length_append, i2]; rfl, ?_⟩
    rintro p' pose' us' hl hk
    cases hl
    rw [List.length_append, List.length_singleton] at hk
    refine iter hd'.trace he hwi hs (hw out (by simp)) (hX pose (by simp)) ?_ (hnew (by omega))
    intro x y θ m hpose hrec
    refine hsh _ _ [] m x y θ rfl ?_ (by rw [he, hpose]) hrec
    rw [poses_append, poses_asEvents, List.append_nil, ← i2]
    omega

end

/-- C125 in rounded arithmetic, with transforms right up to `δ`, a robot that ends up within `η` of where a twist
leads and rests when told to, and callbacks at any moment: however the maps change, an obstacle that is occupied,
up to `ν` at the same place, on every map in use from the `k`-th iteration on, and farther from the robot at that iteration
than the padded radius and half a cell's diagonal, is outside the boundary radius at that and every later
iteration, less half a cell's diagonal and the errors. -/
theorem C125_rounded (hM : AccurateTrig M) {p : Params (RDbl M)} {n : Node (RDbl M)} {o0 : List (Out (RDbl M))}
    (hn : Node.cart p = .ok (n, o0) ∨ Node.omni p = .ok (n, o0)) {dv dd T τ δ η v w X : ℝ} {K : ℕ}
    (hdv : p.val_dt = .fin dv) (hdd : p.dwa_dt = .fin dd) (hv : StepOk dv v w) (hd : StepOk dd v w)
    (hK : K ≤ 2 ^ 40) (hT0 : 0 ≤ T) (hTv : NearInstant T τ K dv p.val_horizon)
    (hTd : NearInstant T τ K dd p.dwa_horizon)
    {es : List (Event (RDbl M))} {os : List (List (Out (RDbl M)))} {t : Expl (RDbl M)}
    {l : Option ((ℝ × ℝ) × V3 (RDbl M) × List (V3 (RDbl M)))} {rs : List (ℝ × ℝ)}
    (hdr : DrivenR T δ η n.expl es os t l rs)
    (hw : ∀ o ∈ os, ∀ u ∈ twists o, Slow v w u) (hX : ∀ q ∈ poses es, Located X q)
    {ε ν d r b s o ox oy : ℝ} (hε : η + v * τ + simError v (max dv dd) X K ≤ ε) (hd0 : 0 ≤ d)
    (hd' : r / 2 ^ 17 + ν + ε ≤ d) (hσ : v * T + η + δ + 2 * d < r) (hr : minNormal ≤ r) (hb0 : 0 ≤ b) (ho0 : 0 ≤ o)
    (hbo : b + o ≤ 32767 * r) (hb : 1 ≤ cellsRd M b r)
    (hpad : cellsRd M b r + 3 ≤ cellsRd M (M.rnd (b + o)) r ∨
      cellsRd M b r + 2 ≤ cellsRd M (M.rnd (b + o)) r ∧ cellsRd M b r ≤ 21)
    (hsr : cellsRd M (M.rnd (b + o)) r ≤ cellsRd M s r) (k : ℕ)
    (hmap : ∀ pre e post m x y θ, es = pre ++ e :: post → k ≤ (poses pre).length →
      e.pose? = some ⟨.fin x, .fin y, .fin θ⟩ → RecentMap pre m →
      ShowsR n.expl.collision r b s o ν ox oy (v * T + η + ε) x y m)
    (h0 : ∀ q, rs[k]? = some q → b + o + r / 2 ^ 30 + √2 / 2 * r < apart ox oy q) :
    ∀ i q, k ≤ i → rs[i]? = some q → b - √2 * (r / 2 + d) < apart ox oy q := by
  have hr0 : 0 < r := minNormal_pos.trans_le hr
  have hseal : Sealed (cellsRd M b r) (cellsRd M (M.rnd (b + o)) r) := by
    rcases hpad with h | ⟨h, h'⟩
    · exact sealed_three hb h
    · exact sealed_two hb h' h
  have hrc : cellsRd M b r + 2 ≤ cellsRd M (M.rnd (b + o)) r := by omega
  have hbo0 : 0 ≤ b + o := add_nonneg hb0 ho0
  have hcol : cellsRd M (M.rnd (b + o)) r * r ≤ b + o + r / 2 ^ 30 := by
    have e := (M.err' (show minNormal ≤ 32767 * r by linarith) (x := b + o) (by
      rw [abs_of_nonneg hbo0]; exact hbo)).2
    have := (cells_rd (M := M) hr0 (M.rnd_nonneg hbo0) (by norm_num at e; linarith)).2.2.2.1
    norm_num at e this ⊢
    linarith
  have hbnd := (cells_rd (M := M) hr0 hb0 (by linarith)).2.2.2.2
  have hk0 : ∀ q, rs[k]? = some q →
      KeptR (cellsRd M b r) (cellsRd M (M.rnd (b + o)) r) ox oy r d q := by
    intro q hq
    have cx := cellsFrom_bounds (o := ox) (x := q.1) hr0
    have cy := cellsFrom_bounds (o := oy) (x := q.2) hr0
    refine ⟨cellsFrom ox r q.1, cellsFrom oy r q.2, cx.trans (by linarith), cy.trans (by linarith), .inl ?_⟩
    rw [max_min_sq]
    have h1 := abs_le.mp (apart_cells (d := 0) hr0 (by simpa using cx) (by simpa using cy))
    have h2 := h0 q hq
    have h3 : (cellsRd M (M.rnd (b + o)) r : ℝ) < √(((cellsFrom ox r q.1) * (cellsFrom ox r q.1) +
        (cellsFrom oy r q.2) * (cellsFrom oy r q.2) : Int) : ℝ) := by nlinarith
    have h4 := (Real.lt_sqrt (by
      have : 0 ≤ cellsRd M (M.rnd (b + o)) r := by omega
      exact_mod_cast this)).mp h3
    rw [pow_two] at h4
    exact_mod_cast h4
  have main : ∀ (ec : ErgodicControl (RDbl M)) (collision : Collision (RDbl M)) (dwa : DynamicWindow (RDbl M))
      (target : Target (RDbl M)),
      (n.expl, o0) = Expl.start ec collision dwa target p.map_frame_id p.val_dt p.val_horizon →
      dwa.collision = collision → numSteps dwa.horizon dwa.dt = .ok dwa.steps → dwa.dt = p.dwa_dt →
      dwa.horizon = p.dwa_horizon →
      ∀ i q, k ≤ i → rs[i]? = some q → KeptR (cellsRd M b r) (cellsRd M (M.rnd (b + o)) r) ox oy r d q := by
    intro ec collision dwa target he hc hst e1 e2
    have h1 : n.expl = (Expl.start ec collision dwa target p.map_frame_id p.val_dt p.val_horizon).1 := by
      rw [← he]
    have h2 : n.expl.collision = collision := by rw [h1]; rfl
    rw [h2] at hmap
    rw [h1, hdv] at hdr
    rw [← e2] at hTd
    exact (drivenR_kept hM hc (e1.trans hdd) hst hv hd hK hT0 hTv hTd hε hd' hσ hb hrc hseal hsr k hdr hw hX
      hmap hk0).1
  have win : ∀ {c : Collision (RDbl M)} {ay ylo yhi : RDbl M} {ny : UInt32} {dwa : DynamicWindow (RDbl M)},
      DynamicWindow.new c p.dwa_dt p.dwa_horizon p.acc_dt p.acc_lim_x ay p.acc_lim_th
        p.max_vel_x p.min_vel_x yhi ylo p.max_rot_vel p.min_rot_vel p.vx_samples ny p.vth_samples = .ok dwa →
      dwa.collision = c ∧ numSteps dwa.horizon dwa.dt = .ok dwa.steps ∧ dwa.dt = p.dwa_dt ∧
      dwa.horizon = p.dwa_horizon := by
    intro c ay ylo yhi ny dwa h
    simp only [DynamicWindow.new, Res.bind_eq_ok, Res.ok.injEq] at h
    obtain ⟨k, hk, rfl⟩ := h
    exact ⟨rfl, hk, rfl, rfl⟩
  intro i q hi hq
  obtain ⟨Z, W, hZ, hW, hk⟩ : KeptR (cellsRd M b r) (cellsRd M (M.rnd (b + o)) r) ox oy r d q := by
    rcases hn with hn | hn
    · obtain ⟨_, _, target, collision, ec, dwa, -, hdw, he, -⟩ := cart_ok hn
      obtain ⟨h1, h2, h3, h4⟩ := win hdw
      exact main ec collision dwa target he h1 h2 h3 h4 i q hi hq
    · obtain ⟨_, _, _, target, collision, ec, dwa, -, hdw, he, -⟩ := omni_ok hn
      obtain ⟨h1, h2, h3, h4⟩ := win hdw
      exact main ec collision dwa target he h1 h2 h3 h4 i q hi hq
  have hfar := hk.far hb hrc
  rw [max_min_sq] at hfar
  have h1 := abs_le.mp (apart_cells hr0 hZ hW)
  have h2 : (cellsRd M b r : ℝ) + 1 ≤ √((Z * Z + W * W : Int) : ℝ) := by
    apply Real.le_sqrt_of_sq_le
    rw [pow_two]
    exact_mod_cast hfar
  nlinarith

/-! ## A hall whose map comes to be full of obstacles, on binary64 numbers -/

/-- the hall, every cell occupied -/
noncomputable def hallMsg2 : OccupancyGrid (RDbl ieee) := { hallMsg with data := List.replicate 400 100 }

theorem hall2_sensible : SensibleRd hallDetector (mapOf hallMsg2) 0 0 1 3 6 3 := by
  refine ⟨⟨by decide, ?_⟩, ⟨rfl, rfl, rfl, by norm_num⟩, minNormal_le_one, by decide, by decide, by decide,
    by decide, rfl, rfl, rfl, by norm_num, by norm_num, by norm_num, by norm_num, by norm_num⟩
  show (List.replicate 400 (100 : Int8)).length = _
  rw [List.length_replicate]; decide

theorem hall2_map_ok : MapOk hallDetector (.fin 1) cornerTarget (mapOf hallMsg2) := by
  obtain ⟨-, b, c, d⟩ := hall_map_ok
  exact ⟨⟨0, 0, 1, 3, 6, 3, hall2_sensible⟩, b, c, d⟩

theorem hall2_occupied : Occupied (.fin 1 : RDbl ieee) (mapOf hallMsg2) 0 0 := by
  obtain ⟨h1, h2, h3, h4, v, hv, hl⟩ := (hall_occupied 0 0).mpr ⟨rfl, rfl⟩
  have hv : (100 :: List.replicate 399 (0 : Int8))[0]? = some v := hv
  obtain rfl : (100 : Int8) = v := by
    rw [List.getElem?_cons_zero] at hv
    exact Option.some.inj hv
  refine ⟨h1, h2, h3, h4, 100, ?_, hl⟩
  show (List.replicate 400 (100 : Int8))[0]? = _
  rw [List.getElem?_replicate]
  rfl

/-- a map, an iteration, another map and another iteration -/
noncomputable def restrolls (r : ℝ × ℝ) : List (Event (RDbl ieee)) :=
  [.map hallMsg, .tick (some (placeTf 10.5 10.5)) [0, 0], .map hallMsg2, .tick (some (placeTf r.1 r.2)) [0, 0]]

theorem poses_placed (pre : List (Event (RDbl ieee))) (x y : ℝ) :
    poses (pre ++ [.tick (some (placeTf x y)) [0, 0]]) = poses pre ++ [⟨.fin x, .fin y, .fin 0⟩] := by
  rw [poses_append]
  congr 1
  simp only [poses, List.filterMap_cons, place_pose, List.filterMap_nil]

theorem restrolls_poses (r : ℝ × ℝ) :
    poses (restrolls r) = [⟨.fin 10.5, .fin 10.5, .fin 0⟩, ⟨.fin r.1, .fin r.2, .fin 0⟩] := by
  have h1 := poses_placed [.map hallMsg, .tick (some (placeTf 10.5 10.5)) [0, 0], .map hallMsg2] r.1 r.2
  have h2 := poses_placed [.map hallMsg] 10.5 10.5
  have h3 : poses [.map hallMsg, .tick (some (placeTf 10.5 10.5)) [0, 0], .map hallMsg2] =
      poses ([.map hallMsg] ++ [.tick (some (placeTf 10.5 10.5)) [0, 0]]) := by
    rw [show ([.map hallMsg, .tick (some (placeTf 10.5 10.5)) [0, 0], .map hallMsg2] : List (Event (RDbl ieee))) =
      ([.map hallMsg] ++ [.tick (some (placeTf 10.5 10.5)) [0, 0]]) ++ [.map hallMsg2] from rfl, poses_append,
      show poses [Event.map hallMsg2] = [] from rfl, List.append_nil]
  rw [h3, h2] at h1
  exact h1

theorem restrolls_run {n : Node (RDbl ieee)} {o : List (Out (RDbl ieee))} (hn : Node.omni hallParams = .ok (n, o))
    (r : ℝ × ℝ) (h : |r.1 - 10.5| ≤ 1 ∧ |r.2 - 10.5| ≤ 1) :
    ∃ n' out, n.run (restrolls r) = .ok (n', out) ∧ ∀ u ∈ twists out, Slow (1 / 2) 2 u := by
  have h3 : ((3 : UInt32).toNat : ℝ) = 3 := by rw [show (3 : UInt32).toNat = 3 from rfl]; norm_num
  have h4 : ieee.rnd (1 / 4) = 1 / 4 := Ieee.rnd_rep 1 (-2) (by norm_num) (by norm_num) (by norm_num [zpow_neg])
  refine C99_omni ieee_trig ieee_pow hallParams hallReal n o hallDetector cornerTarget (restrolls r) zero_le_one
    hall_reads hall_sane hall_collision (room_target 0) hn ?_ ?_ ?_ ?_ ?_
  · rintro a b r ⟨a0, a1⟩ ⟨b0, b1⟩ ⟨r0, r1⟩
    simp only [hallReal, hallParams, roomReal, roomParams, h3] at a0 a1 b0 b1 r0 r1
    norm_num at a1 b0 b1 r1
    refine ⟨?_, abs_le.mpr ⟨by linarith, by linarith⟩⟩
    unfold speed
    rw [Real.sqrt_le_left (by norm_num)]
    have ha : a ^ 2 ≤ 0.1 := by nlinarith
    have hb : b ^ 2 ≤ 0.1 := by nlinarith
    dsimp only
    norm_num at ha hb ⊢
    linarith
  · exact ⟨0, 0, 0, rfl, room_axis (by norm_num) (by norm_num) (by norm_num) h4,
      by simpa [hallReal, roomReal] using room_axis (v := 0) (l := 0) (by norm_num) (by norm_num) (by norm_num) ieee.rnd_zero,
      room_axis (by norm_num) (by norm_num) le_rfl ieee.rnd_one⟩
  · intro u hu
    have : u ∈ ([] : List (V3 (RDbl ieee))) := hu
    simp at this
  · intro x hx
    rw [restrolls_poses] at hx
    simp only [List.mem_cons, List.not_mem_nil, or_false] at hx
    rcases hx with rfl | rfl <;> exact ⟨⟨_, rfl⟩, ⟨_, rfl⟩, _, rfl⟩
  · have room : ∀ m (r : ℝ × ℝ), m = hallMsg ∨ m = hallMsg2 → |r.1 - 10.5| ≤ 1 ∧ |r.2 - 10.5| ≤ 1 →
        RoomRd (mapOf m) ⟨.fin r.1, .fin r.2, .fin 0⟩ 20 1 := by
      rintro m r hm ⟨h1, h2⟩
      rw [abs_le] at h1 h2
      refine ⟨r.1, r.2, 0, 0, 0, 1, rfl, ?_, by norm_num, ?_, ?_, ?_⟩
      · rcases hm with rfl | rfl <;> exact ⟨rfl, rfl, rfl, by norm_num⟩
      · rw [abs_le]; constructor <;> linarith
      · rw [abs_le]; constructor <;> linarith
      · norm_num at h1 h2 ⊢
        refine ⟨?_, ?_, ?_, ?_⟩ <;> linarith
    intro pre tf draws post he
    rcases four_events he with ⟨rfl, rfl, rfl⟩ | ⟨rfl, rfl, rfl⟩
    · refine ⟨rfl, ?_, ?_, ?_⟩
      · intro k hk
        have : k = 0 := by simpa using hk
        subst this
        rw [poses_placed, List.length_append]
        exact Nat.succ_pos _
      · intro m hm
        rw [← Option.some.inj hm]
        exact hall_map_ok
      · intro m x hm hx
        rw [poses_placed] at hx
        have hx : (⟨.fin 10.5, .fin 10.5, .fin 0⟩ : V3 (RDbl ieee)) = x := by simpa using hx
        subst hx
        exact room m (10.5, 10.5) (.inl (Option.some.inj hm).symm) (by simp)
    · refine ⟨rfl, ?_, ?_, ?_⟩
      · intro k hk
        have : k = 0 := by simpa using hk
        subst this
        rw [poses_placed, List.length_append]
        exact Nat.succ_pos _
      · intro m hm
        rw [← Option.some.inj hm]
        exact hall2_map_ok
      · intro m x hm hx
        rw [poses_placed] at hx
        have hx : (⟨.fin r.1, .fin r.2, .fin 0⟩ : V3 (RDbl ieee)) = x := by simpa using hx
        subst hx
        exact room m r (.inr (Option.some.inj hm).symm) h

/-- The hypotheses of `C125_rounded` are met by two iterations on binary64 numbers between which every cell comes to be
occupied: the robot carries out the first twist a millimetre off, and the second transform is a centimetre off. -/
example : ∃ (n : Node (RDbl ieee)) (o0 : List (Out (RDbl ieee))) (es : List (Event (RDbl ieee)))
    (os : List (List (Out (RDbl ieee)))) (t : Expl (RDbl ieee))
    (l : Option ((ℝ × ℝ) × V3 (RDbl ieee) × List (V3 (RDbl ieee)))) (rs : List (ℝ × ℝ)),
    Node.omni hallParams = .ok (n, o0) ∧ StepOk 1 (1 / 2) 2 ∧
    NearInstant 1 0 1 1 hallParams.val_horizon ∧ NearInstant 1 0 1 1 hallParams.dwa_horizon ∧
    DrivenR 1 (1 / 100) (1 / 1000) n.expl es os t l rs ∧
    (∀ o ∈ os, ∀ u ∈ twists o, Slow (1 / 2) 2 u) ∧ (∀ q ∈ poses es, Located 20 q) ∧
    1 / 1000 + 1 / 2 * 0 + simError (1 / 2) (max 1 1) 20 1 ≤ 1 / 100 ∧
    (1 / 2 ^ 17 + 0 + 1 / 100 : ℝ) ≤ 1 / 50 ∧ (1 / 2 * 1 + 1 / 1000 + 1 / 100 + 2 * (1 / 50) : ℝ) < 1 ∧
    minNormal ≤ 1 ∧ (3 + 3 : ℝ) ≤ 32767 * 1 ∧ 1 ≤ cellsRd ieee 3 1 ∧
    cellsRd ieee 3 1 + 3 ≤ cellsRd ieee (ieee.rnd (3 + 3)) 1 ∧ cellsRd ieee (ieee.rnd (3 + 3)) 1 ≤ cellsRd ieee 6 1 ∧
    (∀ pre e post m x y θ, es = pre ++ e :: post → 0 ≤ (poses pre).length →
      e.pose? = some ⟨.fin x, .fin y, .fin θ⟩ → RecentMap pre m →
      ShowsR n.expl.collision 1 3 6 3 0 (1 / 2) (1 / 2) (1 / 2 * 1 + 1 / 1000 + 1 / 100) x y m) ∧
    (∀ q, rs[0]? = some q → 3 + 3 + 1 / 2 ^ 30 + √2 / 2 * 1 < apart (1 / 2) (1 / 2) q) ∧
    maps es = [hallMsg, hallMsg2] ∧ rs.length = 2 ∧ twists os.flatten ≠ [] := by
  obtain ⟨n, o0, hn, hup⟩ := hall_omni
  have hcoll : n.expl.collision = hallDetector := by
    obtain ⟨_, _, _, _, collision, _, _, ⟨-, -, -, -, hc⟩, -, -, he, -⟩ := omni_parts hn
    have hc : collision = hallDetector := (Res.ok.inj (hall_collision.symm.trans hc)).symm
    have h1 := congrArg (fun r => r.1.collision) he
    rw [← hc]
    exact h1
  have go := restrolls_run hn
  -- the first iteration
  obtain ⟨n1, out1, hr1, hs1⟩ := go (10.5, 10.5) (by simp)
  obtain ⟨x0, oa, out, hm, hr1a, rfl⟩ := run_cons hup hr1
  obtain ⟨t1, o1, out, ht1, hr1b, rfl⟩ := run_cons (n := { n with expl := x0 }) hup hr1a
  have hx0 : n.expl.mapCallback hallMsg = x0 := by
    have : (Res.ok (n.expl.mapCallback hallMsg, []) : Res (Expl (RDbl ieee) × List (Out (RDbl ieee)))) =
      .ok (x0, oa) := hm
    simp only [Res.ok.injEq, Prod.mk.injEq] at this
    exact this.1
  have htw : twists o1 = [t1.u] := by
    have := iteration_twists ht1
    rw [if_pos] at this
    · exact this
    · rw [← hx0]; rfl
  obtain ⟨a, b, c, hu, hsp, hc⟩ := hs1 t1.u (by simp [twists_append, htw])
  -- where the robot is then
  obtain ⟨r', hr', hf⟩ : ∃ r' : ℝ × ℝ, (|r'.1 - 10.5| ≤ 3 / 4 ∧ |r'.2 - 10.5| ≤ 3 / 4) ∧
      Followed (1 / 1000) 1 (10.5, 10.5) (⟨.fin 10.5, .fin 10.5, .fin 0⟩ : V3 (RDbl ieee)) [t1.u] r' := by
    by_cases h0 : t1.u = ⟨.fin 0, .fin 0, .fin 0⟩
    · refine ⟨(10.5, 10.5), by norm_num, by simp, ?_⟩
      intro u hu
      rw [List.mem_singleton] at hu
      subst hu
      exact ⟨fun _ => rfl, fun _ _ _ _ _ _ _ _ h => absurd h0 h⟩
    · have hp := planar_le (C76_flow ⟨10.5, 10.5, 0⟩ ⟨a, b, c⟩ 1)
      have hl : speed ⟨a, b, c⟩ * |(1 : ℝ)| ≤ 1 / 2 := by
        rw [abs_one, mul_one]; exact hsp
      have h1 := abs_le.mp (hp.1.trans hl)
      have h2 := abs_le.mp (hp.2.trans hl)
      refine ⟨((flow ⟨10.5, 10.5, 0⟩ ⟨a, b, c⟩ 1).c0 + 1 / 1000, (flow ⟨10.5, 10.5, 0⟩ ⟨a, b, c⟩ 1).c1),
        ⟨?_, ?_⟩, by simp, ?_⟩
      · rw [abs_le]; constructor <;> linarith
      · rw [abs_le]; constructor <;> linarith
      · intro u hu'
        rw [List.mem_singleton] at hu'
        subst hu'
        refine ⟨fun h => absurd h h0, ?_⟩
        intro x y θ a' b' c' hp' hu' _
        rw [hu] at hu'
        simp only [V3.mk.injEq, RDbl.fin_inj] at hp' hu'
        obtain ⟨rfl, rfl, rfl⟩ := hp'
        obtain ⟨rfl, rfl, rfl⟩ := hu'
        constructor <;> simp
  have g1 := abs_le.mp hr'.1
  have g2 := abs_le.mp hr'.2
  -- the second iteration
  obtain ⟨n2, out2, hr2, hs2⟩ := go (r'.1 + 1 / 100, r'.2) (by
    constructor
    · rw [abs_le]; constructor <;> dsimp only <;> linarith
    · rw [abs_le]; constructor <;> dsimp only <;> linarith)
  obtain ⟨x0', ob, out', hm', hr2a, rfl⟩ := run_cons hup hr2
  have e0 := hm.symm.trans hm'
  simp only [Res.ok.injEq, Prod.mk.injEq] at e0
  obtain ⟨rfl, rfl⟩ := e0
  obtain ⟨t1', o1', out', ht1', hr2b, rfl⟩ := run_cons (n := { n with expl := x0 }) hup hr2a
  have e1 := ht1.symm.trans ht1'
  simp only [Res.ok.injEq, Prod.mk.injEq] at e1
  obtain ⟨rfl, rfl⟩ := e1
  obtain ⟨x1, oc, out', hmm, hr2c, rfl⟩ := run_cons (n := { n with expl := t1 }) hup hr2b
  have hx1 : t1.mapCallback hallMsg2 = x1 := by
    have : (Res.ok (t1.mapCallback hallMsg2, []) : Res (Expl (RDbl ieee) × List (Out (RDbl ieee)))) =
      .ok (x1, oc) := hmm
    simp only [Res.ok.injEq, Prod.mk.injEq] at this
    exact this.1
  obtain ⟨t2, o2, out', ht2, hr2d, rfl⟩ := run_cons (n := { n with expl := x1 }) hup hr2c
  have hd1 := DrivenR.first (T := 1) (δ := 1 / 100) (η := 1 / 1000) (r := ((10.5 : ℝ), (10.5 : ℝ)))
    (.nil (s := n.expl)) (place_pose 10.5 10.5 [0, 0]) ⟨10.5, 10.5, 0, rfl, by simp, by simp⟩
    ((iterationT_map n.expl _ _ hallMsg).trans (by rw [hx0]; exact ht1))
  rw [htw] at hd1
  have hd2 := DrivenR.next (r' := r') hd1 (place_pose (r'.1 + 1 / 100) r'.2 [0, 0])
    ⟨_, _, _, rfl, by rw [add_sub_cancel_left]; norm_num [abs_of_pos], by simp⟩ hf
    ((iterationT_map t1 _ _ hallMsg2).trans (by rw [hx1]; exact ht2))
  have hd3 : DrivenR 1 (1 / 100) (1 / 1000) n.expl (restrolls (r'.1 + 1 / 100, r'.2)) ([] ++ [o1] ++ [o2]) t2
      (some (r', ⟨.fin (r'.1 + 1 / 100), .fin r'.2, .fin 0⟩, twists o2)) ([] ++ [(10.5, 10.5)] ++ [r']) := hd2
  obtain ⟨c1, c2, c3⟩ := hall_cells
  have hni : NearInstant 1 0 1 1 (.fin 1 : RDbl ieee) := ⟨1, 0, room_steps.2, by decide, Nat.one_pos, by norm_num⟩
  refine ⟨n, o0, _, _, t2, _, _, hn, by constructor <;> norm_num, hni, hni, hd3, ?_, ?_, ?_, by norm_num, by norm_num,
    minNormal_le_one, by norm_num, by rw [c1]; norm_num, by rw [c1, c2]; norm_num, by rw [c2, c3], ?_, ?_, rfl, rfl, ?_⟩
  · intro o ho u hu
    apply hs2
    simp only [List.nil_append, List.mem_append, List.mem_singleton] at ho
    simp only [twists_append, List.mem_append]
    rcases ho with rfl | rfl
    · exact .inr (.inl hu)
    · exact .inr (.inr (.inr (.inl hu)))
  · intro q hq
    rw [restrolls_poses] at hq
    simp only [List.mem_cons, List.not_mem_nil, or_false] at hq
    rcases hq with rfl | rfl
    · refine ⟨10.5, 10.5, 0, rfl, ?_, ?_, by norm_num⟩ <;> norm_num [abs_of_pos]
    · refine ⟨_, _, 0, rfl, ?_, ?_, by norm_num⟩
      · rw [abs_le]; constructor <;> linarith
      · rw [abs_le]; constructor <;> linarith
  · rw [max_self]
    unfold simError
    norm_num
  · intro pre e post m x y θ he _ hp hm
    have hm : m = hallMsg ∨ m = hallMsg2 := by
      obtain ⟨a, b, rfl, -, hm⟩ := hm
      have h1 : m ∈ maps a := List.mem_of_getLast? hm
      have h2 : m ∈ maps (restrolls (r'.1 + 1 / 100, r'.2)) := by
        rw [he, List.append_assoc, maps_append]
        exact List.mem_append_left _ h1
      have h3 : m ∈ [hallMsg, hallMsg2] := h2
      simpa using h3
    have hxy : |x - 10.5| ≤ 1 ∧ |y - 10.5| ≤ 1 := by
      have h1 : (⟨.fin x, .fin y, .fin θ⟩ : V3 (RDbl ieee)) ∈ poses (restrolls (r'.1 + 1 / 100, r'.2)) := by
        rw [he]
        exact List.mem_filterMap.mpr ⟨e, by simp, hp⟩
      rw [restrolls_poses] at h1
      simp only [List.mem_cons, List.not_mem_nil, or_false, V3.mk.injEq, RDbl.fin_inj] at h1
      rcases h1 with ⟨rfl, rfl, -⟩ | ⟨rfl, rfl, -⟩
      · simp
      · rw [abs_le, abs_le]
        refine ⟨⟨?_, ?_⟩, ?_, ?_⟩ <;> linarith
    have h1 := abs_le.mp hxy.1
    have h2 := abs_le.mp hxy.2
    have h20 : ((20 : UInt32).toNat : ℝ) = 20 := by rw [show (20 : UInt32).toNat = 20 from rfl]; norm_num
    norm_num at h1 h2
    rw [hcoll]
    rcases hm with rfl | rfl
    · refine ⟨0, 0, hall_sensible, ⟨0, 0, (hall_occupied 0 0).mpr ⟨rfl, rfl⟩, by norm_num, by norm_num⟩, ?_, ?_, ?_, ?_⟩
      · norm_num; linarith
      · show x ≤ 0 + ((20 : UInt32).toNat : ℝ) * 1 - _
        rw [h20]; norm_num; linarith
      · norm_num; linarith
      · show y ≤ 0 + ((20 : UInt32).toNat : ℝ) * 1 - _
        rw [h20]; norm_num; linarith
    · refine ⟨0, 0, hall2_sensible, ⟨0, 0, hall2_occupied, by norm_num, by norm_num⟩, ?_, ?_, ?_, ?_⟩
      · norm_num; linarith
      · show x ≤ 0 + ((20 : UInt32).toNat : ℝ) * 1 - _
        rw [h20]; norm_num; linarith
      · norm_num; linarith
      · show y ≤ 0 + ((20 : UInt32).toNat : ℝ) * 1 - _
        rw [h20]; norm_num; linarith
  · intro q hq
    have hq : q = (10.5, 10.5) := by simpa using hq.symm
    subst hq
    have h2 : √2 ≤ 2 := by rw [Real.sqrt_le_left (by norm_num)]; norm_num
    refine lt_of_lt_of_le (b := 10) ?_ ?_
    · norm_num
      linarith
    · apply Real.le_sqrt_of_sq_le
      norm_num
  · intro h
    have : t1.u ∈ twists ([o1] ++ [o2]).flatten := by
      simp only [List.flatten_append, List.flatten_singleton, twists_append, List.mem_append]
      left
      rw [htw]; simp
    simp only [List.nil_append] at h
    rw [h] at this
    simp at this

end Ergodic
