import Verif.Props.Launch

/-!
# Property C126: what can go wrong at start-up besides an exception

Every start-up, from any parameter server, either succeeds, throws, or makes one of four conversions that C++ leaves
undefined.
-/

namespace Ergodic

/-- The computation returns or throws. -/
def Clean {α : Type} (r : Res α) : Prop := (∃ a, r = .ok a) ∨ ∃ e, r = .throw e

theorem Clean.ok {α : Type} (a : α) : Clean (.ok a : Res α) := .inl ⟨a, rfl⟩
theorem Clean.throw {α : Type} (e : Err) : Clean (.throw e : Res α) := .inr ⟨e, rfl⟩

theorem Clean.bind {α β : Type} {r : Res α} {f : α → Res β} (h : Clean r) (hf : ∀ a, r = .ok a → Clean (f a)) :
    Clean (r >>= f) := by
  rcases h with ⟨a, rfl⟩ | ⟨e, rfl⟩
  · exact hf a rfl
  · exact .throw e

theorem Clean.mapM {α β : Type} {f : α → Res β} {l : List α} (h : ∀ a ∈ l, Clean (f a)) : Clean (l.mapM f) := by
  induction l with
  | nil => exact .ok _
  | cons a l ih =>
    rw [List.mapM_cons]
    refine (h a (by simp)).bind fun b _ => (ih fun x hx => h x (by simp [hx])).bind fun bs _ => .ok _

variable {F : Type} [Flt F]

omit [Flt F] in
theorem vecAt_clean {α : Type} (l : List α) (i : Nat) : Clean (vecAt l i) := by
  unfold vecAt
  split
  · exact .ok _
  · exact .throw _

theorem castU32_clean {x : F} (h : castU32 x ≠ .ub) : Clean (castU32 x) := by
  unfold castU32 at h ⊢
  split at h
  · split at h
    · rw [if_pos (by assumption)]; exact .ok _
    · exact absurd rfl h
  · exact absurd rfl h

theorem Gaussian.new_clean (mu s : V2 F) : Clean (Gaussian.new mu s) := by
  unfold Gaussian.new
  dsimp only
  split
  · exact .throw _
  · exact .ok _

theorem Collision.new_clean (a b c d : F) : Clean (Collision.new a b c d) := by
  unfold Collision.new
  split
  · exact .throw _
  · split
    · exact .throw _
    · exact .ok _

theorem ErgodicControl.new_clean (model : TwistModel F) (c : Collision F) {dt horizon : F} (r w : F) (k n b : Nat)
    (Rinv : M3 F) (umin umax : V3 F) (h : numSteps horizon dt ≠ .ub) :
    Clean (ErgodicControl.new model c dt horizon r w k n b Rinv umin umax) := by
  unfold ErgodicControl.new
  refine (castU32_clean h).bind fun n _ => ?_
  split
  · exact .throw _
  · exact .ok _

theorem DynamicWindow.new_clean (c : Collision F) {dt horizon : F} (a ax ay aθ x1 x0 y1 y0 r1 r0 : F)
    (nx ny nθ : UInt32) (h : numSteps horizon dt ≠ .ub) :
    Clean (DynamicWindow.new c dt horizon a ax ay aθ x1 x0 y1 y0 r1 r0 nx ny nθ) :=
  (castU32_clean h).bind fun _ _ => .ok _

/-- The nodes start or throw, whatever the parameters, if the two numbers of steps can be converted. -/
theorem node_clean (p : Params F) (he : numSteps p.ec_horizon p.ec_dt ≠ .ub)
    (hd : numSteps p.dwa_horizon p.dwa_dt ≠ .ub) : Clean (Node.cart p) ∧ Clean (Node.omni p) := by
  constructor
  · exact (vecAt_clean _ _).bind fun _ _ => (vecAt_clean _ _).bind fun _ _ =>
      (Clean.mapM fun _ _ => Gaussian.new_clean _ _).bind fun _ _ => (Collision.new_clean _ _ _ _).bind fun _ _ =>
      (ErgodicControl.new_clean _ _ _ _ _ _ _ _ _ _ he).bind fun _ _ =>
      (DynamicWindow.new_clean _ _ _ _ _ _ _ _ _ _ _ _ _ _ hd).bind fun _ _ => .ok _
  · exact (vecAt_clean _ _).bind fun _ _ => (vecAt_clean _ _).bind fun _ _ => (vecAt_clean _ _).bind fun _ _ =>
      (Clean.mapM fun _ _ => Gaussian.new_clean _ _).bind fun _ _ => (Collision.new_clean _ _ _ _).bind fun _ _ =>
      (ErgodicControl.new_clean _ _ _ _ _ _ _ _ _ _ he).bind fun _ _ =>
      (DynamicWindow.new_clean _ _ _ _ _ _ _ _ _ _ _ _ _ _ hd).bind fun _ _ => .ok _

omit [Flt F] in
theorem Xml.size_clean (x : Xml F) : Clean x.size := by
  cases x
  case arr => exact .ok _
  all_goals exact .throw _

omit [Flt F] in
theorem Xml.item_clean (x : Xml F) (i : Nat) : Clean (x.item i) := by
  cases x
  case invalid => exact .ok _
  case arr => exact .ok _
  all_goals exact .throw _

theorem Xml.num_clean (x : Xml F) : Clean x.num := by
  cases x
  case invalid => exact .ok _
  case dbl => exact .ok _
  all_goals exact .throw _

theorem Xml.pair_clean (x : Xml F) (i : Nat) : Clean (x.pair i) :=
  (Xml.item_clean _ _).bind fun _ _ => (Xml.item_clean _ _).bind fun _ _ => (Xml.num_clean _).bind fun _ _ =>
    (Xml.item_clean _ _).bind fun _ _ => (Xml.item_clean _ _).bind fun _ _ => (Xml.num_clean _).bind fun _ _ => .ok _

theorem readTargets_clean (means sigmas : Xml F) : Clean (readTargets means sigmas) :=
  (Xml.size_clean _).bind fun _ _ => Clean.mapM fun _ _ => (Xml.pair_clean _ _).bind fun _ _ =>
    (Xml.pair_clean _ _).bind fun _ _ => .ok _

/-- C126: from any parameter server — lists too short, values of the wrong kind, missing values, thresholds and radii
out of range, standard deviations of zero — either node starts or throws, unless the size of the buffer, the number of
basis functions or one of the two numbers of steps is out of the range of its type. -/
theorem C126_start (l : Launch F) (hb : castU32 l.buffer_size ≠ .ub) (hn : (i2u l.num_basis).toNat ≤ 46340)
    (he : numSteps l.base.ec_horizon l.base.ec_dt ≠ .ub) (hd : numSteps l.base.dwa_horizon l.base.dwa_dt ≠ .ub) :
    ((∃ r, l.cart = .ok r) ∨ ∃ e, l.cart = .throw e) ∧ ((∃ r, l.omni = .ok r) ∨ ∃ e, l.omni = .throw e) := by
  have hp : Clean l.params :=
    (castU32_clean hb).bind fun _ _ => (readTargets_clean _ _).bind fun _ _ => .ok _
  have hc : Clean (Basis.create (lit 0 0 : F) (lit 0 0) (i2u l.num_basis)) := by
    rw [(C88_basis _ _ _).1 hn]
    exact .ok _
  have hs : ∀ p, l.params = .ok p → p.ec_horizon = l.base.ec_horizon ∧ p.ec_dt = l.base.ec_dt ∧
      p.dwa_horizon = l.base.dwa_horizon ∧ p.dwa_dt = l.base.dwa_dt := by
    intro p h
    unfold Launch.params at h
    simp only [Res.bind_eq_ok, Res.ok.injEq] at h
    obtain ⟨_, -, _, -, rfl⟩ := h
    exact ⟨rfl, rfl, rfl, rfl⟩
  constructor
  · refine hp.bind fun p h => hc.bind fun _ _ => (node_clean p ?_ ?_).1
    · rw [(hs p h).1, (hs p h).2.1]; exact he
    · rw [(hs p h).2.2.1, (hs p h).2.2.2]; exact hd
  · refine hp.bind fun p h => hc.bind fun _ _ => (node_clean p ?_ ?_).2
    · rw [(hs p h).1, (hs p h).2.1]; exact he
    · rw [(hs p h).2.2.1, (hs p h).2.2.2]; exact hd

theorem castU32_real_ub (x : ℝ) : castU32 x = .ub ↔ x ≤ -1 ∨ 4294967296 ≤ x := by
  have ht : Flt.trunc? x = some (realTrunc x) := rfl
  unfold castU32
  rw [ht]
  dsimp only
  have key : (0 ≤ realTrunc x ∧ realTrunc x < 4294967296) ↔ -1 < x ∧ x < 4294967296 := by
    unfold realTrunc
    by_cases h : 0 ≤ x
    · rw [if_pos h, Int.le_floor, Int.floor_lt]
      push_cast
      exact ⟨fun ⟨_, b⟩ => ⟨by linarith, b⟩, fun ⟨_, b⟩ => ⟨h, b⟩⟩
    · rw [if_neg h]
      push Not at h
      have h1 : ⌈x⌉ ≤ 0 := Int.ceil_le.mpr (by push_cast; linarith)
      rw [show (0 ≤ ⌈x⌉) ↔ -1 < ⌈x⌉ by omega, Int.lt_ceil]
      push_cast
      exact ⟨fun ⟨a, _⟩ => ⟨a, by linarith⟩, fun ⟨a, _⟩ => ⟨a, by omega⟩⟩
  split
  · rename_i h
    obtain ⟨h1, h2⟩ := key.mp h
    refine ⟨fun h => by simp at h, fun h => ?_⟩
    rcases h with h | h <;> linarith
  · rename_i h
    rw [key] at h
    refine ⟨fun _ => ?_, fun _ => rfl⟩
    by_contra hn
    push Not at hn
    exact h hn

/-- C126 in exact arithmetic: the four ranges. (The quotients by a zero step, which exact arithmetic takes to be zero and
doubles to be infinite, are left out.) -/
theorem C126_ranges (l : Launch ℝ) (hb : -1 < l.buffer_size ∧ l.buffer_size < 4294967296)
    (hn : 0 ≤ l.num_basis ∧ l.num_basis ≤ 46340)
    (_ : l.base.ec_dt ≠ 0 ∧ l.base.dwa_dt ≠ 0)
    (he : |l.base.ec_horizon / l.base.ec_dt| < 4294967296) (hd : |l.base.dwa_horizon / l.base.dwa_dt| < 4294967296) :
    ((∃ r, l.cart = .ok r) ∨ ∃ e, l.cart = .throw e) ∧ ((∃ r, l.omni = .ok r) ∨ ∃ e, l.omni = .throw e) := by
  have step : ∀ {a b : ℝ}, |a / b| < 4294967296 → numSteps a b ≠ .ub := by
    intro a b h hu
    unfold numSteps at hu
    rw [real_fabs, real_div, castU32_real_ub] at hu
    have := abs_nonneg (a / b)
    rcases hu with hu | hu <;> linarith
  refine C126_start l ?_ ?_ (step he) (step hd)
  · rw [ne_eq, castU32_real_ub]
    push Not
    exact hb
  · have := i2u_nonneg hn.1 (by omega)
    omega

/-- Each of the four conversions is undefined for some numbers: no node starts. -/
theorem C126_buffer {l : Launch ℝ} (h : l.buffer_size ≤ -1 ∨ 4294967296 ≤ l.buffer_size) :
    l.cart = .ub ∧ l.omni = .ub := by
  have hp : l.params = .ub := by
    unfold Launch.params
    rw [(castU32_real_ub _).mpr h]
    rfl
  unfold Launch.cart Launch.omni
  rw [hp]
  exact ⟨rfl, rfl⟩

/-- C126: with values that are read, a number of basis functions from 46341 to 65535 is undefined. -/
theorem C126_basis {l : Launch F} {p : Params F} (hp : l.params = .ok p) (h : 46340 < l.num_basis ∧ l.num_basis < 65536) :
    l.cart = .ub ∧ l.omni = .ub := by
  have hn := i2u_nonneg (n := l.num_basis) (by omega) (by omega)
  have hc := (C88_basis (lit 0 0 : F) (lit 0 0) (i2u l.num_basis)).2.1 (by omega) (by omega)
  unfold Launch.cart Launch.omni
  rw [hp, hc]
  exact ⟨rfl, rfl⟩

omit [Flt F] in
/-- C126: sampling the memory returns or throws, whatever is stored and drawn. -/
theorem C126_sample {V : Type} (b : ReplayBuffer V) (draws : List Nat) (xt : List V) :
    (∃ r, b.sampleMemory draws xt = .ok r) ∨ ∃ e, b.sampleMemory draws xt = .throw e := by
  have hat : ∀ k, Clean (ReplayBuffer.at' b.memory k) := by
    intro k
    unfold ReplayBuffer.at'
    split
    · exact .ok _
    · exact .throw _
  have hc : ∀ pre : List V, Clean (ReplayBuffer.concatCols pre xt) := by
    intro pre
    unfold ReplayBuffer.concatCols
    split
    · exact .throw _
    · exact .ok _
  show Clean _
  unfold ReplayBuffer.sampleMemory
  split
  · exact .ok _
  · split
    · exact (Clean.mapM fun _ _ => hat _).bind fun _ _ => hc _
    · refine (Clean.mapM fun i _ => ?_).bind fun _ _ => hc _
      unfold ReplayBuffer.drawAt
      split
      · exact hat _
      · exact .throw _

/-- A server whose targets are a number: both nodes throw. -/
example : let l : Launch ℝ := { sampleLaunch 3 with means := .int 4 }
    (-1 < l.buffer_size ∧ l.buffer_size < 4294967296) ∧ (0 ≤ l.num_basis ∧ l.num_basis ≤ 46340) ∧
    (l.base.ec_dt ≠ 0 ∧ l.base.dwa_dt ≠ 0) ∧ |l.base.ec_horizon / l.base.ec_dt| < 4294967296 ∧
    |l.base.dwa_horizon / l.base.dwa_dt| < 4294967296 ∧
    l.cart = .throw .runtimeError := by
  intro l
  have hb : castU32 l.buffer_size = .ok 10 := by
    have h := castU32_real_of (x := 10) (n := 10) (by norm_num) (by norm_num) (by norm_num)
    exact h
  refine ⟨by simp only [l, sampleLaunch]; norm_num, by simp only [l, sampleLaunch]; norm_num,
    by simp only [l, sampleLaunch, sideParams]; norm_num, ?_, ?_, ?_⟩
  · simp only [l, sampleLaunch, sideParams]; norm_num [abs_of_pos]
  · simp only [l, sampleLaunch, sideParams]; norm_num [abs_of_pos]
  · unfold Launch.cart Launch.params
    rw [hb]
    rfl

/-- The other servers. -/
example : ({ sampleLaunch 3 with buffer_size := -1 } : Launch ℝ).cart = .ub ∧
    ({ sampleLaunch 3 with num_basis := 50000 } : Launch ℝ).cart = .ub := by
  refine ⟨(C126_buffer (.inl le_rfl)).1, ?_⟩
  obtain ⟨p, hp, -⟩ := sample_params 3
  have : ∃ q, ({ sampleLaunch 3 with num_basis := 50000 } : Launch ℝ).params = .ok q := by
    unfold Launch.params at hp ⊢
    simp only [Res.bind_eq_ok, Res.ok.injEq] at hp ⊢
    obtain ⟨b, hb, t, ht, -⟩ := hp
    exact ⟨_, b, hb, t, ht, rfl⟩
  obtain ⟨q, hq⟩ := this
  exact (C126_basis hq (by simp)).1

end Ergodic
