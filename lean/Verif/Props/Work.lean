import Verif.Spec.Work
import Verif.Lemmas.Metered
import Verif.Lemmas.Circle
import Verif.Lemmas.Exploration
import Verif.Props.ExplorationRefuted
import Verif.Props.ErgodicTarget
import Mathlib.Tactic.Linarith
import Mathlib.Tactic.Ring

/-!
# C131: the work of an iteration is bounded, whatever the map holds and however long the mission
-/

namespace Ergodic
variable {F : Type} [Flt F]
open Metered

namespace Meter
variable (p : Prices)

theorem circleLoop_work (c : Collision F) (g : GridMap F) {r : Int} : ∀ (n : Nat) (x y err : Int) (cfg : CollisionConfig),
    CircleInv r x y err → (circleLoop p c g n x y err cfg).work ≤ 4 * p.cell * ((-x) + (r - y)).toNat := by
  intro n
  induction n with
  | zero => intros; exact Nat.zero_le _
  | succ n ih =>
    intro x y err cfg h
    rw [circleLoop]
    split
    case isFalse => exact Nat.zero_le _
    case isTrue hx =>
    have hb := h.bounds
    have hpr := circleStep_progress h
    have hi := circleInv_step h hx
    have hbi := hi.bounds
    have hx0 := hi.x0
    obtain ⟨m, hm⟩ : ∃ m : Nat, ((-x) + (r - y)).toNat = m + 1 := ⟨((-x) + (r - y)).toNat - 1, by omega⟩
    have hle : (-(circleStep x y err).1 + (r - (circleStep x y err).2.1)).toNat ≤ m := by omega
    rw [hm]
    have : 4 * p.cell * (m + 1) = p.cell + (p.cell + (p.cell + (p.cell + 4 * p.cell * m))) := by ring
    rw [this]
    refine charge_bind_work_le fun a _ => ?_
    split
    · exact Nat.zero_le _
    refine charge_bind_work_le fun b _ => ?_
    split
    · exact Nat.zero_le _
    refine charge_bind_work_le fun d _ => ?_
    split
    · exact Nat.zero_le _
    refine charge_bind_work_le fun e _ => ?_
    split
    · exact Nat.zero_le _
    · exact le_trans (ih _ _ _ _ hi) (Nat.mul_le_mul_left _ hle)

theorem bresenhamCircle_work (c : Collision F) (g : GridMap F) (cfg : CollisionConfig) (r : Int) :
    (bresenhamCircle p c g cfg r).work ≤ 8 * p.cell * r.toNat := by
  rw [bresenhamCircle]
  rcases lt_or_ge r 1 with h | h
  · rw [circleLoop, if_neg (by omega)]
    exact Nat.zero_le _
  · refine le_trans (circleLoop_work p c g _ _ _ _ _ (circleInv_start h)) (le_of_eq ?_)
    have : (-(-r) + (r - 0)).toNat = 2 * r.toNat := by omega
    rw [this]
    ring

/-- A search changes what it found, not where it looks. -/
theorem checkCell_reach (c : Collision F) (g : GridMap F) {cfg cfg' : CollisionConfig} {i j : UInt32} {b : Bool}
    (h : c.checkCell g cfg i j = .ok (b, cfg')) : cfg'.r_max = cfg.r_max := by
  unfold Collision.checkCell at h
  split at h
  · obtain ⟨v, -, h⟩ := Res.bind_eq_ok.mp h
    split at h
    · simp only [Res.ok.injEq, Prod.mk.injEq] at h
      rw [← h.2]
      split <;> rfl
    · simp only [Res.ok.injEq, Prod.mk.injEq] at h
      rw [← h.2]
  · simp only [Res.ok.injEq, Prod.mk.injEq] at h
    rw [← h.2]

theorem circleLoop_reach (c : Collision F) (g : GridMap F) : ∀ (n : Nat) (x y err : Int) (cfg cfg' : CollisionConfig)
    (b : Bool), c.circleLoop g n x y err cfg = .ok (b, cfg') → cfg'.r_max = cfg.r_max := by
  intro n
  induction n with
  | zero => intro x y err cfg cfg' b h; simp [Collision.circleLoop] at h
  | succ n ih =>
    intro x y err cfg cfg' b h
    rw [Collision.circleLoop] at h
    split at h
    · obtain ⟨⟨a1, c1⟩, h1, h⟩ := Res.bind_eq_ok.mp h
      have e1 := checkCell_reach c g h1
      dsimp only at h
      split at h
      · simp only [Res.ok.injEq, Prod.mk.injEq] at h; rw [← h.2, e1]
      obtain ⟨⟨a2, c2⟩, h2, h⟩ := Res.bind_eq_ok.mp h
      have e2 := checkCell_reach c g h2
      dsimp only at h
      split at h
      · simp only [Res.ok.injEq, Prod.mk.injEq] at h; rw [← h.2, e2, e1]
      obtain ⟨⟨a3, c3⟩, h3, h⟩ := Res.bind_eq_ok.mp h
      have e3 := checkCell_reach c g h3
      dsimp only at h
      split at h
      · simp only [Res.ok.injEq, Prod.mk.injEq] at h; rw [← h.2, e3, e2, e1]
      obtain ⟨⟨a4, c4⟩, h4, h⟩ := Res.bind_eq_ok.mp h
      have e4 := checkCell_reach c g h4
      dsimp only at h
      split at h
      · simp only [Res.ok.injEq, Prod.mk.injEq] at h; rw [← h.2, e4, e3, e2, e1]
      · rw [ih _ _ _ _ _ _ h, e4, e3, e2, e1]
    · simp only [Res.ok.injEq, Prod.mk.injEq] at h
      rw [← h.2]

/-- Circles `r, …, R` cost at most `8 r + … + 8 R` cells. -/
theorem searchLoop_work (c : Collision F) (g : GridMap F) : ∀ (n : Nat) (r : Int) (cfg : CollisionConfig),
    (searchLoop p c g n r cfg).work ≤
      p.cell * (4 * cfg.r_max.toNat * (cfg.r_max.toNat + 1) - 4 * (r - 1).toNat * ((r - 1).toNat + 1)) := by
  intro n
  induction n with
  | zero => intros; exact Nat.zero_le _
  | succ n ih =>
    intro r cfg
    rw [searchLoop]
    split
    case isFalse => exact Nat.zero_le _
    case isTrue hr =>
    have key : 8 * p.cell * r.toNat +
        p.cell * (4 * cfg.r_max.toNat * (cfg.r_max.toNat + 1) - 4 * (r + 1 - 1).toNat * ((r + 1 - 1).toNat + 1)) ≤
        p.cell * (4 * cfg.r_max.toNat * (cfg.r_max.toNat + 1) - 4 * (r - 1).toNat * ((r - 1).toNat + 1)) := by
      rw [show r + 1 - 1 = r by omega]
      generalize hM : cfg.r_max.toNat = M
      have hrM : r.toNat ≤ M := by omega
      rcases lt_or_ge r 1 with h | h
      · rw [show r.toNat = 0 by omega, show (r - 1).toNat = 0 by omega]
        simp
      · obtain ⟨k, hk⟩ : ∃ k : Nat, r.toNat = k + 1 := ⟨r.toNat - 1, by omega⟩
        rw [hk, show (r - 1).toNat = k by omega] 
        have h1 : 4 * (k + 1) * (k + 1 + 1) ≤ 4 * M * (M + 1) := by
          have : k + 1 ≤ M := by omega
          nlinarith
        have h2 : 4 * M * (M + 1) - 4 * k * (k + 1) =
            8 * (k + 1) + (4 * M * (M + 1) - 4 * (k + 1) * (k + 1 + 1)) := by
          have : 4 * (k + 1) * (k + 1 + 1) = 4 * k * (k + 1) + 8 * (k + 1) := by ring
          omega
        rw [h2]
        apply le_of_eq
        ring
    refine le_trans (bind_work_le (bresenhamCircle_work p c g cfg r) fun a ha => ?_) key
    split
    · exact Nat.zero_le _
    · obtain ⟨b, cfg'⟩ := a
      have e : cfg'.r_max = cfg.r_max := by
        rw [bresenhamCircle_res] at ha
        exact circleLoop_reach c g _ _ _ _ _ _ _ ha
      have := ih (r + 1) cfg'
      rw [e] at this
      exact this

theorem collisionCheck_work (c : Collision F) (g : GridMap F) (x : V3 F) :
    (collisionCheck p c g x).work ≤ queryPrice p (lookout c g) := by
  rw [collisionCheck]
  refine free_bind_work_le fun cfg hcfg => ?_
  have hr : cfg.r_max.toNat = lookout c g := by
    unfold Collision.config at hcfg
    simp only [Res.bind_eq_ok, Res.ok.injEq] at hcfg
    obtain ⟨psg, -, rb, -, rc, -, rm, hm, rfl⟩ := hcfg
    unfold lookout
    rw [hm]
  have h := searchLoop_work p c g ((cfg.r_max - cfg.r_bnd + 1).toNat + 1) cfg.r_bnd cfg
  rw [hr] at h
  refine le_trans (bind_work_le (A := queryPrice p (lookout c g)) (B := 0) ?_ fun a _ => Nat.zero_le _) (by simp)
  exact le_trans h (Nat.mul_le_mul_left _ (Nat.sub_le _ _))

theorem validateLoop_work (c : Collision F) (g : GridMap F) (u : V3 F) (dt : F) : ∀ (n : Nat) (x : V3 F),
    (validateLoop p c g u dt n x).work ≤ n * queryPrice p (lookout c g) := by
  intro n
  induction n with
  | zero => intro x; exact Nat.zero_le _
  | succ n ih =>
    intro x
    rw [validateLoop, Nat.succ_mul, Nat.add_comm]
    refine bind_work_le (collisionCheck_work p c g _) fun b _ => ?_
    split
    · exact Nat.zero_le _
    · exact ih _

theorem rounds_eq {dt T : F} {n : UInt32} (h : numSteps T dt = .ok n) : rounds dt T = n.toNat := by
  unfold rounds
  rw [show castU32 (fabs (T /. dt)) = .ok n from h]

theorem validateControl_work (c : Collision F) (g : GridMap F) (x u : V3 F) (dt T : F) :
    (validateControl p c g x u dt T).work ≤ rounds dt T * queryPrice p (lookout c g) := by
  rw [validateControl]
  refine free_bind_work_le fun n hn => ?_
  rw [rounds_eq hn]
  exact validateLoop_work p c g u dt _ _

theorem rollout_work (d : DynamicWindow F) (g : GridMap F) (u : V3 F) : ∀ (n : Nat) (x : V3 F),
    (rollout p d g u n x).work ≤ n * queryPrice p (lookout d.collision g) := by
  intro n
  induction n with
  | zero => intro x; exact Nat.zero_le _
  | succ n ih =>
    intro x
    rw [rollout, Nat.succ_mul, Nat.add_comm]
    refine bind_work_le (collisionCheck_work p d.collision g _) fun b _ => ?_
    split
    · exact Nat.zero_le _
    · exact ih _

theorem objectiveTwist_work (d : DynamicWindow F) (g : GridMap F) (x v u : V3 F) :
    (objectiveTwist p d g x v u).work ≤ d.steps.toNat * queryPrice p (lookout d.collision g) := by
  rw [objectiveTwist]
  exact bind_work_le (B := 0) (rollout_work p d g u _ _) fun o _ => Nat.zero_le _

theorem trajLoop_work (d : DynamicWindow F) (g : GridMap F) (u : V3 F) (xt : List (V3 F)) (tf : F) :
    ∀ (n : Nat) (x : V3 F) (t c : F),
      (trajLoop p d g u xt tf n x t c).work ≤ n * queryPrice p (lookout d.collision g) := by
  intro n
  induction n with
  | zero => intro x t c; exact Nat.zero_le _
  | succ n ih =>
    intro x t c
    rw [trajLoop, Nat.succ_mul, Nat.add_comm]
    refine bind_work_le (collisionCheck_work p d.collision g _) fun b _ => ?_
    split
    · exact Nat.zero_le _
    · exact free_bind_work_le fun j _ => free_bind_work_le fun xr _ => ih _ _ _

theorem wLoop_work {cost : V3 F → Metered F} {A : Nat} (hc : ∀ u, (cost u).work ≤ A) (vx vy dw : F) :
    ∀ (n : Nat) (w : F) (s : F × V3 F), (wLoop cost vx vy dw n w s).work ≤ n * A := by
  intro n
  induction n with
  | zero => intro w s; exact Nat.zero_le _
  | succ n ih =>
    intro w s
    rw [wLoop, Nat.succ_mul, Nat.add_comm]
    exact bind_work_le (hc _) fun c _ => ih _ _

theorem vyLoop_work {cost : V3 F → Metered F} {A : Nat} (hc : ∀ u, (cost u).work ≤ A) (vx w0 dvy dw : F) (nw : Nat) :
    ∀ (n : Nat) (vy : F) (s : F × V3 F), (vyLoop cost vx w0 dvy dw nw n vy s).work ≤ n * (nw * A) := by
  intro n
  induction n with
  | zero => intro w s; exact Nat.zero_le _
  | succ n ih =>
    intro w s
    rw [vyLoop, Nat.succ_mul, Nat.add_comm]
    exact bind_work_le (wLoop_work hc _ _ _ _ _ _) fun c _ => ih _ _

theorem vxLoop_work {cost : V3 F → Metered F} {A : Nat} (hc : ∀ u, (cost u).work ≤ A) (vy0 w0 dvx dvy dw : F)
    (ny nw : Nat) : ∀ (n : Nat) (vx : F) (s : F × V3 F),
      (vxLoop cost vy0 w0 dvx dvy dw ny nw n vx s).work ≤ n * (ny * (nw * A)) := by
  intro n
  induction n with
  | zero => intro w s; exact Nat.zero_le _
  | succ n ih =>
    intro w s
    rw [vxLoop, Nat.succ_mul, Nat.add_comm]
    exact bind_work_le (vyLoop_work hc _ _ _ _ _ _ _ _) fun c _ => ih _ _

theorem searchWindow_work {cost : V3 F → Metered F} {A : Nat} (hc : ∀ u, (cost u).work ≤ A) (d : DynamicWindow F)
    (vb : V3 F) : (searchWindow d vb cost).work ≤
      d.vx_samples.toNat * (d.vy_samples.toNat * (d.vth_samples.toNat * A)) := by
  rw [searchWindow]
  refine bind_work_le (B := 0) (vxLoop_work hc _ _ _ _ _ _ _ _ _ _) fun s _ => ?_
  split <;> exact Nat.zero_le _

theorem controlTwist_work (d : DynamicWindow F) (g : GridMap F) (x vb v : V3 F) :
    (controlTwist p d g x vb v).work ≤ windowPrice p d (lookout d.collision g) :=
  searchWindow_work (fun u => objectiveTwist_work p d g x v u) d vb

theorem controlTraj_work (d : DynamicWindow F) (g : GridMap F) (x vb : V3 F) (xt : List (V3 F)) (dt : F) :
    (controlTraj p d g x vb xt dt).work ≤ windowPrice p d (lookout d.collision g) :=
  searchWindow_work (fun u => trajLoop_work p d g u xt _ _ _ _ _) d vb

/-! ## Planning -/

theorem step_work (dt : F) (f : V3 F → V3 F → Res (V3 F)) (x u : V3 F) : (step p dt f x u).work ≤ 4 * p.flow := by
  rw [step, show 4 * p.flow = p.flow + (p.flow + (p.flow + (p.flow + 0))) by ring]
  exact charge_bind_work_le fun _ _ => charge_bind_work_le fun _ _ => charge_bind_work_le fun _ _ =>
    charge_bind_work_le fun _ _ => Nat.zero_le _

theorem solveLoop_work (dt : F) (f : V3 F → V3 F → Res (V3 F)) (ut : List (V3 F)) : ∀ (n i : Nat) (x : V3 F),
    (solveLoop p dt f ut n i x).work ≤ p.flow * (4 * n) := by
  intro n
  induction n with
  | zero => intros; exact Nat.zero_le _
  | succ n ih =>
    intro i x
    rw [solveLoop, show p.flow * (4 * (n + 1)) = 4 * p.flow + (p.flow * (4 * n) + 0) by ring]
    exact free_bind_work_le fun u _ => bind_work_le (step_work p _ _ _ _) fun y _ =>
      bind_work_le (ih _ _) fun l _ => Nat.zero_le _

theorem solve_work (dt : F) (f : V3 F → V3 F → Res (V3 F)) (x : V3 F) (ut : List (V3 F)) (T : F) :
    (solve p dt f x ut T).work ≤ p.flow * (4 * rounds dt T) := by
  rw [solve]
  refine free_bind_work_le fun n hn => ?_
  rw [rounds_eq hn]
  exact solveLoop_work p _ _ _ _ _ _

theorem solve_rounds {dt : F} {f : V3 F → V3 F → Res (V3 F)} {x : V3 F} {ut l : List (V3 F)} {T : F}
    (h : RungeKutta.solve dt f x ut T = .ok l) : l.length = rounds dt T := by
  have key : ∀ (n i : Nat) (x : V3 F) (l : List (V3 F)), RungeKutta.solveLoop dt f ut n i x = .ok l → l.length = n := by
    intro n
    induction n with
    | zero => intro i x l h; rw [RungeKutta.solveLoop, Res.ok.injEq] at h; rw [← h]; rfl
    | succ n ih =>
      intro i x l h
      rw [RungeKutta.solveLoop] at h
      simp only [Res.bind_eq_ok, Res.ok.injEq] at h
      obtain ⟨u, -, y, -, rest, hr, rfl⟩ := h
      rw [List.length_cons, ih _ _ _ hr]
  obtain ⟨n, hn, h⟩ := Res.bind_eq_ok.mp h
  rw [rounds_eq hn]
  exact key _ _ _ _ h

theorem stepBack_work (dt : F) (func : CoStateFunc F) (rho e b : V3 F) (m : M3 F) :
    (stepBack p dt func rho e b m).work ≤ 4 * p.adjoint := by
  rw [stepBack, show 4 * p.adjoint = p.adjoint + (p.adjoint + (p.adjoint + (p.adjoint + 0))) by ring]
  exact charge_bind_work_le fun _ _ => charge_bind_work_le fun _ _ => charge_bind_work_le fun _ _ =>
    charge_bind_work_le fun _ _ => Nat.zero_le _

theorem solveBackLoop_work (dt : F) (func : CoStateFunc F) (fdx : V3 F → V3 F → M3 F) (xt ut edx bdx : List (V3 F)) :
    ∀ (n : Nat) (rho : V3 F) (acc : List (V3 F)),
      (solveBackLoop p dt func fdx xt ut edx bdx n rho acc).work ≤ p.adjoint * (4 * n) := by
  intro n
  induction n with
  | zero => intros; exact Nat.zero_le _
  | succ n ih =>
    intro rho acc
    rw [solveBackLoop, show p.adjoint * (4 * (n + 1)) = 4 * p.adjoint + p.adjoint * (4 * n) by ring]
    exact free_bind_work_le fun _ _ => free_bind_work_le fun _ _ => free_bind_work_le fun _ _ =>
      free_bind_work_le fun _ _ => bind_work_le (stepBack_work p _ _ _ _ _ _) fun y _ => ih _ _

theorem solveBack_work (dt : F) (func : CoStateFunc F) (fdx : V3 F → V3 F → M3 F) (rhoT : V3 F)
    (xt ut edx bdx : List (V3 F)) (T : F) :
    (solveBack p dt func fdx rhoT xt ut edx bdx T).work ≤ p.adjoint * (4 * rounds dt T) := by
  rw [solveBack]
  refine free_bind_work_le fun n hn => ?_
  rw [rounds_eq hn]
  exact solveBackLoop_work p _ _ _ _ _ _ _ _ _ _

theorem coefficients_work (b : Basis F) (xt : List (V3 F)) (ks : List (Int × Int)) :
    (coefficients p b xt ks).work ≤ p.wave * (ks.length * xt.length) := by
  induction ks with
  | nil => exact Nat.zero_le _
  | cons k ks ih =>
    rw [coefficients, List.length_cons, show p.wave * ((ks.length + 1) * xt.length) =
      p.wave * xt.length + (p.wave * (ks.length * xt.length) + 0) by ring]
    exact bind_work_le (le_of_eq (each_work _ _ _)) fun vs _ => bind_work_le ih fun l _ => Nat.zero_le _

theorem spatialLoop_work (b : Basis F) (vals : List F) (grid : List (V2 F)) (ks : List (Int × Int)) :
    (spatialLoop p b vals grid ks).work ≤ grid.length * (p.wave * ks.length) := by
  induction ks with
  | nil => exact Nat.zero_le _
  | cons k ks ih =>
    rw [spatialLoop, List.length_cons, show grid.length * (p.wave * (ks.length + 1)) =
      p.wave * grid.length + (grid.length * (p.wave * ks.length) + 0) by ring]
    exact bind_work_le (le_of_eq (each_work _ _ _)) fun vs _ => bind_work_le ih fun l _ => Nat.zero_le _

theorem spatialCoeff_work (b : Basis F) (vals : List F) (grid : List (V2 F)) :
    (spatialCoeff p b vals grid).work ≤ grid.length * (p.wave * b.k.length) := by
  rw [spatialCoeff]
  split
  · exact Nat.zero_le _
  · exact spatialLoop_work p _ _ _ _

theorem evaluateAll_work (t : Target F) (q : V2 F) (grid : List (V2 F)) :
    (evaluateAll p t q grid).work ≤ grid.length * (p.density * t.gaussians.length) := by
  induction grid with
  | nil => exact Nat.zero_le _
  | cons x xs ih =>
    rw [evaluateAll, List.length_cons, show (xs.length + 1) * (p.density * t.gaussians.length) =
      p.density * t.gaussians.length + (xs.length * (p.density * t.gaussians.length) + 0) by ring]
    exact bind_work_le (le_of_eq (each_work _ _ _)) fun vs _ => bind_work_le ih fun l _ => Nat.zero_le _

theorem fill_work (t : Target F) (q : V2 F) (grid : List (V2 F)) :
    (fill p t q grid).work ≤ grid.length * (p.density * t.gaussians.length) := by
  rw [fill]
  exact bind_work_le (B := 0) (evaluateAll_work p t q grid) fun _ _ => Nat.zero_le _

theorem configTarget_work (e : ErgodicControl F) (g : GridMap F) :
    (configTarget p e g).work ≤ targetPrice p e (targetPoints e.resolution g) := by
  rw [configTarget]
  split
  · exact Nat.zero_le _
  · refine free_bind_work_le fun grid hg => ?_
    have hl : targetPoints e.resolution g = grid.length := by
      unfold targetPoints
      dsimp only at hg
      rw [hg]
    unfold targetPrice
    rw [hl, Nat.mul_add, ← Nat.add_zero (grid.length * (p.wave * e.basis.k.length))]
    exact bind_work_le (fill_work p _ _ _) fun vals _ => bind_work_le (spatialCoeff_work p _ _ _) fun _ _ => Nat.zero_le _

theorem configTarget_work_same {e : ErgodicControl F} {g : GridMap F} (h : SameSize e g) :
    (configTarget p e g).work = 0 := by
  rw [configTarget]
  dsimp only
  rw [if_pos (by rw [h.1, h.2]; rfl)]
  rfl

theorem gradLoop_work (e : ErgodicControl F) (diff : List F) (xt : List (V3 F)) :
    (gradLoop p e diff xt).work ≤ p.wave * (e.basis.k.length * xt.length) := by
  induction xt with
  | nil => exact Nat.zero_le _
  | cons x xs ih =>
    rw [gradLoop, List.length_cons, show p.wave * (e.basis.k.length * (xs.length + 1)) =
      p.wave * e.basis.k.length + (p.wave * (e.basis.k.length * xs.length) + 0) by ring]
    exact bind_work_le (le_of_eq (each_work _ _ _)) fun vs _ => bind_work_le ih fun l _ => Nat.zero_le _

theorem mapM_len {α β : Type} (f : α → Res β) : ∀ (l : List α) (m : List β), l.mapM f = .ok m → m.length = l.length := by
  intro l
  induction l with
  | nil => intro m h; simp only [List.mapM_nil, Res.pure_eq, Res.ok.injEq] at h; rw [← h]; rfl
  | cons x xs ih =>
    intro m h
    rw [List.mapM_cons] at h
    simp only [Res.bind_eq_ok, Res.pure_eq, Res.ok.injEq] at h
    obtain ⟨y, -, ys, hy, rfl⟩ := h
    rw [List.length_cons, List.length_cons, ih _ hy]

/-- At most `batch_size` remembered states are planned with. -/
theorem sampleMemory_len {V : Type} {b : ReplayBuffer V} {draws : List Nat} {xt l : List V}
    (h : b.sampleMemory draws xt = .ok l) : l.length ≤ b.batch_size + xt.length := by
  unfold ReplayBuffer.sampleMemory at h
  have hcat : ∀ {pre l : List V}, ReplayBuffer.concatCols pre xt = .ok l → l.length = pre.length + xt.length := by
    intro pre l h
    unfold ReplayBuffer.concatCols at h
    split at h
    · simp at h
    · rw [Res.ok.injEq] at h; rw [← h, List.length_append]
  split at h
  · rw [Res.ok.injEq] at h; rw [h]; omega
  · split at h
    case isTrue hb =>
      obtain ⟨pre, hp, h⟩ := Res.bind_eq_ok.mp h
      have := mapM_len _ _ _ hp
      rw [List.length_range] at this
      rw [hcat h]; omega
    case isFalse hb =>
      obtain ⟨pre, hp, h⟩ := Res.bind_eq_ok.mp h
      have := mapM_len _ _ _ hp
      rw [List.length_range] at this
      rw [hcat h]; omega

theorem control_work_of {e : ErgodicControl F} {g : GridMap F} {x : V3 F} (draws : List Nat) {A : Nat}
    (hA : (configTarget p { e with pose := x } g).work ≤ A) : (control p e g x draws).work ≤ A + planPrice p e := by
  rw [control]
  refine bind_work_le hA fun ec hec => ?_
  rw [configTarget_res] at hec
  obtain ⟨lx, ly, phik, rfl⟩ := ErgodicControl.configTarget_frame hec
  refine free_bind_work_le fun ut hut => ?_
  dsimp only
  rw [planPrice, show p.flow * (4 * rounds e.dt e.horizon) + p.adjoint * (4 * rounds e.dt e.horizon) +
      p.wave * (e.basis.k.length * (e.buffer.batch_size + rounds e.dt e.horizon + e.steps.toNat)) =
    p.flow * (4 * rounds e.dt e.horizon) + (p.wave * (e.basis.k.length * (e.buffer.batch_size + rounds e.dt e.horizon)) +
      (p.wave * (e.basis.k.length * e.steps.toNat) + (p.adjoint * (4 * rounds e.dt e.horizon) + 0))) by ring]
  refine bind_work_le (solve_work p _ _ _ _ _) fun traj ht => free_bind_work_le fun total hm => ?_
  rw [solve_res] at ht
  have hl := sampleMemory_len hm
  rw [solve_rounds ht] at hl
  split
  · exact Nat.zero_le _
  case isFalse hn =>
  rw [List.length_map] at hn
  refine bind_work_le ?_ fun ck _ => bind_work_le ?_ fun edx _ => bind_work_le (solveBack_work p _ _ _ _ _ _ _ _ _) fun rhot _ =>
    free_bind_work_le fun _ _ => free_bind_work_le fun _ _ => Nat.zero_le _
  · refine le_trans (coefficients_work p _ _ _) ?_
    rw [List.length_map]
    exact Nat.mul_le_mul_left _ (Nat.mul_le_mul_left _ hl)
  · refine le_trans (gradLoop_work p _ _ _) ?_
    rw [List.length_drop, List.length_map, show total.length - (total.length - e.steps.toNat) = e.steps.toNat by omega]

theorem path_work (e : ErgodicControl F) (frame : String) : (path p e frame).work ≤ p.flow * (4 * rounds e.dt e.horizon) := by
  rw [path]
  exact bind_work_le (B := 0) (solve_work p _ _ _ _ _) fun _ _ => Nat.zero_le _

/-! ## Exact costs -/

theorem bind_work_eq {α β : Type} {m : Metered α} {f : α → Metered β} {b : β} (h : (m >>= f).res = .ok b) :
    ∃ a, m.res = .ok a ∧ (f a).res = .ok b ∧ (m >>= f).work = m.work + (f a).work := by
  rw [bind_res] at h
  obtain ⟨a, h1, h2⟩ := Res.bind_eq_ok.mp h
  exact ⟨a, h1, h2, bind_work_ok h1⟩

/-! ## A query that finds nothing has looked everywhere -/

omit [Flt F] in
theorem circleStep_x (x y err : Int) : (circleStep x y err).1 ≤ x + 1 := by
  unfold circleStep
  split
  dsimp only
  split_ifs <;> dsimp only <;> omega

theorem circleLoop_least (c : Collision F) (g : GridMap F) : ∀ (n : Nat) (x y err : Int) (cfg cfg' : CollisionConfig),
    (circleLoop p c g n x y err cfg).res = .ok (false, cfg') →
      4 * p.cell * (-x).toNat ≤ (circleLoop p c g n x y err cfg).work := by
  intro n
  induction n with
  | zero => intro x y err cfg cfg' h; simp [circleLoop] at h
  | succ n ih =>
    intro x y err cfg cfg' h
    by_cases hx : x < 0
    case neg => rw [show (-x).toNat = 0 by omega, Nat.mul_zero]; exact Nat.zero_le _
    rw [circleLoop, if_pos hx] at h ⊢
    obtain ⟨⟨a1, c1⟩, -, h, e1⟩ := bind_work_eq h
    rw [e1]
    cases a1 with
    | true => simp at h
    | false =>
    obtain ⟨⟨a2, c2⟩, -, h, e2⟩ := bind_work_eq h
    rw [if_neg (by simp), e2]
    cases a2 with
    | true => simp at h
    | false =>
    obtain ⟨⟨a3, c3⟩, -, h, e3⟩ := bind_work_eq h
    rw [if_neg (by simp), e3]
    cases a3 with
    | true => simp at h
    | false =>
    obtain ⟨⟨a4, c4⟩, -, h, e4⟩ := bind_work_eq h
    rw [if_neg (by simp), e4]
    cases a4 with
    | true => simp at h
    | false =>
    rw [if_neg (by simp)] at h ⊢
    have hi : 4 * p.cell * (-(circleStep x y err).1).toNat ≤ (circleLoop p c g n (circleStep x y err).1
        (circleStep x y err).2.1 (circleStep x y err).2.2 c4).work := ih _ _ _ _ _ h
    have hx' : (-x).toNat ≤ (-(circleStep x y err).1).toNat + 1 := by
      have := circleStep_x x y err
      omega
    have hle := Nat.mul_le_mul_left (4 * p.cell) hx'
    rw [Nat.mul_succ] at hle
    refine le_trans (le_trans hle (Nat.add_le_add_right hi _)) ?_
    simp only [charge_work]
    show _ ≤ p.cell + (p.cell + (p.cell + (p.cell + (circleLoop p c g n (circleStep x y err).1
        (circleStep x y err).2.1 (circleStep x y err).2.2 c4).work)))
    omega

/-- Circles `r, …, R` without a hit cost at least `4 r + … + 4 R` cells. -/
theorem searchLoop_least (c : Collision F) (g : GridMap F) : ∀ (n : Nat) (r : Int) (cfg cfg' : CollisionConfig),
    (searchLoop p c g n r cfg).res = .ok (false, cfg') →
      p.cell * (2 * cfg.r_max.toNat * (cfg.r_max.toNat + 1) - 2 * (r - 1).toNat * ((r - 1).toNat + 1)) ≤
        (searchLoop p c g n r cfg).work := by
  intro n
  induction n with
  | zero => intro r cfg cfg' h; simp [searchLoop] at h
  | succ n ih =>
    intro r cfg cfg' h
    by_cases hr : r ≤ cfg.r_max
    case neg =>
      generalize hM : cfg.r_max.toNat = M
      have : M ≤ (r - 1).toNat := by omega
      have : 2 * M * (M + 1) ≤ 2 * (r - 1).toNat * ((r - 1).toNat + 1) := by nlinarith
      rw [Nat.sub_eq_zero_of_le this, Nat.mul_zero]
      exact Nat.zero_le _
    rw [searchLoop, if_pos hr] at h ⊢
    obtain ⟨⟨a, cfg1⟩, ha, h, e1⟩ := bind_work_eq h
    rw [e1]
    cases a with
    | true => simp at h
    | false =>
    rw [if_neg (by simp)] at h ⊢
    have hi := ih _ _ _ h
    have e : cfg1.r_max = cfg.r_max := by
      have := ha
      rw [bresenhamCircle_res] at this
      exact circleLoop_reach c g _ _ _ _ _ _ _ this
    have hc : 4 * p.cell * r.toNat ≤ (bresenhamCircle p c g cfg r).work := by
      have := circleLoop_least p c g _ _ _ _ _ _ ha
      rwa [show - -r = r by omega] at this
    dsimp only at hi ⊢
    rw [e] at hi
    refine le_trans ?_ (Nat.add_le_add hc hi)
    rw [show r + 1 - 1 = r by omega]
    generalize hM : cfg.r_max.toNat = M
    have hrM : r.toNat ≤ M := by omega
    rcases lt_or_ge r 1 with h1 | h1
    · rw [show r.toNat = 0 by omega, show (r - 1).toNat = 0 by omega]
      simp
    · obtain ⟨k, hk⟩ : ∃ k : Nat, r.toNat = k + 1 := ⟨r.toNat - 1, by omega⟩
      rw [hk, show (r - 1).toNat = k by omega]
      have h1 : 2 * (k + 1) * (k + 1 + 1) ≤ 2 * M * (M + 1) := by
        have : k + 1 ≤ M := by omega
        nlinarith
      have h2 : 2 * M * (M + 1) - 2 * k * (k + 1) =
          4 * (k + 1) + (2 * M * (M + 1) - 2 * (k + 1) * (k + 1 + 1)) := by
        have : 2 * (k + 1) * (k + 1 + 1) = 2 * k * (k + 1) + 4 * (k + 1) := by ring
        omega
      rw [h2]
      apply le_of_eq
      ring

/-! ## A plan that comes about costs exactly its price -/

theorem step_work_eq {dt : F} {f : V3 F → V3 F → Res (V3 F)} {x u y : V3 F} (h : (step p dt f x u).res = .ok y) :
    (step p dt f x u).work = 4 * p.flow := by
  rw [step] at h ⊢
  obtain ⟨k1, -, h, e1⟩ := bind_work_eq h
  obtain ⟨k2, -, h, e2⟩ := bind_work_eq h
  obtain ⟨k3, -, h, e3⟩ := bind_work_eq h
  obtain ⟨k4, -, -, e4⟩ := bind_work_eq h
  rw [e1, e2, e3, e4]
  simp only [charge_work, free_work]
  ring

theorem solveLoop_work_eq {dt : F} {f : V3 F → V3 F → Res (V3 F)} {ut : List (V3 F)} : ∀ (n i : Nat) (x : V3 F)
    (l : List (V3 F)), (solveLoop p dt f ut n i x).res = .ok l →
      (solveLoop p dt f ut n i x).work = p.flow * (4 * n) := by
  intro n
  induction n with
  | zero => intros; rfl
  | succ n ih =>
    intro i x l h
    rw [solveLoop] at h ⊢
    obtain ⟨u, -, h, e1⟩ := bind_work_eq h
    obtain ⟨y, hy, h, e2⟩ := bind_work_eq h
    obtain ⟨r, hr, -, e3⟩ := bind_work_eq h
    rw [e1, e2, step_work_eq p hy, e3, ih _ _ _ hr]
    simp only [free_work]
    ring

theorem solve_work_eq {dt : F} {f : V3 F → V3 F → Res (V3 F)} {x : V3 F} {ut l : List (V3 F)} {T : F}
    (h : (solve p dt f x ut T).res = .ok l) : (solve p dt f x ut T).work = p.flow * (4 * rounds dt T) := by
  rw [solve] at h ⊢
  obtain ⟨n, hn, h, e1⟩ := bind_work_eq h
  rw [e1, rounds_eq hn, solveLoop_work_eq p _ _ _ _ h, free_work, Nat.zero_add]

theorem stepBack_work_eq (dt : F) (func : CoStateFunc F) (rho e b : V3 F) (m : M3 F) :
    (stepBack p dt func rho e b m).work = 4 * p.adjoint := by
  have h := stepBack_res p dt func rho e b m
  rw [stepBack] at h ⊢
  obtain ⟨k1, -, h, e1⟩ := bind_work_eq h
  obtain ⟨k2, -, h, e2⟩ := bind_work_eq h
  obtain ⟨k3, -, h, e3⟩ := bind_work_eq h
  obtain ⟨k4, -, -, e4⟩ := bind_work_eq h
  rw [e1, e2, e3, e4]
  simp only [charge_work, free_work]
  ring

theorem solveBackLoop_work_eq {dt : F} {func : CoStateFunc F} {fdx : V3 F → V3 F → M3 F} {xt ut edx bdx : List (V3 F)} :
    ∀ (n : Nat) (rho : V3 F) (acc l : List (V3 F)), (solveBackLoop p dt func fdx xt ut edx bdx n rho acc).res = .ok l →
      (solveBackLoop p dt func fdx xt ut edx bdx n rho acc).work = p.adjoint * (4 * n) := by
  intro n
  induction n with
  | zero => intros; rfl
  | succ n ih =>
    intro rho acc l h
    rw [solveBackLoop] at h ⊢
    obtain ⟨_, -, h, e1⟩ := bind_work_eq h
    obtain ⟨_, -, h, e2⟩ := bind_work_eq h
    obtain ⟨_, -, h, e3⟩ := bind_work_eq h
    obtain ⟨_, -, h, e4⟩ := bind_work_eq h
    obtain ⟨y, -, h, e5⟩ := bind_work_eq h
    rw [e1, e2, e3, e4, e5, stepBack_work_eq, ih _ _ _ h]
    simp only [free_work]
    ring

theorem solveBack_work_eq {dt : F} {func : CoStateFunc F} {fdx : V3 F → V3 F → M3 F} {rhoT : V3 F}
    {xt ut edx bdx l : List (V3 F)} {T : F} (h : (solveBack p dt func fdx rhoT xt ut edx bdx T).res = .ok l) :
    (solveBack p dt func fdx rhoT xt ut edx bdx T).work = p.adjoint * (4 * rounds dt T) := by
  rw [solveBack] at h ⊢
  obtain ⟨n, hn, h, e1⟩ := bind_work_eq h
  rw [e1, rounds_eq hn, solveBackLoop_work_eq p _ _ _ _ h, free_work, Nat.zero_add]

theorem coefficients_work_eq (b : Basis F) (xt : List (V3 F)) (ks : List (Int × Int)) :
    (coefficients p b xt ks).work = p.wave * (ks.length * xt.length) := by
  induction ks with
  | nil => simp [coefficients]
  | cons k ks ih =>
    rw [coefficients, bind_work_ok (each_res _ _ _), bind_work_ok (coefficients_res p b xt ks), each_work, ih,
      free_work, List.length_cons]
    ring

theorem gradLoop_work_eq (e : ErgodicControl F) (diff : List F) (xt : List (V3 F)) :
    (gradLoop p e diff xt).work = p.wave * (e.basis.k.length * xt.length) := by
  induction xt with
  | nil => simp [gradLoop]
  | cons x xs ih =>
    rw [gradLoop, bind_work_ok (each_res _ _ _), bind_work_ok (gradLoop_res p e diff xs), each_work, ih,
      free_work, List.length_cons]
    ring

/-- What is planned with: everything remembered, or a batch. -/
theorem sampleMemory_len_eq {V : Type} {b : ReplayBuffer V} {draws : List Nat} {xt l : List V}
    (h : b.sampleMemory draws xt = .ok l) : l.length = min b.memory.length b.batch_size + xt.length := by
  unfold ReplayBuffer.sampleMemory at h
  have hcat : ∀ {pre l : List V}, ReplayBuffer.concatCols pre xt = .ok l → l.length = pre.length + xt.length := by
    intro pre l h
    unfold ReplayBuffer.concatCols at h
    split at h
    · simp at h
    · rw [Res.ok.injEq] at h; rw [← h, List.length_append]
  split at h
  case isTrue he =>
    rw [Res.ok.injEq] at h
    rw [List.isEmpty_iff.mp he, h]; simp
  · split at h
    case isTrue hb =>
      obtain ⟨pre, hp, h⟩ := Res.bind_eq_ok.mp h
      have := mapM_len _ _ _ hp
      rw [List.length_range] at this
      rw [hcat h]; omega
    case isFalse hb =>
      obtain ⟨pre, hp, h⟩ := Res.bind_eq_ok.mp h
      have := mapM_len _ _ _ hp
      rw [List.length_range] at this
      rw [hcat h]; omega

theorem control_work_eq {e e' : ErgodicControl F} {g : GridMap F} {x u : V3 F} {draws : List Nat} (hs : SameSize e g)
    (h : e.control g x draws = .ok (e', u)) : (control p e g x draws).work =
      p.flow * (4 * rounds e.dt e.horizon) + p.adjoint * (4 * rounds e.dt e.horizon) +
        p.wave * (e.basis.k.length * (min e.buffer.memory.length e.buffer.batch_size + rounds e.dt e.horizon +
          e.steps.toNat)) := by
  rw [← control_res p] at h
  rw [control] at h ⊢
  obtain ⟨ec, hec, h, e1⟩ := bind_work_eq h
  rw [e1, configTarget_work_same p (e := { e with pose := x }) hs]
  rw [configTarget_res] at hec
  obtain ⟨lx, ly, phik, rfl⟩ := ErgodicControl.configTarget_frame hec
  obtain ⟨ut, -, h, e2⟩ := bind_work_eq h
  rw [e2]
  dsimp only at h ⊢
  obtain ⟨traj, ht, h, e3⟩ := bind_work_eq h
  rw [e3, solve_work_eq p ht]
  obtain ⟨total, hm, h, e4⟩ := bind_work_eq h
  rw [e4]
  rw [free_res] at hm
  rw [solve_res] at ht
  have hl := sampleMemory_len_eq hm
  rw [solve_rounds ht] at hl
  by_cases hn : (List.map (ErgodicControl.toFourier { c0 := g.xmin, c1 := g.ymin }) total).length < e.steps.toNat
  · rw [if_pos hn] at h
    simp at h
  · rw [if_neg hn] at h ⊢
    rw [List.length_map] at hn
    obtain ⟨ck, -, h, e5⟩ := bind_work_eq h
    obtain ⟨edx, -, h, e6⟩ := bind_work_eq h
    obtain ⟨rhot, hr, h, e7⟩ := bind_work_eq h
    obtain ⟨_, -, h, e8⟩ := bind_work_eq h
    obtain ⟨_, -, h, e9⟩ := bind_work_eq h
    rw [e5, e6, e7, e8, e9, coefficients_work_eq, gradErgodicMetric, gradLoop_work_eq, solveBack_work_eq p hr]
    simp only [free_work, List.length_drop, List.length_map, hl]
    rw [show min e.buffer.memory.length e.buffer.batch_size + rounds e.dt e.horizon -
      (min e.buffer.memory.length e.buffer.batch_size + rounds e.dt e.horizon - e.steps.toNat) = e.steps.toNat by omega]
    ring

/-! ## An iteration -/

theorem avoid_work (s : Expl F) : (avoid p s).work ≤ rounds s.val_dt s.val_horizon * queryPrice p (lookout s.collision s.grid) +
    (p.flow * (4 * rounds s.ec.dt s.ec.horizon) + windowPrice p s.dwa (lookout s.dwa.collision s.grid)) := by
  rw [avoid]
  refine bind_work_le (validateControl_work p _ _ _ _ _ _) fun v _ => ?_
  split
  · exact Nat.zero_le _
  split
  · refine le_trans (bind_work_le (B := 0) (controlTwist_work p _ _ _ _ _) fun r _ => Nat.zero_le _) ?_
    omega
  · refine bind_work_le (solve_work p _ _ _ _ _) fun ref _ => ?_
    refine le_trans (bind_work_le (B := 0) (controlTraj_work p _ _ _ _ _ _) fun r _ => ?_) (le_of_eq (Nat.add_zero _))
    dsimp only
    split
    · exact free_bind_work_le fun q _ => Nat.zero_le _
    · exact Nat.zero_le _

theorem control_kept {e e' : ErgodicControl F} {g : GridMap F} {x u : V3 F} {draws : List Nat}
    (h : e.control g x draws = .ok (e', u)) : e'.dt = e.dt ∧ e'.horizon = e.horizon ∧ e'.steps = e.steps ∧
      e'.resolution = e.resolution ∧ e'.basis.k = e.basis.k ∧ e'.buffer = e.buffer ∧ e'.target = e.target ∧
      ((SameSize e g ∧ e'.basis = e.basis) ∨ (e'.basis.lx = g.xmax -. g.xmin ∧ e'.basis.ly = g.ymax -. g.ymin)) := by
  unfold ErgodicControl.control at h
  simp only [Res.bind_eq_ok] at h
  obtain ⟨ec, hec, ut, -, traj, -, total, -, h⟩ := h
  have hb : (SameSize e g ∧ ec.basis = e.basis) ∨ (ec.basis.lx = g.xmax -. g.xmin ∧ ec.basis.ly = g.ymax -. g.ymin) := by
    rcases ErgodicControl.configTarget_ok hec with ⟨h1, h2, rfl⟩ | ⟨-, grid, phik, -, -, rfl⟩
    · exact Or.inl ⟨⟨h1, h2⟩, rfl⟩
    · exact Or.inr ⟨rfl, rfl⟩
  obtain ⟨lx, ly, phik, rfl⟩ := ErgodicControl.configTarget_frame hec
  split at h
  · simp at h
  · simp only [Res.bind_eq_ok, Res.ok.injEq, Prod.mk.injEq] at h
    obtain ⟨rhot, -, ut', -, u', -, rfl, -⟩ := h
    exact ⟨rfl, rfl, rfl, rfl, rfl, rfl, rfl, hb⟩

/-- The parameters the prices are made of. -/
structure SameBudget (s t : Expl F) : Prop where
  collision : t.collision = s.collision
  dwa : t.dwa = s.dwa
  val_dt : t.val_dt = s.val_dt
  val_horizon : t.val_horizon = s.val_horizon
  dt : t.ec.dt = s.ec.dt
  horizon : t.ec.horizon = s.ec.horizon
  steps : t.ec.steps = s.ec.steps
  resolution : t.ec.resolution = s.ec.resolution
  numbers : t.ec.basis.k = s.ec.basis.k
  batch : t.ec.buffer.batch_size = s.ec.buffer.batch_size
  target : t.ec.target = s.ec.target

omit [Flt F] in
theorem SameBudget.refl (s : Expl F) : SameBudget s s := ⟨rfl, rfl, rfl, rfl, rfl, rfl, rfl, rfl, rfl, rfl, rfl⟩

omit [Flt F] in
theorem SameBudget.trans {s t u : Expl F} (h : SameBudget s t) (k : SameBudget t u) : SameBudget s u :=
  ⟨k.1.trans h.1, k.2.trans h.2, k.3.trans h.3, k.4.trans h.4, k.5.trans h.5, k.6.trans h.6, k.7.trans h.7,
    k.8.trans h.8, k.9.trans h.9, k.10.trans h.10, k.11.trans h.11⟩

omit [Flt F] in
theorem localize_budget [Flt F] (s : Expl F) (tf : Option (TransformMsg F)) :
    SameBudget s (s.localize tf) ∧ (s.localize tf).ec.basis = s.ec.basis := by
  cases tf with
  | none => exact ⟨.refl s, rfl⟩
  | some t =>
    refine ⟨⟨rfl, rfl, rfl, rfl, rfl, rfl, rfl, rfl, rfl, ?_, rfl⟩, rfl⟩
    show (s.ec.buffer.append _).batch_size = _
    unfold ReplayBuffer.append
    split <;> rfl

omit [Flt F] in
theorem advance_budget (s : Expl F) : SameBudget s s.advanceDwa ∧ s.advanceDwa.ec = s.ec ∧ s.advanceDwa.grid = s.grid := by
  obtain ⟨i, f, e⟩ := s.advanceDwa_frame
  rw [e]
  exact ⟨⟨rfl, rfl, rfl, rfl, rfl, rfl, rfl, rfl, rfl, rfl, rfl⟩, rfl, rfl⟩

theorem replan_budget {s r : Expl F} {draws : List Nat} {o : List (Out F)} (h : s.replan draws = .ok (r, o)) :
    SameBudget s r ∧ r.grid = s.grid := by
  rcases Expl.replan_ok h with ⟨-, rfl, -⟩ | ⟨-, ec', u, q, hc, -, rfl, -⟩
  · exact ⟨.refl _, rfl⟩
  · obtain ⟨h1, h2, h3, h4, h5, h6, h7, -⟩ := control_kept hc
    exact ⟨⟨rfl, rfl, rfl, rfl, h1, h2, h3, h4, h5, by dsimp only; rw [h6], h7⟩, rfl⟩

theorem avoid_budget {s r : Expl F} {o : List (Out F)} (h : s.avoid = .ok (r, o)) : SameBudget s r ∧ r.ec = s.ec ∧
    r.grid = s.grid ∧ r.map_received = s.map_received := by
  rcases Expl.avoid_ok h with ⟨-, rfl, -⟩ | ⟨-, ⟨-, b, u, -, rfl, -⟩ |
    ⟨-, ref, b, u, -, -, ⟨-, rfl, -⟩ | ⟨-, q, -, rfl, -⟩⟩⟩
  all_goals exact ⟨⟨rfl, rfl, rfl, rfl, rfl, rfl, rfl, rfl, rfl, rfl, rfl⟩, rfl, rfl, rfl⟩

/-- The price of an iteration depends on the parameters only. -/
theorem iterationPrice_same {s t : Expl F} (h : SameBudget s t) (P R R' : Nat) :
    iterationPrice p t P R R' = iterationPrice p s P R R' := by
  unfold iterationPrice targetPrice planPrice
  rw [h.dwa, h.val_dt, h.val_horizon, h.dt, h.horizon, h.steps, h.numbers, h.batch, h.target]

theorem queryPrice_mono {R R' : Nat} (h : R ≤ R') : queryPrice p R ≤ queryPrice p R' := by
  unfold queryPrice
  exact Nat.mul_le_mul_left _ (Nat.mul_le_mul (Nat.mul_le_mul_left _ h) (Nat.succ_le_succ h))

omit [Flt F] in
theorem windowPrice_mono (d : DynamicWindow F) {R R' : Nat} (h : R ≤ R') : windowPrice p d R ≤ windowPrice p d R' := by
  unfold windowPrice
  exact Nat.mul_le_mul_left _ (Nat.mul_le_mul_left _ (Nat.mul_le_mul_left _ (Nat.mul_le_mul_left _ (queryPrice_mono p h))))

theorem iterationPrice_mono (s : Expl F) {P P' R R' Q Q' : Nat} (hP : P ≤ P') (hR : R ≤ R') (hQ : Q ≤ Q') :
    iterationPrice p s P R Q ≤ iterationPrice p s P' R' Q' := by
  unfold iterationPrice targetPrice
  have h1 := Nat.mul_le_mul_right (p.density * s.ec.target.gaussians.length + p.wave * s.ec.basis.k.length) hP
  have h2 := Nat.mul_le_mul_left (rounds s.val_dt s.val_horizon) (queryPrice_mono p hR)
  have h3 := windowPrice_mono p s.dwa hQ
  omega

theorem iterationPrice_split (s : Expl F) (P R R' : Nat) :
    iterationPrice p s P R R' = targetPrice p s.ec P + iterationPrice p s 0 R R' := by
  unfold iterationPrice targetPrice
  omega

theorem iteration_work_of {s : Expl F} (tf : Option (TransformMsg F)) (draws : List Nat) {A : Nat}
    (hA : ∀ x, (configTarget p { (s.localize tf).ec with pose := x } s.grid).work ≤ A) :
    (iteration p s tf draws).work ≤ A + iterationPrice p s 0 (lookout s.collision s.grid) (lookout s.dwa.collision s.grid) := by
  rw [iteration]
  dsimp only
  have hg : (s.localize tf).advanceDwa.grid = s.grid := by
    rw [(advance_budget _).2.2]; exact (s.localize_frame tf).2.2.2.2.1
  have hb : SameBudget s (s.localize tf).advanceDwa := (localize_budget s tf).1.trans (advance_budget _).1
  have hec := (advance_budget (s.localize tf)).2.1
  split
  case isFalse => exact Nat.zero_le _
  rw [← iterationPrice_same p hb]
  rw [← hec] at hA
  generalize (s.localize tf).advanceDwa = t at hg hb hA ⊢
  have hsplit : A + iterationPrice p t 0 (lookout s.collision s.grid) (lookout s.dwa.collision s.grid) =
      (A + planPrice p t.ec + p.flow * (4 * rounds t.ec.dt t.ec.horizon)) +
      (rounds t.val_dt t.val_horizon * queryPrice p (lookout s.collision s.grid) +
        (p.flow * (4 * rounds t.ec.dt t.ec.horizon) + windowPrice p t.dwa (lookout s.dwa.collision s.grid)) + 0) := by
    unfold iterationPrice targetPrice
    ring
  rw [hsplit]
  refine bind_work_le ?_ fun a ha => ?_
  · rw [replan]
    split
    · exact Nat.zero_le _
    · refine le_trans (bind_work_le (control_work_of p draws (by rw [hg]; exact hA _)) (B := p.flow * (4 * rounds t.ec.dt t.ec.horizon))
        fun q hq => ?_) (le_refl _)
      rw [control_res] at hq
      obtain ⟨h1, h2, -⟩ := control_kept hq
      refine le_trans (bind_work_le (B := 0) (path_work p _ _) fun _ _ => Nat.zero_le _) ?_
      rw [h1, h2]
      omega
  · rw [replan_res] at ha
    obtain ⟨hr, hrg⟩ := replan_budget (r := a.1) (o := a.2) ha
    refine bind_work_le ?_ fun _ _ => Nat.zero_le _
    have := avoid_work p a.1
    rw [hr.val_dt, hr.val_horizon, hr.collision, hr.dwa, hr.dt, hr.horizon, hrg, hg, hb.collision, hb.dwa] at this
    rw [hb.dwa]
    exact this

theorem step_budget {s t : Expl F} {e : Event F} {o : List (Out F)} (h : s.step e = .ok (t, o)) : SameBudget s t ∧
    (t.grid = s.grid ∨ ∃ m, e = .map m ∧ t.grid = GridMap.assign m) := by
  cases e with
  | map m =>
    simp only [Expl.step, Res.ok.injEq, Prod.mk.injEq] at h
    rw [← h.1]
    exact ⟨⟨rfl, rfl, rfl, rfl, rfl, rfl, rfl, rfl, rfl, rfl, rfl⟩, Or.inr ⟨m, rfl, rfl⟩⟩
  | odom v =>
    simp only [Expl.step, Res.ok.injEq, Prod.mk.injEq] at h
    rw [← h.1]
    exact ⟨⟨rfl, rfl, rfl, rfl, rfl, rfl, rfl, rfl, rfl, rfl, rfl⟩, Or.inl rfl⟩
  | tick tf draws =>
    have hg := (s.localize_frame tf).2.2.2.2.1
    rcases Expl.iteration_ok h with ⟨-, rfl, -⟩ | ⟨-, r, o1, o2, hr, ha, -⟩
    · exact ⟨(localize_budget s tf).1, Or.inl hg⟩
    · obtain ⟨hb, hrg⟩ := replan_budget hr
      obtain ⟨hc, -, hcg, -⟩ := avoid_budget ha
      refine ⟨(((localize_budget s tf).1.trans (advance_budget _).1).trans hb).trans hc, Or.inl ?_⟩
      rw [hcg, hrg, (advance_budget _).2.2, hg]

theorem MapsWithin.step {s t : Expl F} {e : Event F} {es : List (Event F)} {P R R' : Nat} {o : List (Out F)}
    (hw : MapsWithin s (e :: es) P R R') (h : s.step e = .ok (t, o)) : MapsWithin t es P R R' := by
  obtain ⟨hb, hg⟩ := step_budget h
  intro g hcase
  rw [hb.collision, hb.dwa, hb.resolution]
  refine hw g ?_
  rcases hcase with rfl | ⟨m, hm, rfl⟩
  · rcases hg with hg | ⟨m, rfl, hg⟩
    · exact Or.inl hg
    · exact Or.inr ⟨m, List.mem_cons_self, hg⟩
  · exact Or.inr ⟨m, List.mem_cons_of_mem _ hm, rfl⟩

end Meter

open Meter

/-! ## The property -/

/-- **C131** (meter): with the meter or without, a run has the same outcome. -/
theorem C131_meter (p : Prices) (s : Expl F) (es : List (Event F)) : (Meter.run p s es).res = s.run es := run_res p s es

/-- **C131** (query): a query looking `R` cells far examines at most `4 R (R + 1)` cells, whatever the map and the pose. -/
theorem C131_query (p : Prices) (c : Collision F) (g : GridMap F) (x : V3 F) :
    (Meter.collisionCheck p c g x).res = c.collisionCheck g x ∧
      (Meter.collisionCheck p c g x).work ≤ queryPrice p (lookout c g) :=
  ⟨collisionCheck_res p c g x, collisionCheck_work p c g x⟩

/-- **C131** (least): a query that finds no collision has examined at least half as many, on the circles from the robot's
boundary `B` on: looking is never cut short without an obstacle. -/
theorem C131_query_least (p : Prices) {c : Collision F} {g : GridMap F} {x : V3 F} {B : Int}
    (h : c.collisionCheck g x = .ok false) (hB : castI32 (Flt.floor (c.boundary_radius /. g.resolution)) = .ok B) :
    p.cell * (2 * lookout c g * (lookout c g + 1) - 2 * (B - 1).toNat * ((B - 1).toNat + 1)) ≤
      (Meter.collisionCheck p c g x).work := by
  rw [← collisionCheck_res p] at h
  rw [Meter.collisionCheck] at h ⊢
  obtain ⟨cfg, hcfg, h, e1⟩ := bind_work_eq h
  obtain ⟨⟨b, cfg'⟩, ha, h, e2⟩ := bind_work_eq h
  rw [e1, e2]
  simp only [free_res, Res.ok.injEq] at h
  subst h
  rw [free_res] at hcfg
  have hr : cfg.r_max.toNat = lookout c g ∧ cfg.r_bnd = B := by
    unfold Collision.config at hcfg
    simp only [Res.bind_eq_ok, Res.ok.injEq] at hcfg
    obtain ⟨psg, -, rb, hrb, rc, -, rm, hm, rfl⟩ := hcfg
    rw [hB, Res.ok.injEq] at hrb
    unfold lookout
    rw [hm]
    exact ⟨rfl, hrb.symm⟩
  have := searchLoop_least p c g _ _ _ _ ha
  rw [hr.1, hr.2] at this
  simp only [free_work, Nat.zero_add, Nat.add_zero]
  rw [← hr.2] at this ⊢
  exact this

/-- **C131** (window): a search for a twist makes at most as many queries as there are samples times steps. -/
theorem C131_window (p : Prices) (d : DynamicWindow F) (g : GridMap F) (x vb v : V3 F) (xt : List (V3 F)) (dt : F) :
    (Meter.controlTwist p d g x vb v).res = d.controlTwist g x vb v ∧
      (Meter.controlTwist p d g x vb v).work ≤ windowPrice p d (lookout d.collision g) ∧
      (Meter.controlTraj p d g x vb xt dt).res = d.controlTraj g x vb xt dt ∧
      (Meter.controlTraj p d g x vb xt dt).work ≤ windowPrice p d (lookout d.collision g) :=
  ⟨controlTwist_res p d g x vb v, controlTwist_work p d g x vb v, controlTraj_res p d g x vb xt dt,
    controlTraj_work p d g x vb xt dt⟩

/-- **C131** (plan): planning costs at most the price of sampling the target and of one sweep, however much is remembered;
on a map of known size nothing for the target. -/
theorem C131_plan (p : Prices) (e : ErgodicControl F) (g : GridMap F) (x : V3 F) (draws : List Nat) :
    (Meter.control p e g x draws).res = e.control g x draws ∧
      (Meter.control p e g x draws).work ≤ targetPrice p e (targetPoints e.resolution g) + planPrice p e ∧
      (SameSize e g → (Meter.control p e g x draws).work ≤ planPrice p e) := by
  refine ⟨control_res p e g x draws, control_work_of p draws (configTarget_work p _ g), fun h => ?_⟩
  have := control_work_of p (e := e) (g := g) (x := x) draws (A := 0)
    (le_of_eq (configTarget_work_same p (e := { e with pose := x }) h))
  omega

/-- **C131** (exact): a plan that comes about on a map of known size costs exactly this; what is remembered counts up to
the size of a batch. -/
theorem C131_plan_exact (p : Prices) {e e' : ErgodicControl F} {g : GridMap F} {x u : V3 F} {draws : List Nat}
    (hs : SameSize e g) (h : e.control g x draws = .ok (e', u)) : (Meter.control p e g x draws).work =
      p.flow * (4 * rounds e.dt e.horizon) + p.adjoint * (4 * rounds e.dt e.horizon) +
        p.wave * (e.basis.k.length * (min e.buffer.memory.length e.buffer.batch_size + rounds e.dt e.horizon +
          e.steps.toNat)) := control_work_eq p hs h

/-- **C131** (iteration): what an iteration costs at most, from the node's parameters and its map. -/
theorem C131_iteration (p : Prices) (s : Expl F) (tf : Option (TransformMsg F)) (draws : List Nat) :
    (Meter.iteration p s tf draws).res = s.iteration tf draws ∧
      (Meter.iteration p s tf draws).work ≤ iterationPrice p s (targetPoints s.ec.resolution s.grid)
        (lookout s.collision s.grid) (lookout s.dwa.collision s.grid) ∧
      (SameSize s.ec s.grid → (Meter.iteration p s tf draws).work ≤ iterationPrice p s 0
        (lookout s.collision s.grid) (lookout s.dwa.collision s.grid)) := by
  have hb := localize_budget s tf
  refine ⟨iteration_res p s tf draws, ?_, fun h => ?_⟩
  · rw [iterationPrice_split]
    refine iteration_work_of p tf draws fun x => ?_
    refine le_trans (configTarget_work p _ s.grid) (le_of_eq ?_)
    unfold targetPrice
    dsimp only
    rw [hb.1.resolution, hb.1.target, hb.2]
  · have := iteration_work_of p (s := s) tf draws (A := 0) fun x => le_of_eq (configTarget_work_same p
      (e := { (s.localize tf).ec with pose := x }) (g := s.grid) (by
        unfold SameSize
        dsimp only
        rw [hb.2]
        exact h))
    omega

/-- **C131** (run): the work of a history is at most the number of its iterations times a price fixed by the node's
parameters and the maps, whether the run goes on, throws or becomes undefined. -/
theorem C131_run (p : Prices) {s : Expl F} {es : List (Event F)} {P R R' : Nat} (hw : MapsWithin s es P R R') :
    (Meter.run p s es).work ≤ iterations es * iterationPrice p s P R R' := by
  induction es generalizing s with
  | nil => exact Nat.zero_le _
  | cons e es ih =>
    rw [Meter.run]
    have hrest : ∀ a : Expl F × List (Out F), (react p s e).res = .ok a →
        (do let b ← Meter.run p a.1 es; free (.ok (b.1, a.2 ++ b.2)) : Metered (Expl F × List (Out F))).work ≤
          iterations es * iterationPrice p s P R R' := by
      intro a ha
      rw [react_res] at ha
      refine bind_work_le (B := 0) ?_ fun _ _ => Nat.zero_le _
      rw [← iterationPrice_same p (step_budget (t := a.1) (o := a.2) ha).1]
      exact ih (MapsWithin.step hw (t := a.1) (o := a.2) ha)
    cases e with
    | map m => exact le_trans (bind_work_le (A := 0) (Nat.zero_le _) hrest) (le_of_eq (Nat.zero_add _))
    | odom v => exact le_trans (bind_work_le (A := 0) (Nat.zero_le _) hrest) (le_of_eq (Nat.zero_add _))
    | tick tf draws =>
      rw [iterations, Nat.succ_mul, Nat.add_comm]
      refine bind_work_le ?_ hrest
      obtain ⟨h1, h2, h3⟩ := hw s.grid (Or.inl rfl)
      exact le_trans (C131_iteration p s tf draws).2.1 (iterationPrice_mono p s h1 h2 h3)

/-! ## Maps of one size -/

theorem OneSize.step {s t : Expl F} {e : Event F} {es : List (Event F)} {w h : F} {o : List (Out F)}
    (hw : OneSize s (e :: es) w h) (hs : s.step e = .ok (t, o)) : OneSize t es w h := by
  refine ⟨fun hm => ?_, fun m hm => hw.received m (List.mem_cons_of_mem _ hm), hw.width, hw.height⟩
  cases e with
  | map m =>
    simp only [Expl.step, Res.ok.injEq, Prod.mk.injEq] at hs
    rw [← hs.1]
    exact hw.received m List.mem_cons_self
  | odom v =>
    simp only [Expl.step, Res.ok.injEq, Prod.mk.injEq] at hs
    rw [← hs.1] at hm ⊢
    exact hw.held hm
  | tick tf draws =>
    have hf := s.localize_frame tf
    rcases Expl.iteration_ok hs with ⟨-, rfl, -⟩ | ⟨hc, r, o1, o2, hr, ha, -⟩
    · rw [hf.2.2.2.2.1]
      rw [hf.2.2.1] at hm
      exact hw.held hm
    · have hg : t.grid = s.grid := by
        rw [(avoid_budget ha).2.2.1, (replan_budget hr).2, (advance_budget _).2.2, hf.2.2.2.2.1]
      rw [hg]
      refine hw.held ?_
      rw [Bool.and_eq_true, hf.2.2.1] at hc
      exact hc.1

/-- Once the controller is set up for the size of the maps it stays so. -/
theorem sized_step {s t : Expl F} {e : Event F} {o : List (Out F)} {w h : F} (hw : OneSize s [e] w h)
    (hx : almostEqual w s.ec.basis.lx = true) (hy : almostEqual h s.ec.basis.ly = true) (hs : s.step e = .ok (t, o)) :
    almostEqual w t.ec.basis.lx = true ∧ almostEqual h t.ec.basis.ly = true := by
  cases e with
  | map m =>
    simp only [Expl.step, Res.ok.injEq, Prod.mk.injEq] at hs
    rw [← hs.1]
    exact ⟨hx, hy⟩
  | odom v =>
    simp only [Expl.step, Res.ok.injEq, Prod.mk.injEq] at hs
    rw [← hs.1]
    exact ⟨hx, hy⟩
  | tick tf draws =>
    have hf := s.localize_frame tf
    have hl := localize_budget s tf
    rcases Expl.iteration_ok hs with ⟨-, rfl, -⟩ | ⟨hc, r, o1, o2, hr, ha, -⟩
    · rw [hl.2]; exact ⟨hx, hy⟩
    · rw [(avoid_budget ha).2.1]
      rcases Expl.replan_ok hr with ⟨-, rfl, -⟩ | ⟨-, ec', u, q, hcc, -, rfl, -⟩
      · rw [(advance_budget _).2.1, hl.2]; exact ⟨hx, hy⟩
      · obtain ⟨-, -, -, -, -, -, -, hb⟩ := control_kept hcc
        rw [Bool.and_eq_true, hf.2.2.1] at hc
        obtain ⟨e1, e2⟩ := hw.held hc.1
        rcases hb with ⟨-, hb⟩ | ⟨h1, h2⟩
        · dsimp only
          rw [hb, (advance_budget _).2.1, hl.2]; exact ⟨hx, hy⟩
        · dsimp only
          rw [h1, h2, (advance_budget _).2.2, hf.2.2.2.2.1, e1, e2]
          exact ⟨hw.width, hw.height⟩

omit [Flt F] in
theorem OneSize.head [Flt F] {s : Expl F} {e : Event F} {es : List (Event F)} {w h : F} (hw : OneSize s (e :: es) w h) :
    OneSize s [e] w h :=
  ⟨hw.held, fun m hm => hw.received m (by rw [List.mem_singleton.mp hm]; exact List.mem_cons_self), hw.width, hw.height⟩

/-- An iteration in a controller set up for the size of the maps. -/
theorem sized_iteration (p : Prices) {s : Expl F} {es : List (Event F)} {w h : F} {P R R' : Nat} (hw : OneSize s es w h)
    (hm : MapsWithin s es P R R') (hx : almostEqual w s.ec.basis.lx = true) (hy : almostEqual h s.ec.basis.ly = true)
    (tf : Option (TransformMsg F)) (draws : List Nat) :
    (Meter.iteration p s tf draws).work ≤ iterationPrice p s 0 R R' := by
  obtain ⟨-, h2, h3⟩ := hm s.grid (Or.inl rfl)
  cases hr : s.map_received with
  | true =>
    obtain ⟨e1, e2⟩ := hw.held hr
    exact le_trans ((C131_iteration p s tf draws).2.2 ⟨by rw [e1]; exact hx, by rw [e2]; exact hy⟩)
      (iterationPrice_mono p s (le_refl _) h2 h3)
  | false =>
    rw [Meter.iteration]
    dsimp only
    rw [if_neg (by rw [(s.localize_frame tf).2.2.1, hr]; simp)]
    exact Nat.zero_le _

/-- **C131** (known size): no iteration samples the target again. -/
theorem C131_known_size (p : Prices) {s : Expl F} {es : List (Event F)} {w h : F} {P R R' : Nat} (hw : OneSize s es w h)
    (hm : MapsWithin s es P R R') (hx : almostEqual w s.ec.basis.lx = true) (hy : almostEqual h s.ec.basis.ly = true) :
    (Meter.run p s es).work ≤ iterations es * iterationPrice p s 0 R R' := by
  induction es generalizing s with
  | nil => exact Nat.zero_le _
  | cons e es ih =>
    rw [Meter.run]
    have hrest : ∀ a : Expl F × List (Out F), (react p s e).res = .ok a →
        (do let b ← Meter.run p a.1 es; free (.ok (b.1, a.2 ++ b.2)) : Metered (Expl F × List (Out F))).work ≤
          iterations es * iterationPrice p s 0 R R' := by
      intro a ha
      rw [react_res] at ha
      refine bind_work_le (B := 0) ?_ fun _ _ => Nat.zero_le _
      rw [← iterationPrice_same p (step_budget (t := a.1) (o := a.2) ha).1]
      obtain ⟨h1, h2⟩ := sized_step (t := a.1) (o := a.2) hw.head hx hy ha
      exact ih (OneSize.step hw (t := a.1) (o := a.2) ha) (MapsWithin.step hm (t := a.1) (o := a.2) ha) h1 h2
    cases e with
    | map m => exact le_trans (bind_work_le (A := 0) (Nat.zero_le _) hrest) (le_of_eq (Nat.zero_add _))
    | odom v => exact le_trans (bind_work_le (A := 0) (Nat.zero_le _) hrest) (le_of_eq (Nat.zero_add _))
    | tick tf draws =>
      rw [iterations, Nat.succ_mul, Nat.add_comm]
      exact bind_work_le (sized_iteration p hw hm hx hy tf draws) hrest

/-- **C131** (once): when every map has the same size the target is sampled at most once in the whole history. -/
theorem C131_once (p : Prices) {s : Expl F} {es : List (Event F)} {w h : F} {P R R' : Nat} (hw : OneSize s es w h)
    (hm : MapsWithin s es P R R') :
    (Meter.run p s es).work ≤ targetPrice p s.ec P + iterations es * iterationPrice p s 0 R R' := by
  induction es generalizing s with
  | nil => exact Nat.zero_le _
  | cons e es ih =>
    rw [Meter.run]
    have hsame : ∀ a : Expl F × List (Out F), (react p s e).res = .ok a → SameBudget s a.1 := by
      intro a ha
      rw [react_res] at ha
      exact (step_budget (t := a.1) (o := a.2) ha).1
    have hrest : ∀ a : Expl F × List (Out F), (react p s e).res = .ok a →
        (do let b ← Meter.run p a.1 es; free (.ok (b.1, a.2 ++ b.2)) : Metered (Expl F × List (Out F))).work ≤
          targetPrice p s.ec P + iterations es * iterationPrice p s 0 R R' := by
      intro a ha
      have hb := hsame a ha
      rw [react_res] at ha
      refine bind_work_le (B := 0) ?_ fun _ _ => Nat.zero_le _
      have := ih (OneSize.step hw (t := a.1) (o := a.2) ha) (MapsWithin.step hm (t := a.1) (o := a.2) ha)
      rw [iterationPrice_same p hb] at this
      unfold targetPrice at this ⊢
      rw [hb.target, hb.numbers] at this
      exact this
    cases e with
    | map m => exact le_trans (bind_work_le (A := 0) (Nat.zero_le _) hrest) (le_of_eq (Nat.zero_add _))
    | odom v => exact le_trans (bind_work_le (A := 0) (Nat.zero_le _) hrest) (le_of_eq (Nat.zero_add _))
    | tick tf draws =>
      rw [iterations, Nat.succ_mul]
      by_cases hk : almostEqual w s.ec.basis.lx = true ∧ almostEqual h s.ec.basis.ly = true
      · have := bind_work_le (sized_iteration p hw hm hk.1 hk.2 tf draws) hrest
        refine le_trans this ?_
        omega
      · by_cases hn : ∀ a : Expl F × List (Out F), (react p s (.tick tf draws)).res = .ok a →
            almostEqual w a.1.ec.basis.lx = true ∧ almostEqual h a.1.ec.basis.ly = true
        · have hrest' : ∀ a : Expl F × List (Out F), (react p s (.tick tf draws)).res = .ok a →
              (do let b ← Meter.run p a.1 es; free (.ok (b.1, a.2 ++ b.2)) : Metered (Expl F × List (Out F))).work ≤
                iterations es * iterationPrice p s 0 R R' := by
            intro a ha
            have hb := hsame a ha
            obtain ⟨h1, h2⟩ := hn a ha
            rw [react_res] at ha
            refine bind_work_le (B := 0) ?_ fun _ _ => Nat.zero_le _
            rw [← iterationPrice_same p hb]
            exact C131_known_size p (OneSize.step hw (t := a.1) (o := a.2) ha)
              (MapsWithin.step hm (t := a.1) (o := a.2) ha) h1 h2
          obtain ⟨g1, g2, g3⟩ := hm s.grid (Or.inl rfl)
          have hi := le_trans (C131_iteration p s tf draws).2.1 (iterationPrice_mono p s g1 g2 g3)
          rw [iterationPrice_split] at hi
          refine le_trans (bind_work_le hi hrest') ?_
          omega
        · -- the controller did not plan
          push Not at hn
          obtain ⟨a, ha, hna⟩ := hn
          have hfree : (Meter.iteration p s tf draws).work ≤ iterationPrice p s 0 R R' := by
            obtain ⟨-, g2, g3⟩ := hm s.grid (Or.inl rfl)
            rw [react_res] at ha
            rcases Expl.iteration_ok (t := a.1) (o := a.2) ha with ⟨hc, -, -⟩ | ⟨hc, r, o1, o2, hr, hav, -⟩
            · rw [Meter.iteration]
              dsimp only
              rw [if_neg (by rw [hc]; simp)]
              exact Nat.zero_le _
            · rcases Expl.replan_ok hr with ⟨hfol, -, -⟩ | ⟨-, ec', u, q, hcc, -, rfl, -⟩
              · have hg : (s.localize tf).advanceDwa.grid = s.grid := by
                  rw [(advance_budget _).2.2]; exact (s.localize_frame tf).2.2.2.2.1
                have hb : SameBudget s (s.localize tf).advanceDwa := (localize_budget s tf).1.trans (advance_budget _).1
                rw [Meter.iteration]
                dsimp only
                rw [if_pos hc, replan, if_pos hfol]
                refine free_bind_work_le fun b hb' => ?_
                simp only [Res.ok.injEq] at hb'
                rw [← hb']
                refine le_trans (bind_work_le (B := 0) (avoid_work p _) fun _ _ => Nat.zero_le _) ?_
                dsimp only
                rw [hb.val_dt, hb.val_horizon, hb.collision, hb.dwa, hb.dt, hb.horizon, hg]
                have k1 := Nat.mul_le_mul_left (rounds s.val_dt s.val_horizon) (queryPrice_mono p g2)
                have k2 := windowPrice_mono p s.dwa g3
                have k3 : p.flow * (4 * rounds s.ec.dt s.ec.horizon) ≤ p.flow * (8 * rounds s.ec.dt s.ec.horizon) :=
                  Nat.mul_le_mul_left _ (by omega)
                unfold iterationPrice
                omega
              · exfalso
                have hec := (avoid_budget hav).2.1
                obtain ⟨-, -, -, -, -, -, -, hbas⟩ := control_kept hcc
                rw [Bool.and_eq_true, (s.localize_frame tf).2.2.1] at hc
                obtain ⟨e1, e2⟩ := hw.held hc.1
                have hl := localize_budget s tf
                have hg : (s.localize tf).advanceDwa.grid = s.grid := by
                  rw [(advance_budget _).2.2]; exact (s.localize_frame tf).2.2.2.2.1
                rw [hec] at hna
                rcases hbas with ⟨⟨b1, b2⟩, -⟩ | ⟨b1, b2⟩
                · rw [(advance_budget _).2.1, hl.2, hg] at b1 b2
                  rw [e1] at b1
                  rw [e2] at b2
                  exact hk ⟨b1, b2⟩
                · dsimp only at hna
                  rw [b1, b2, hg, e1, e2] at hna
                  exact hna hw.width hw.height
          refine le_trans (bind_work_le hfree hrest) ?_
          omega

/-! ## A node within its budget -/

/-- A running node and, for every number of iterations, a history to which the bounds apply: one map of three by three
cells, then iterations with a pose.  Each examines at most sixteen cells. -/
example : ∃ (n : Node ℝ) (o : List (Out ℝ)), Node.omni (sideParams 1 1 (-1) 1) = .ok (n, o) ∧ ∀ k,
    OneSize n.expl (.map sideMsg :: List.replicate k (.tick (some midTf) [])) 3 3 ∧
    MapsWithin n.expl (.map sideMsg :: List.replicate k (.tick (some midTf) [])) 16 1 1 ∧
    iterations (Event.map sideMsg :: List.replicate k (Event.tick (some midTf) [])) = k ∧
    iterationPrice ⟨1, 0, 0, 0, 0, 0⟩ n.expl 16 1 1 = 16 := by
  obtain ⟨target, ec, Rinv, o, hec, hn⟩ := side_omni 1 1 (by norm_num) (by norm_num) 1 (-1) 1
  refine ⟨_, _, hn, fun k => ⟨⟨fun h => absurd h (show ¬ (false = true) by decide), ?_, ?_, ?_⟩, ?_, ?_, ?_⟩⟩
  · intro m hm
    rcases List.mem_cons.mp hm with hm | hm
    · rw [Event.map.injEq] at hm
      subst hm
      constructor <;> norm_num [GridMap.assign, axisUpper, sideMsg, show (3 : UInt32).toNat = 3 from rfl]
    · exact absurd (List.eq_of_mem_replicate hm) (by simp)
  · simp [almostEqual, real_fabs]
  · simp [almostEqual, real_fabs]
  · have hres : ec.resolution = 1 := by
      have : EcBuilt omniModel nearDetector 1 2 1 1 2 10 0 Rinv ⟨-1, -1, -1⟩ ⟨1, 1, 1⟩ ec := ⟨ec, hec, .start⟩
      exact this.inv.resolution_eq
    intro g hg
    have hg' : g = GridMap.empty ∨ g = GridMap.assign sideMsg := by
      rcases hg with h | ⟨m, hm, h⟩
      · exact Or.inl h
      · rcases List.mem_cons.mp hm with hm | hm
        · rw [Event.map.injEq] at hm
          exact Or.inr (by rw [h, hm])
        · exact absurd (List.eq_of_mem_replicate hm) (by simp)
    show targetPoints ec.resolution g ≤ 16 ∧ lookout nearDetector g ≤ 1 ∧ lookout nearDetector g ≤ 1
    rw [hres]
    rcases hg' with rfl | rfl
    · have h1 : lookout nearDetector (GridMap.empty : GridMap ℝ) ≤ 1 := by
        unfold lookout
        have : castI32 (Flt.floor (nearDetector.search_radius /. (GridMap.empty : GridMap ℝ).resolution)) = .ok 0 := by
          rw [show (nearDetector.search_radius /. (GridMap.empty : GridMap ℝ).resolution) = 0 by simp [GridMap.empty],
            castI32_floor le_rfl (by norm_num), Int.floor_zero]
        rw [this]; simp
      refine ⟨?_, h1, h1⟩
      unfold targetPoints
      rw [show ((GridMap.empty : GridMap ℝ).xmax -. (GridMap.empty : GridMap ℝ).xmin) = 0 by simp [GridMap.empty],
        show ((GridMap.empty : GridMap ℝ).ymax -. (GridMap.empty : GridMap ℝ).ymin) = 0 by simp [GridMap.empty],
        phiGrid_real 0 0 1 le_rfl le_rfl one_pos 1 1 (by norm_num) (by norm_num) (by norm_num)]
      simp [gridList_length]
    · have h1 : lookout nearDetector (GridMap.assign sideMsg) ≤ 1 := by
        unfold lookout
        have : castI32 (Flt.floor (nearDetector.search_radius /. (GridMap.assign sideMsg).resolution)) = .ok 1 := by
          rw [show (nearDetector.search_radius /. (GridMap.assign sideMsg).resolution) = 1 by
            simp [GridMap.assign, sideMsg, nearDetector], castI32_floor zero_le_one (by norm_num), Int.floor_one]
        rw [this]; simp
      refine ⟨?_, h1, h1⟩
      have hfl : 4 = ⌊(3:ℝ) / 1 + 1 / 2⌋₊ + 1 := by
        rw [show ⌊(3:ℝ) / 1 + 1 / 2⌋₊ = 3 by rw [Nat.floor_eq_iff (by norm_num)]; norm_num]
      unfold targetPoints
      rw [show ((GridMap.assign sideMsg).xmax -. (GridMap.assign sideMsg).xmin) = 3 by
          norm_num [GridMap.assign, axisUpper, sideMsg, show (3 : UInt32).toNat = 3 from rfl],
        show ((GridMap.assign sideMsg).ymax -. (GridMap.assign sideMsg).ymin) = 3 by
          norm_num [GridMap.assign, axisUpper, sideMsg, show (3 : UInt32).toNat = 3 from rfl],
        phiGrid_real 3 3 1 (by norm_num) (by norm_num) one_pos 4 4 hfl hfl (by norm_num)]
      simp [gridList_length]
  · show iterations (List.replicate k (Event.tick (some midTf) [])) = k
    induction k with
    | zero => rfl
    | succ k ih => rw [List.replicate_succ, iterations, ih]
  · have h1 : rounds (0.1:ℝ) 0.1 = 1 := by
      rw [rounds_eq steps_val]
      rfl
    show iterationPrice ⟨1, 0, 0, 0, 0, 0⟩ (Expl.start ec nearDetector (sideDwa 1 (UInt32.ofNat 1) 1 (-1) 1) target "map" 0.1 0.1).1 16 1 1 = 16
    unfold iterationPrice targetPrice planPrice windowPrice queryPrice
    simp only [Expl.start, sideDwa, h1]
    simp

end Ergodic
