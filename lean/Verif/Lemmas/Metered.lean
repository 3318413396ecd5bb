import Verif.Model.Metered

/-!
# Without the meter: the metered functions have the outcomes of the model
-/

namespace Ergodic

namespace Metered

@[simp] theorem free_res {α : Type} (r : Res α) : (free r).res = r := rfl
@[simp] theorem free_work {α : Type} (r : Res α) : (free r).work = 0 := rfl
@[simp] theorem charge_res {α : Type} (n : Nat) (r : Res α) : (charge n r).res = r := rfl
@[simp] theorem charge_work {α : Type} (n : Nat) (r : Res α) : (charge n r).work = n := rfl

@[simp] theorem bind_res {α β : Type} (m : Metered α) (f : α → Metered β) :
    (m >>= f).res = (m.res >>= fun a => (f a).res) := by
  show (Metered.bind m f).res = _
  unfold Metered.bind
  cases h : m.res <;> rfl

theorem bind_work_ok {α β : Type} {m : Metered α} {f : α → Metered β} {a : α} (h : m.res = .ok a) :
    (m >>= f).work = m.work + (f a).work := by
  show (Metered.bind m f).work = _
  unfold Metered.bind
  rw [h]

theorem bind_work_le {α β : Type} {m : Metered α} {f : α → Metered β} {A B : Nat} (hm : m.work ≤ A)
    (hf : ∀ a, m.res = .ok a → (f a).work ≤ B) : (m >>= f).work ≤ A + B := by
  cases h : m.res with
  | ok a => rw [bind_work_ok h]; exact Nat.add_le_add hm (hf a h)
  | throw e =>
    show (Metered.bind m f).work ≤ _
    unfold Metered.bind; rw [h]; exact le_trans hm (Nat.le_add_right _ _)
  | ub =>
    show (Metered.bind m f).work ≤ _
    unfold Metered.bind; rw [h]; exact le_trans hm (Nat.le_add_right _ _)
  | timeout =>
    show (Metered.bind m f).work ≤ _
    unfold Metered.bind; rw [h]; exact le_trans hm (Nat.le_add_right _ _)

theorem free_bind_work_le {α β : Type} {r : Res α} {f : α → Metered β} {B : Nat}
    (hf : ∀ a, r = .ok a → (f a).work ≤ B) : (free r >>= f).work ≤ B := by
  have := bind_work_le (m := free r) (f := f) (A := 0) (B := B) (by simp) (by simpa using hf)
  simpa using this

theorem charge_bind_work_le {α β : Type} {n : Nat} {r : Res α} {f : α → Metered β} {B : Nat}
    (hf : ∀ a, r = .ok a → (f a).work ≤ B) : (charge n r >>= f).work ≤ n + B :=
  bind_work_le (m := charge n r) (by simp) (by simpa using hf)

theorem ite_res {α : Type} {P : Prop} [Decidable P] (a b : Metered α) :
    (if P then a else b).res = if P then a.res else b.res := by split <;> rfl

theorem each_res {α β : Type} (n : Nat) (f : α → β) (l : List α) : (each n f l).res = .ok (l.map f) := by
  induction l with
  | nil => rfl
  | cons x xs ih => simp [each, ih]

theorem each_work {α β : Type} (n : Nat) (f : α → β) (l : List α) : (each n f l).work = n * l.length := by
  induction l with
  | nil => rfl
  | cons x xs ih =>
    rw [each, bind_work_ok (a := f x) (by simp), bind_work_ok (each_res n f xs), ih]
    simp [Nat.mul_succ, Nat.add_comm]

end Metered

variable {F : Type} [Flt F]
open Metered

namespace Meter
variable (p : Prices)

theorem circleLoop_res (c : Collision F) (g : GridMap F) : ∀ (n : Nat) (x y err : Int) (cfg : CollisionConfig),
    (circleLoop p c g n x y err cfg).res = c.circleLoop g n x y err cfg := by
  intro n
  induction n with
  | zero => intros; rfl
  | succ n ih =>
    intro x y err cfg
    rw [circleLoop, Collision.circleLoop]
    split
    · rw [bind_res, charge_res]
      congr 1; funext a; obtain ⟨a, cfg1⟩ := a
      dsimp only
      rw [ite_res, free_res]
      split
      · rfl
      rw [bind_res, charge_res]
      congr 1; funext b; obtain ⟨b, cfg2⟩ := b
      dsimp only
      rw [ite_res, free_res]
      split
      · rfl
      rw [bind_res, charge_res]
      congr 1; funext d; obtain ⟨d, cfg3⟩ := d
      dsimp only
      rw [ite_res, free_res]
      split
      · rfl
      rw [bind_res, charge_res]
      congr 1; funext e; obtain ⟨e, cfg4⟩ := e
      dsimp only
      rw [ite_res, free_res]
      split
      · rfl
      · exact ih _ _ _ _
    · rfl

theorem bresenhamCircle_res (c : Collision F) (g : GridMap F) (cfg : CollisionConfig) (r : Int) :
    (bresenhamCircle p c g cfg r).res = c.bresenhamCircle g cfg r := circleLoop_res p c g _ _ _ _ _

theorem searchLoop_res (c : Collision F) (g : GridMap F) : ∀ (n : Nat) (r : Int) (cfg : CollisionConfig),
    (searchLoop p c g n r cfg).res = c.searchLoop g n r cfg := by
  intro n
  induction n with
  | zero => intros; rfl
  | succ n ih =>
    intro r cfg
    rw [searchLoop, Collision.searchLoop]
    split
    · rw [bind_res, bresenhamCircle_res]
      congr 1; funext a; obtain ⟨a, cfg1⟩ := a
      dsimp only
      rw [ite_res, free_res]
      split
      · rfl
      · exact ih _ _
    · rfl

theorem collisionCheck_res (c : Collision F) (g : GridMap F) (x : V3 F) :
    (collisionCheck p c g x).res = c.collisionCheck g x := by
  rw [collisionCheck, Collision.collisionCheck, bind_res, free_res]
  congr 1; funext cfg
  rw [bind_res, search, searchLoop_res, Collision.search]
  rfl

theorem validateLoop_res (c : Collision F) (g : GridMap F) (u : V3 F) (dt : F) : ∀ (n : Nat) (x : V3 F),
    (validateLoop p c g u dt n x).res = Ergodic.validateLoop c g u dt n x := by
  intro n
  induction n with
  | zero => intros; rfl
  | succ n ih =>
    intro x
    rw [validateLoop, Ergodic.validateLoop, bind_res, collisionCheck_res]
    congr 1; funext b
    rw [ite_res, ih]; rfl

theorem validateControl_res (c : Collision F) (g : GridMap F) (x u : V3 F) (dt T : F) :
    (validateControl p c g x u dt T).res = Ergodic.validateControl c g x u dt T := by
  rw [validateControl, Ergodic.validateControl, bind_res, free_res]
  congr 1; funext n
  exact validateLoop_res p c g u dt _ _

theorem rollout_res (d : DynamicWindow F) (g : GridMap F) (u : V3 F) : ∀ (n : Nat) (x : V3 F),
    (rollout p d g u n x).res = d.rollout g u n x := by
  intro n
  induction n with
  | zero => intros; rfl
  | succ n ih =>
    intro x
    rw [rollout, DynamicWindow.rollout, bind_res, collisionCheck_res]
    congr 1; funext b
    rw [ite_res, ih]; rfl

theorem objectiveTwist_res (d : DynamicWindow F) (g : GridMap F) (x v u : V3 F) :
    (objectiveTwist p d g x v u).res = d.objectiveTwist g x v u := by
  rw [objectiveTwist, DynamicWindow.objectiveTwist, bind_res, rollout_res]
  congr 1

theorem trajLoop_res (d : DynamicWindow F) (g : GridMap F) (u : V3 F) (xt : List (V3 F)) (tf : F) :
    ∀ (n : Nat) (x : V3 F) (t c : F), (trajLoop p d g u xt tf n x t c).res = d.trajLoop g u xt tf n x t c := by
  intro n
  induction n with
  | zero => intros; rfl
  | succ n ih =>
    intro x t c
    rw [trajLoop, DynamicWindow.trajLoop, bind_res, collisionCheck_res]
    congr 1; funext b
    rw [ite_res]
    split
    · rfl
    · rw [bind_res, free_res]
      congr 1; funext j
      rw [bind_res, free_res]
      congr 1; funext xr
      exact ih _ _ _

theorem wLoop_res {cost : V3 F → Metered F} {cost' : V3 F → Res F} (hc : ∀ u, (cost u).res = cost' u) (vx vy dw : F) :
    ∀ (n : Nat) (w : F) (s : F × V3 F),
      (wLoop cost vx vy dw n w s).res = DynamicWindow.wLoop cost' vx vy dw n w s := by
  intro n
  induction n with
  | zero => intros; rfl
  | succ n ih =>
    intro w s
    rw [wLoop, DynamicWindow.wLoop, bind_res, hc]
    congr 1; funext c
    exact ih _ _

theorem vyLoop_res {cost : V3 F → Metered F} {cost' : V3 F → Res F} (hc : ∀ u, (cost u).res = cost' u)
    (vx w0 dvy dw : F) (nw : Nat) : ∀ (n : Nat) (vy : F) (s : F × V3 F),
      (vyLoop cost vx w0 dvy dw nw n vy s).res = DynamicWindow.vyLoop cost' vx w0 dvy dw nw n vy s := by
  intro n
  induction n with
  | zero => intros; rfl
  | succ n ih =>
    intro vy s
    rw [vyLoop, DynamicWindow.vyLoop, bind_res, wLoop_res hc]
    congr 1; funext c
    exact ih _ _

theorem vxLoop_res {cost : V3 F → Metered F} {cost' : V3 F → Res F} (hc : ∀ u, (cost u).res = cost' u)
    (vy0 w0 dvx dvy dw : F) (ny nw : Nat) : ∀ (n : Nat) (vx : F) (s : F × V3 F),
      (vxLoop cost vy0 w0 dvx dvy dw ny nw n vx s).res =
        DynamicWindow.vxLoop cost' vy0 w0 dvx dvy dw ny nw n vx s := by
  intro n
  induction n with
  | zero => intros; rfl
  | succ n ih =>
    intro vx s
    rw [vxLoop, DynamicWindow.vxLoop, bind_res, vyLoop_res hc]
    congr 1; funext c
    exact ih _ _

theorem searchWindow_res {cost : V3 F → Metered F} {cost' : V3 F → Res F} (hc : ∀ u, (cost u).res = cost' u)
    (d : DynamicWindow F) (vb : V3 F) : (searchWindow d vb cost).res = d.searchWindow vb cost' := by
  rw [searchWindow, DynamicWindow.searchWindow]
  rw [bind_res, vxLoop_res hc]
  congr 1; funext s
  split <;> rfl

theorem controlTwist_res (d : DynamicWindow F) (g : GridMap F) (x vb v : V3 F) :
    (controlTwist p d g x vb v).res = d.controlTwist g x vb v :=
  searchWindow_res (fun u => objectiveTwist_res p d g x v u) d vb

theorem controlTraj_res (d : DynamicWindow F) (g : GridMap F) (x vb : V3 F) (xt : List (V3 F)) (dt : F) :
    (controlTraj p d g x vb xt dt).res = d.controlTraj g x vb xt dt :=
  searchWindow_res (fun u => trajLoop_res p d g u xt _ _ _ _ _) d vb

theorem step_res (dt : F) (f : V3 F → V3 F → Res (V3 F)) (x u : V3 F) :
    (step p dt f x u).res = RungeKutta.step dt f x u := by
  simp only [step, RungeKutta.step, bind_res, charge_res, free_res]

theorem solveLoop_res (dt : F) (f : V3 F → V3 F → Res (V3 F)) (ut : List (V3 F)) : ∀ (n i : Nat) (x : V3 F),
    (solveLoop p dt f ut n i x).res = RungeKutta.solveLoop dt f ut n i x := by
  intro n
  induction n with
  | zero => intros; rfl
  | succ n ih =>
    intro i x
    simp only [solveLoop, RungeKutta.solveLoop, bind_res, free_res, step_res, ih]

theorem solve_res (dt : F) (f : V3 F → V3 F → Res (V3 F)) (x : V3 F) (ut : List (V3 F)) (T : F) :
    (solve p dt f x ut T).res = RungeKutta.solve dt f x ut T := by
  simp only [solve, RungeKutta.solve, bind_res, free_res, solveLoop_res]

theorem stepBack_res (dt : F) (func : CoStateFunc F) (rho e b : V3 F) (m : M3 F) :
    (stepBack p dt func rho e b m).res = .ok (RungeKutta.stepBack dt func rho e b m) := by
  simp only [stepBack, RungeKutta.stepBack, bind_res, charge_res, free_res, Res.ok_bind]

theorem solveBackLoop_res (dt : F) (func : CoStateFunc F) (fdx : V3 F → V3 F → M3 F) (xt ut edx bdx : List (V3 F)) :
    ∀ (n : Nat) (rho : V3 F) (acc : List (V3 F)),
      (solveBackLoop p dt func fdx xt ut edx bdx n rho acc).res =
        RungeKutta.solveBackLoop dt func fdx xt ut edx bdx n rho acc := by
  intro n
  induction n with
  | zero => intros; rfl
  | succ n ih =>
    intro rho acc
    simp only [solveBackLoop, RungeKutta.solveBackLoop, bind_res, free_res, stepBack_res, Res.ok_bind, ih]

theorem solveBack_res (dt : F) (func : CoStateFunc F) (fdx : V3 F → V3 F → M3 F) (rhoT : V3 F)
    (xt ut edx bdx : List (V3 F)) (T : F) :
    (solveBack p dt func fdx rhoT xt ut edx bdx T).res = RungeKutta.solveBack dt func fdx rhoT xt ut edx bdx T := by
  simp only [solveBack, RungeKutta.solveBack, bind_res, free_res, solveBackLoop_res]

theorem coefficients_res (b : Basis F) (xt : List (V3 F)) (ks : List (Int × Int)) :
    (coefficients p b xt ks).res = .ok (ks.map fun k =>
      (lit 1 0 /. Flt.ofInt xt.length) *. fsum (xt.map fun x => b.fk x.xy k)) := by
  induction ks with
  | nil => rfl
  | cons k ks ih => simp only [coefficients, bind_res, each_res, ih, Res.ok_bind, free_res, List.map_cons]

theorem zipWith_map_left' {α β γ δ : Type} (f : α → β) (h : β → γ → δ) : ∀ (l : List α) (l' : List γ),
    List.zipWith h (l.map f) l' = List.zipWith (fun a c => h (f a) c) l l' := by
  intro l
  induction l with
  | nil => intro l'; rfl
  | cons x xs ih => intro l'; cases l' with
    | nil => rfl
    | cons y ys => simp [ih]

theorem spatialLoop_res (b : Basis F) (vals : List F) (grid : List (V2 F)) (ks : List (Int × Int)) :
    (spatialLoop p b vals grid ks).res = .ok (ks.map fun k =>
      fsum (List.zipWith (fun q v => b.fk q k *. v) grid vals)) := by
  induction ks with
  | nil => rfl
  | cons k ks ih =>
    simp only [spatialLoop, bind_res, each_res, ih, Res.ok_bind, free_res, List.map_cons, zipWith_map_left']

theorem spatialCoeff_res (b : Basis F) (vals : List F) (grid : List (V2 F)) :
    (spatialCoeff p b vals grid).res = b.spatialCoeff vals grid := by
  rw [spatialCoeff, Basis.spatialCoeff, ite_res, spatialLoop_res]; rfl

theorem evaluateAll_res (t : Target F) (q : V2 F) (grid : List (V2 F)) :
    (evaluateAll p t q grid).res = .ok (grid.map fun x => t.evaluate x q) := by
  induction grid with
  | nil => rfl
  | cons x xs ih =>
    simp only [evaluateAll, bind_res, each_res, ih, Res.ok_bind, free_res, List.map_cons, Target.evaluate, List.foldl_map]

theorem fill_res (t : Target F) (q : V2 F) (grid : List (V2 F)) :
    (fill p t q grid).res = .ok (t.fill q grid) := by
  rw [fill, bind_res, evaluateAll_res]; rfl

theorem configTarget_res (e : ErgodicControl F) (g : GridMap F) :
    (configTarget p e g).res = e.configTarget g := by
  rw [configTarget, ErgodicControl.configTarget, ite_res]
  split
  · rfl
  · simp only [bind_res, free_res, fill_res, Res.ok_bind, spatialCoeff_res]

theorem gradLoop_res (e : ErgodicControl F) (diff : List F) (xt : List (V3 F)) :
    (gradLoop p e diff xt).res = .ok (xt.map fun x =>
      let d := ErgodicControl.gradTimes e.basis x.xy diff
      (⟨d.c0 *. e.expl_weight, d.c1 *. e.expl_weight, lit 0 0⟩ : V3 F)) := by
  induction xt with
  | nil => rfl
  | cons x xs ih =>
    simp only [gradLoop, bind_res, each_res, ih, Res.ok_bind, free_res, List.map_cons, ErgodicControl.gradTimes,
      Basis.gradFourierBasis]

theorem gradErgodicMetric_res (e : ErgodicControl F) (ck : List F) (xt : List (V3 F)) :
    (gradErgodicMetric p e ck xt).res = .ok (e.gradErgodicMetric ck xt) := gradLoop_res p e _ xt

theorem control_res (e : ErgodicControl F) (g : GridMap F) (x : V3 F) (draws : List Nat) :
    (control p e g x draws).res = e.control g x draws := by
  simp only [control, ErgodicControl.control, bind_res, free_res, configTarget_res, solve_res, ite_res, coefficients_res,
    gradErgodicMetric_res, solveBack_res, Res.ok_bind, Basis.trajCoeff]

theorem path_res (e : ErgodicControl F) (frame : String) : (path p e frame).res = e.path frame := by
  simp only [path, ErgodicControl.path, bind_res, free_res, solve_res]

theorem replan_res (s : Expl F) (draws : List Nat) : (replan p s draws).res = s.replan draws := by
  simp only [replan, Expl.replan, ite_res, bind_res, free_res, control_res, path_res]

theorem avoid_res (s : Expl F) : (avoid p s).res = s.avoid := by
  simp only [avoid, Expl.avoid, ErgodicControl.optTraj, ite_res, bind_res, free_res, validateControl_res,
    controlTwist_res, controlTraj_res, solve_res]

theorem iteration_res (s : Expl F) (tf : Option (TransformMsg F)) (draws : List Nat) :
    (iteration p s tf draws).res = s.iteration tf draws := by
  simp only [iteration, Expl.iteration, ite_res, bind_res, free_res, replan_res, avoid_res]

theorem react_res (s : Expl F) (e : Event F) : (react p s e).res = s.step e := by
  cases e with
  | map m => rfl
  | odom v => rfl
  | tick tf draws => exact iteration_res p s tf draws

theorem run_res (s : Expl F) (es : List (Event F)) : (run p s es).res = s.run es := by
  induction es generalizing s with
  | nil => rfl
  | cons e es ih => simp only [run, Expl.run, bind_res, free_res, react_res, ih]

end Meter
end Ergodic
