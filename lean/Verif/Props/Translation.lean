import Verif.Spec.Translation
import Verif.Lemmas.Session
import Verif.Props.ExplorationRefuted

/-!
# Property C110: the origin of the map frame does not matter

Exact arithmetic.  A node that is told the same surroundings in a map frame with a different origin
publishes the same twists, and paths and markers displaced accordingly.
-/

namespace Ergodic

/-! ## Collision queries -/

variable (d : V2 ℝ)

theorem world2Grid_move (g : GridMap ℝ) (x y : ℝ) :
    (g.move d).world2Grid (x + d.c0) (y + d.c1) = g.world2Grid x y := by
  simp only [GridMap.world2Grid, GridMap.move, real_sub, add_sub_add_right_eq_sub]
  rfl

theorem circleLoop_move (c : Collision ℝ) (g : GridMap ℝ) (fuel : Nat) :
    ∀ x y err cfg, c.circleLoop (g.move d) fuel x y err cfg = c.circleLoop g fuel x y err cfg := by
  induction fuel with
  | zero => intros; rfl
  | succ fuel ih =>
    intro x y err cfg
    rw [Collision.circleLoop, Collision.circleLoop]
    have e : c.checkCell (g.move d) = c.checkCell g := rfl
    simp only [e, ih]

theorem searchLoop_move (c : Collision ℝ) (g : GridMap ℝ) (fuel : Nat) :
    ∀ r cfg, c.searchLoop (g.move d) fuel r cfg = c.searchLoop g fuel r cfg := by
  induction fuel with
  | zero => intros; rfl
  | succ fuel ih =>
    intro r cfg
    rw [Collision.searchLoop, Collision.searchLoop]
    simp only [Collision.bresenhamCircle, circleLoop_move, ih]

theorem config_move (c : Collision ℝ) (g : GridMap ℝ) (x : V3 ℝ) :
    c.config (g.move d) (x.move d) = c.config g x := by
  unfold Collision.config
  rw [show (x.move d).c0 = x.c0 + d.c0 from rfl, show (x.move d).c1 = x.c1 + d.c1 from rfl,
    world2Grid_move]
  rfl

/-- C110: the three collision queries do not depend on the origin. -/
theorem C110_queries (c : Collision ℝ) (g : GridMap ℝ) (x : V3 ℝ) :
    c.collisionCheck (g.move d) (x.move d) = c.collisionCheck g x ∧
    c.minDistance (g.move d) (x.move d) = c.minDistance g x ∧
    c.minDirection (g.move d) (x.move d) = c.minDirection g x := by
  refine ⟨?_, ?_, ?_⟩
  · simp only [Collision.collisionCheck, config_move, Collision.search, searchLoop_move]
  · simp only [Collision.minDistance, config_move, Collision.search, searchLoop_move]
    rfl
  · simp only [Collision.minDirection, config_move, Collision.search, searchLoop_move]
    rfl

theorem update_move (m : OccupancyGrid ℝ) : GridMap.assign (m.move d) = (GridMap.assign m).move d := by
  simp only [GridMap.assign, OccupancyGrid.move, GridMap.move, axisUpper, real_add, GridMap.mk.injEq, true_and, and_true]
  constructor <;> ring

/-! ## Simulated motion -/

theorem integrate_move (x u : V3 ℝ) (dt : ℝ) :
    integrateTwist (x.move d) u dt = (integrateTwist x u dt).move d := by
  unfold integrateTwist
  simp only [V3.move, V3.add, real_add, V3.mk.injEq, and_true]
  constructor <;> ring

theorem validateLoop_move (c : Collision ℝ) (g : GridMap ℝ) (u : V3 ℝ) (dt : ℝ) (n : Nat) :
    ∀ x, validateLoop c (g.move d) u dt n (x.move d) = validateLoop c g u dt n x := by
  induction n with
  | zero => intro x; rfl
  | succ n ih =>
    intro x
    rw [validateLoop, validateLoop, integrate_move]
    have e : ({ (integrateTwist x u dt).move d with
        c2 := normalizeAnglePI ((integrateTwist x u dt).move d).c2 } : V3 ℝ) =
        ({ integrateTwist x u dt with c2 := normalizeAnglePI (integrateTwist x u dt).c2 } : V3 ℝ).move d := rfl
    simp only [e, (C110_queries d c g _).1, ih]

/-- C110: nor does the validation of a twist. -/
theorem C110_validate (c : Collision ℝ) (g : GridMap ℝ) (x u : V3 ℝ) (dt horizon : ℝ) :
    validateControl c (g.move d) (x.move d) u dt horizon = validateControl c g x u dt horizon := by
  simp only [validateControl, validateLoop_move]

theorem constTwistLoop_move (u : V3 ℝ) (dt : ℝ) (n : Nat) :
    ∀ x, constTwistLoop u dt n (x.move d) = (constTwistLoop u dt n x).map (PoseMsg.move d) := by
  induction n with
  | zero => intro x; rfl
  | succ n ih =>
    intro x
    rw [constTwistLoop, constTwistLoop, integrate_move]
    simp only [ih, List.map_cons]
    rfl

theorem constTwistPath_move (frame : String) (x u : V3 ℝ) (dt horizon : ℝ) :
    constTwistPath frame (x.move d) u dt horizon = PathMsg.move d <$> constTwistPath frame x u dt horizon := by
  unfold constTwistPath
  simp only [constTwistLoop_move]
  cases numSteps horizon dt <;> rfl

/-! ## Dynamic window -/

theorem col_map {α β : Type} (f : α → β) (l : List α) (i : Nat) : col (l.map f) i = f <$> col l i := by
  unfold col
  rw [List.getElem?_map]
  cases l[i]? <;> rfl

theorem rollout_move (w : DynamicWindow ℝ) (g : GridMap ℝ) (u : V3 ℝ) (n : Nat) :
    ∀ x, w.rollout (g.move d) u n (x.move d) = w.rollout g u n x := by
  induction n with
  | zero => intro x; rfl
  | succ n ih =>
    intro x
    rw [DynamicWindow.rollout, DynamicWindow.rollout, integrate_move]
    have e : ({ (integrateTwist x u w.dt).move d with
        c2 := normalizeAnglePI ((integrateTwist x u w.dt).move d).c2 } : V3 ℝ) =
        ({ integrateTwist x u w.dt with
          c2 := normalizeAnglePI (integrateTwist x u w.dt).c2 } : V3 ℝ).move d := rfl
    simp only [e, (C110_queries d w.collision g _).1, ih]

theorem trajLoop_move (w : DynamicWindow ℝ) (g : GridMap ℝ) (u : V3 ℝ) (ref : List (V3 ℝ)) (tf : ℝ) (n : Nat) :
    ∀ x t cost, w.trajLoop (g.move d) u (ref.map (V3.move d)) tf n (x.move d) t cost =
      w.trajLoop g u ref tf n x t cost := by
  induction n with
  | zero => intros; rfl
  | succ n ih =>
    intro x t cost
    rw [DynamicWindow.trajLoop, DynamicWindow.trajLoop, integrate_move]
    have es : ∀ a b : V3 ℝ, (a.move d).xy.sub (b.move d).xy = a.xy.sub b.xy := by
      intro a b
      simp only [V3.move, V3.xy, V2.sub, real_sub, add_sub_add_right_eq_sub]
    have e2 : ∀ a : V3 ℝ, (a.move d).c2 = a.c2 := fun _ => rfl
    generalize integrateTwist x u w.dt = p
    have e : (⟨(p.move d).c0, (p.move d).c1, normalizeAnglePI (p.move d).c2⟩ : V3 ℝ) =
        V3.move d ⟨p.c0, p.c1, normalizeAnglePI p.c2⟩ := rfl
    dsimp only
    rw [e]
    generalize (⟨p.c0, p.c1, normalizeAnglePI p.c2⟩ : V3 ℝ) = q
    rw [(C110_queries d w.collision g q).1]
    simp only [List.length_map, col_map, Res.map_eq_bind, bind_assoc, Res.ok_bind, es, ih]
    rfl

/-- C110: neither search of the dynamic window depends on the origin. -/
theorem C110_window (w : DynamicWindow ℝ) (g : GridMap ℝ) (x vb vref : V3 ℝ) (ref : List (V3 ℝ)) (dt_ref : ℝ) :
    w.controlTwist (g.move d) (x.move d) vb vref = w.controlTwist g x vb vref ∧
    w.controlTraj (g.move d) (x.move d) vb (ref.map (V3.move d)) dt_ref = w.controlTraj g x vb ref dt_ref := by
  constructor
  · simp only [DynamicWindow.controlTwist, DynamicWindow.objectiveTwist, rollout_move]
  · simp only [DynamicWindow.controlTraj, DynamicWindow.objectiveTraj, trajLoop_move, List.length_map]

/-! ## Ergodic controller -/

/-- The dynamics of the model depend on the heading only. -/
structure HeadingOnly (m : TwistModel ℝ) : Prop where
  f : ∀ d x u, m.f (V3.move d x) u = m.f x u

theorem omni_heading : HeadingOnly (omniModel : TwistModel ℝ) := ⟨fun _ _ _ => rfl⟩

theorem cart_heading : HeadingOnly (cartModel : TwistModel ℝ) := ⟨fun _ _ _ => rfl⟩

theorem add_move (x y : V3 ℝ) : (x.move d).add y = (x.add y).move d := by
  simp only [V3.move, V3.add, real_add, V3.mk.injEq, and_true]
  constructor <;> ring

variable {m : TwistModel ℝ}

theorem rk4_step_move (hm : HeadingOnly m) (dt : ℝ) (x u : V3 ℝ) :
    RungeKutta.step dt m.f (x.move d) u = V3.move d <$> RungeKutta.step dt m.f x u := by
  unfold RungeKutta.step
  simp only [add_move, hm.f, Res.map_eq_bind, bind_assoc, Res.ok_bind]

theorem solveLoop_move (hm : HeadingOnly m) (dt : ℝ) (ut : List (V3 ℝ)) (n : Nat) :
    ∀ i x, RungeKutta.solveLoop dt m.f ut n i (x.move d) =
      List.map (V3.move d) <$> RungeKutta.solveLoop dt m.f ut n i x := by
  induction n with
  | zero => intros; rfl
  | succ n ih =>
    intro i x
    rw [RungeKutta.solveLoop, RungeKutta.solveLoop]
    have e : ∀ a : V3 ℝ, ({ a.move d with c2 := normalizeAnglePI (a.move d).c2 } : V3 ℝ) =
        ({ a with c2 := normalizeAnglePI a.c2 } : V3 ℝ).move d := fun _ => rfl
    simp only [rk4_step_move d hm, Res.map_eq_bind, bind_assoc, Res.ok_bind, e, ih, List.map_cons]

theorem solve_move (hm : HeadingOnly m) (dt horizon : ℝ) (x : V3 ℝ) (ut : List (V3 ℝ)) :
    RungeKutta.solve dt m.f (x.move d) ut horizon =
      List.map (V3.move d) <$> RungeKutta.solve dt m.f x ut horizon := by
  simp only [RungeKutta.solve, solveLoop_move d hm, Res.map_eq_bind, bind_assoc]

/-- a remembered displaced pose -/
def moveEntry (d : V2 ℝ) (q : Nat × V3 ℝ) : Nat × V3 ℝ := (q.1, q.2.move d)

/-- a replay buffer of displaced poses -/
def moveBuffer (d : V2 ℝ) (b : ReplayBuffer (V3 ℝ)) : ReplayBuffer (V3 ℝ) :=
  { b with memory := b.memory.map (moveEntry d) }

theorem at_move (l : List (Nat × V3 ℝ)) (k : Nat) :
    ReplayBuffer.at' (l.map (moveEntry d)) k = V3.move d <$> ReplayBuffer.at' l k := by
  unfold ReplayBuffer.at'
  rw [List.find?_map]
  have e : ((fun q : Nat × V3 ℝ => q.1 == k) ∘ moveEntry d) = fun q => q.1 == k := rfl
  rw [e]
  cases l.find? fun q => q.1 == k <;> rfl

theorem mapM_move {α : Type} (f g : α → Res (V3 ℝ)) (h : ∀ a, g a = V3.move d <$> f a) (l : List α) :
    l.mapM g = List.map (V3.move d) <$> l.mapM f := by
  induction l with
  | nil => rfl
  | cons a l ih =>
    rw [List.mapM_cons, List.mapM_cons, h, ih]
    simp only [Res.map_eq_bind, bind_assoc, Res.ok_bind, Res.pure_eq, List.map_cons]

theorem concat_move (pre xt : List (V3 ℝ)) :
    ReplayBuffer.concatCols (pre.map (V3.move d)) (xt.map (V3.move d)) =
      List.map (V3.move d) <$> ReplayBuffer.concatCols pre xt := by
  unfold ReplayBuffer.concatCols
  rw [List.isEmpty_map]
  split
  · rfl
  · simp

theorem sample_move (b : ReplayBuffer (V3 ℝ)) (draws : List Nat) (xt : List (V3 ℝ)) :
    (moveBuffer d b).sampleMemory draws (xt.map (V3.move d)) =
      List.map (V3.move d) <$> b.sampleMemory draws xt := by
  unfold ReplayBuffer.sampleMemory
  simp only [moveBuffer, List.isEmpty_map, List.length_map]
  split
  · rfl
  split
  · rw [mapM_move d (fun i => ReplayBuffer.at' b.memory i) _ (fun i => at_move d b.memory i)]
    simp only [Res.map_eq_bind, bind_assoc, Res.ok_bind, concat_move]
  · rw [mapM_move d (fun i => ReplayBuffer.drawAt b.memory draws i) _ (fun i => by
      unfold ReplayBuffer.drawAt
      cases draws[i]? with
      | none => rfl
      | some r => exact at_move d b.memory r)]
    simp only [Res.map_eq_bind, bind_assoc, Res.ok_bind, concat_move]

theorem append_move (b : ReplayBuffer (V3 ℝ)) (x : V3 ℝ) :
    (moveBuffer d b).append (x.move d) = moveBuffer d (b.append x) := by
  unfold ReplayBuffer.append
  have hl : (moveBuffer d b).memory.length = b.memory.length := List.length_map ..
  rw [hl]
  by_cases h : b.memory.length < b.buffer_size
  · rw [if_pos h, if_pos (show b.memory.length < (moveBuffer d b).buffer_size from h)]
    unfold moveBuffer ReplayBuffer.emplace
    simp only [List.any_map]
    have e : ((fun q : Nat × V3 ℝ => q.1 == b.memory.length) ∘ moveEntry d) =
      fun q => q.1 == b.memory.length := rfl
    rw [e]
    split
    · rfl
    · simp only [List.map_append, List.map_cons, List.map_nil]
      rfl
  · rw [if_neg h, if_neg (show ¬ b.memory.length < (moveBuffer d b).buffer_size from h)]

/-- the controller in the displaced frame -/
def moveControl (d : V2 ℝ) (e : ErgodicControl ℝ) : ErgodicControl ℝ :=
  { e with
    pose := e.pose.move d, map_pos := e.map_pos.move d, buffer := moveBuffer d e.buffer
    target := e.target.move d }

theorem evaluate_move (t : Target ℝ) (p trans : V2 ℝ) :
    (t.move d).evaluate p (trans.move d) = t.evaluate p trans := by
  unfold Target.evaluate Target.move
  rw [List.foldl_map]
  have : ∀ g : Gaussian ℝ, (g.move d).evalTrans p (trans.move d) = g.evalTrans p trans := by
    intro g
    simp only [Gaussian.evalTrans, Gaussian.move, V2.move, V2.sub, real_sub, add_sub_add_right_eq_sub]
    rfl
  simp only [this]

theorem fill_move (t : Target ℝ) (trans : V2 ℝ) (grid : List (V2 ℝ)) :
    (t.move d).fill (trans.move d) grid = t.fill trans grid := by
  simp only [Target.fill, evaluate_move]

/-- The controllers are the same up to the displacement; where they last planned from does not
matter. -/
def ControlMoved (d : V2 ℝ) (e e' : ErgodicControl ℝ) : Prop :=
  e' = { e with
    pose := e'.pose, map_pos := e'.map_pos, buffer := moveBuffer d e.buffer, target := e.target.move d }

theorem configTarget_move {e e' : ErgodicControl ℝ} (h : ControlMoved d e e') (g : GridMap ℝ) (x : V3 ℝ) :
    ErgodicControl.configTarget { e' with pose := x.move d } (g.move d) =
      moveControl d <$> ErgodicControl.configTarget { e with pose := x } g := by
  unfold ControlMoved at h
  rw [h]
  unfold ErgodicControl.configTarget
  have e1 : (⟨(g.move d).xmin, (g.move d).ymin⟩ : V2 ℝ) = (⟨g.xmin, g.ymin⟩ : V2 ℝ).move d := rfl
  have ex : (g.move d).xmax -. (g.move d).xmin = g.xmax -. g.xmin := by
    simp only [GridMap.move, real_sub, add_sub_add_right_eq_sub]
  have ey : (g.move d).ymax -. (g.move d).ymin = g.ymax -. g.ymin := by
    simp only [GridMap.move, real_sub, add_sub_add_right_eq_sub]
  simp only [e1, ex, ey, fill_move]
  split
  · rfl
  · simp only [Res.map_eq_bind, bind_assoc, Res.ok_bind]
    rfl

theorem toFourier_move (p : V2 ℝ) (x : V3 ℝ) :
    ErgodicControl.toFourier (p.move d) (x.move d) = ErgodicControl.toFourier p x := by
  simp only [ErgodicControl.toFourier, V2.move, V3.move, real_sub, add_sub_add_right_eq_sub]

theorem fourier_map (p : V2 ℝ) (l : List (V3 ℝ)) :
    (l.map (V3.move d)).map (ErgodicControl.toFourier (p.move d)) = l.map (ErgodicControl.toFourier p) := by
  rw [List.map_map]
  exact List.map_congr_left fun x _ => toFourier_move d p x

theorem updateLoop_move (e : ErgodicControl ℝ) : ∀ xs rs, (moveControl d e).updateLoop xs rs = e.updateLoop xs rs := by
  intro xs
  induction xs with
  | nil => intro rs; rfl
  | cons x xs ih =>
    intro rs
    cases rs with
    | nil => rfl
    | cons r rs =>
      rw [ErgodicControl.updateLoop, ErgodicControl.updateLoop, ih]
      rfl

/-- What `control` does once the basis and the shifted controls are in place. -/
noncomputable def controlTail (e : ErgodicControl ℝ) (draws : List Nat) : Res (ErgodicControl ℝ × V3 ℝ) := do
  let traj ← RungeKutta.solve e.dt e.model.f e.pose e.ut e.horizon
  let total ← e.buffer.sampleMemory draws traj
  let xt_total := total.map (ErgodicControl.toFourier e.map_pos)
  if xt_total.length < e.steps.toNat then .throw .logicError
  else do
    let xt := xt_total.drop (xt_total.length - e.steps.toNat)
    let ck := e.basis.trajCoeff xt_total
    let edx := e.gradErgodicMetric ck xt
    let bdx := e.gradBarrier xt
    let rhot ← RungeKutta.solveBack e.dt rhodot e.model.fdx e.rhoT xt e.ut edx bdx e.horizon
    let ut' ← e.updateLoop xt rhot
    let e := { e with ut := ut' }
    let u ← col e.ut 0
    .ok (e, u)

theorem control_tail (e : ErgodicControl ℝ) (g : GridMap ℝ) (x : V3 ℝ) (draws : List Nat) :
    e.control g x draws = ErgodicControl.configTarget { e with pose := x } g >>= fun c =>
      ErgodicControl.shift c.ut >>= fun ut => controlTail { c with ut } draws := rfl

theorem controlTail_move (c : ErgodicControl ℝ) (hm : HeadingOnly c.model) (draws : List Nat) :
    controlTail (moveControl d c) draws =
      (fun r => (moveControl d r.1, r.2)) <$> controlTail c draws := by
  unfold controlTail
  have e1 : RungeKutta.solve (moveControl d c).dt (moveControl d c).model.f (moveControl d c).pose
      (moveControl d c).ut (moveControl d c).horizon =
      List.map (V3.move d) <$> RungeKutta.solve c.dt c.model.f c.pose c.ut c.horizon :=
    solve_move d hm _ _ _ _
  have e2 (traj : List (V3 ℝ)) : (moveControl d c).buffer.sampleMemory draws (traj.map (V3.move d)) =
      List.map (V3.move d) <$> c.buffer.sampleMemory draws traj := sample_move d _ _ _
  have e3 (l : List (V3 ℝ)) : (l.map (V3.move d)).map (ErgodicControl.toFourier (moveControl d c).map_pos) =
      l.map (ErgodicControl.toFourier c.map_pos) := fourier_map d _ _
  simp only [e1, e2, e3, Res.map_eq_bind, bind_assoc, Res.ok_bind, updateLoop_move]
  refine congrArg₂ _ rfl ?_
  funext traj
  refine congrArg₂ _ rfl ?_
  funext total
  by_cases hl : (total.map (ErgodicControl.toFourier c.map_pos)).length < c.steps.toNat
  · rw [if_pos hl, if_pos (show _ < (moveControl d c).steps.toNat from hl)]
    rfl
  · rw [if_neg hl, if_neg (show ¬ _ < (moveControl d c).steps.toNat from hl)]
    simp only [bind_assoc]
    rfl

/-- C110: the ergodic controller returns the same twist, and is afterwards the controller in the
displaced frame. -/
theorem C110_control {e e' : ErgodicControl ℝ} (h : ControlMoved d e e') (hm : HeadingOnly e.model)
    (g : GridMap ℝ) (x : V3 ℝ) (draws : List Nat) :
    e'.control (g.move d) (x.move d) draws =
      (fun r => (moveControl d r.1, r.2)) <$> e.control g x draws := by
  rw [control_tail, control_tail, configTarget_move d h]
  cases hc : ErgodicControl.configTarget { e with pose := x } g with
  | throw e => rfl
  | ub => rfl
  | timeout => rfl
  | ok c =>
    have hmc : HeadingOnly c.model := by
      obtain ⟨lx, ly, phik, rfl⟩ := ErgodicControl.configTarget_frame hc
      exact hm
    simp only [Res.map_eq_bind, bind_assoc, Res.ok_bind]
    refine congrArg₂ _ rfl ?_
    funext ut
    have := controlTail_move d { c with ut } hmc draws
    rw [Res.map_eq_bind] at this
    exact this

theorem path_move (e : ErgodicControl ℝ) (hm : HeadingOnly e.model) (frame : String) :
    (moveControl d e).path frame = PathMsg.move d <$> e.path frame := by
  unfold ErgodicControl.path
  have e1 : RungeKutta.solve (moveControl d e).dt (moveControl d e).model.f (moveControl d e).pose
      (moveControl d e).ut (moveControl d e).horizon = RungeKutta.solve e.dt e.model.f (e.pose.move d) e.ut e.horizon := rfl
  rw [e1, solve_move d hm]
  simp only [Res.map_eq_bind, bind_assoc, Res.ok_bind, List.map_map]
  refine congrArg₂ _ rfl ?_
  funext xs
  simp only [PathMsg.move, List.map_map]
  rfl

theorem optTraj_move (e : ErgodicControl ℝ) (hm : HeadingOnly e.model) :
    (moveControl d e).optTraj = List.map (V3.move d) <$> e.optTraj :=
  solve_move d hm _ _ _ _

/-! ## The node -/

/-- The two nodes are the same up to the displacement; a pose or a map that has not been received
does not matter. -/
structure NodeMoved (d : V2 ℝ) (s s' : Expl ℝ) : Prop where
  rest : s' = { s with ec := s'.ec, grid := s'.grid, pose := s'.pose }
  ec : ControlMoved d s.ec s'.ec
  grid : s.map_received = true → s'.grid = s.grid.move d
  pose : s.pose_known = true → s'.pose = s.pose.move d
  model : HeadingOnly s.ec.model

variable {d}

theorem NodeMoved.localize {s s' : Expl ℝ} (h : NodeMoved d s s') (tf : Option (TransformMsg ℝ)) :
    NodeMoved d (s.localize tf) (s'.localize (tf.map (TransformMsg.move d))) := by
  cases tf with
  | none => exact h
  | some t =>
    obtain ⟨rest, ec, grid, pose, model⟩ := h
    refine ⟨?_, ?_, fun hr => ?_, fun _ => rfl, model⟩
    · unfold Expl.localize
      rw [rest]
      rfl
    · unfold Expl.localize ControlMoved at *
      dsimp only [Option.map]
      rw [ec]
      simp only [ErgodicControl.addStateMemory]
      have := append_move d s.ec.buffer ⟨t.x, t.y, getYaw t.qx t.qy t.qz t.qw⟩
      rw [← this]
      rfl
    · exact grid hr

theorem control_model {e e' : ErgodicControl ℝ} {g : GridMap ℝ} {x u : V3 ℝ} {draws : List Nat}
    (h : e.control g x draws = .ok (e', u)) : e'.model = e.model := by
  rw [control_tail] at h
  obtain ⟨c, hc, h⟩ := Res.bind_eq_ok.mp h
  obtain ⟨lx, ly, phik, rfl⟩ := ErgodicControl.configTarget_frame hc
  obtain ⟨ut, -, h⟩ := Res.bind_eq_ok.mp h
  unfold controlTail at h
  obtain ⟨traj, -, h⟩ := Res.bind_eq_ok.mp h
  obtain ⟨total, -, h⟩ := Res.bind_eq_ok.mp h
  dsimp only at h
  split at h
  · exact nomatch h
  · obtain ⟨rhot, -, h⟩ := Res.bind_eq_ok.mp h
    obtain ⟨ut', -, h⟩ := Res.bind_eq_ok.mp h
    obtain ⟨v, -, h⟩ := Res.bind_eq_ok.mp h
    cases h
    rfl

theorem NodeMoved.advanceDwa {s s' : Expl ℝ} (h : NodeMoved d s s') : NodeMoved d s.advanceDwa s'.advanceDwa := by
  obtain ⟨rest, ec, grid, pose, model⟩ := h
  unfold Expl.advanceDwa
  rw [rest]
  dsimp only
  split
  · exact ⟨rfl, ec, grid, pose, model⟩
  · exact ⟨rfl, ec, grid, pose, model⟩

/-- Two reactions that are the same up to the displacement. -/
def ReactionMoved (d : V2 ℝ) (r r' : Expl ℝ × List (Out ℝ)) : Prop :=
  NodeMoved d r.1 r'.1 ∧ r'.2 = r.2.map (Out.move d)

theorem NodeMoved.replan {s s' : Expl ℝ} (h : NodeMoved d s s') (hr : s.map_received = true)
    (hp : s.pose_known = true) (draws : List Nat) :
    SameOutcome (fun r r' => ReactionMoved d r r' ∧ r.1.map_received = true ∧ r.1.pose_known = true ∧
      (r.1.follow_dwa = false → r'.1.ec = moveControl d r.1.ec)) (s.replan draws) (s'.replan draws) := by
  obtain ⟨rest, ec, grid, pose, model⟩ := h
  have hg := grid hr
  have hx := pose hp
  rw [hg, hx] at rest
  generalize s'.ec = ec' at rest ec
  subst rest
  unfold Expl.replan
  dsimp only at hg hx ⊢
  by_cases h : s.follow_dwa = true
  · rw [if_pos h, if_pos h]
    refine .ok ⟨⟨⟨rfl, ec, grid, pose, model⟩, rfl⟩, hr, hp, fun hc => ?_⟩
    exact absurd h (by rw [hc]; simp)
  · rw [if_neg h, if_neg h]
    have hc := C110_control d ec model s.grid s.pose draws
    rw [hc]
    cases hres : s.ec.control s.grid s.pose draws with
    | throw e => exact .throw e
    | ub => exact .ub
    | timeout => exact .timeout
    | ok r =>
      obtain ⟨e1, u⟩ := r
      have hm1 : HeadingOnly e1.model := by rw [control_model hres]; exact model
      simp only [Res.map_eq_bind, Res.ok_bind]
      refine SameOutcome.bind (SameOutcome.of_map (path_move d e1 hm1 s.map_frame_id)) ?_
      rintro p _ rfl
      exact .ok ⟨⟨⟨rfl, rfl, fun _ => rfl, fun _ => rfl, hm1⟩, rfl⟩, hr, hp, fun _ => rfl⟩

theorem NodeMoved.avoid {s s' : Expl ℝ} (h : NodeMoved d s s') (hr : s.map_received = true)
    (hp : s.pose_known = true) (he : s.follow_dwa = false → s'.ec = moveControl d s.ec) :
    SameOutcome (ReactionMoved d) s.avoid s'.avoid := by
  obtain ⟨rest, ec, grid, pose, model⟩ := h
  have hg := grid hr
  have hx := pose hp
  rw [hg, hx] at rest
  generalize s'.ec = ec' at rest ec he
  subst rest
  unfold Expl.avoid
  dsimp only at hg hx ⊢
  rw [C110_validate]
  cases validateControl s.collision s.grid s.pose s.u s.val_dt s.val_horizon with
  | throw e => exact .throw e
  | ub => exact .ub
  | timeout => exact .timeout
  | ok v =>
    simp only [Res.ok_bind]
    split
    · exact .ok ⟨⟨rfl, ec, grid, pose, model⟩, rfl⟩
    · split
      · rw [(C110_window d s.dwa s.grid s.pose s.vb s.u [] 0).1]
        cases s.dwa.controlTwist s.grid s.pose s.vb s.u with
        | throw e => exact .throw e
        | ub => exact .ub
        | timeout => exact .timeout
        | ok r =>
          exact .ok ⟨⟨rfl, ec, grid, pose, model⟩, rfl⟩
      · rename_i hf
        have hec := he (by simpa using hf)
        rw [hec, optTraj_move d s.ec model]
        cases s.ec.optTraj with
        | throw e => exact .throw e
        | ub => exact .ub
        | timeout => exact .timeout
        | ok xt =>
          have et : (moveControl d s.ec).timeStep = s.ec.timeStep := rfl
          simp only [Res.map_eq_bind, Res.ok_bind, et]
          rw [(C110_window d s.dwa s.grid s.pose s.vb s.u xt s.ec.timeStep).2]
          cases s.dwa.controlTraj s.grid s.pose s.vb xt s.ec.timeStep with
          | throw e => exact .throw e
          | ub => exact .ub
          | timeout => exact .timeout
          | ok r =>
            simp only [Res.ok_bind]
            split
            · rw [constTwistPath_move]
              cases constTwistPath s.map_frame_id s.pose r.2 s.dwa.dt s.dwa.horizon with
              | throw e => exact .throw e
              | ub => exact .ub
              | timeout => exact .timeout
              | ok p =>
                exact .ok ⟨⟨rfl, rfl, grid, pose, model⟩, rfl⟩
            · exact .ok ⟨⟨rfl, rfl, grid, pose, model⟩, rfl⟩

theorem NodeMoved.iteration {s s' : Expl ℝ} (h : NodeMoved d s s') (tf : Option (TransformMsg ℝ)) (draws : List Nat) :
    SameOutcome (ReactionMoved d) (s.iteration tf draws)
      (s'.iteration (tf.map (TransformMsg.move d)) draws) := by
  have h1 := h.localize tf
  unfold Expl.iteration
  generalize s.localize tf = a at h1
  generalize s'.localize (tf.map (TransformMsg.move d)) = a' at h1
  have e1 : a'.map_received = a.map_received := by rw [h1.rest]
  have e2 : a'.pose_known = a.pose_known := by rw [h1.rest]
  dsimp only
  rw [e1, e2]
  by_cases hc : (a.map_received && a.pose_known) = true
  · rw [if_pos hc, if_pos hc]
    obtain ⟨hr, hp⟩ := Bool.and_eq_true_iff.mp hc
    have hr' : a.advanceDwa.map_received = true := by
      unfold Expl.advanceDwa; split <;> exact hr
    have hp' : a.advanceDwa.pose_known = true := by
      unfold Expl.advanceDwa; split <;> exact hp
    refine SameOutcome.bind (h1.advanceDwa.replan hr' hp' draws) ?_
    rintro ⟨b, o⟩ ⟨b', o'⟩ ⟨⟨hb, ho⟩, hr2, hp2, he⟩
    refine SameOutcome.bind (NodeMoved.avoid hb hr2 hp2 he) ?_
    rintro ⟨c, q⟩ ⟨c', q'⟩ ⟨hcm, hq⟩
    refine .ok ⟨hcm, ?_⟩
    dsimp only at ho hq hcm ⊢
    have hu : c'.u = c.u := by rw [hcm.rest]
    rw [ho, hq, hu, List.map_append, List.map_append]
    rfl
  · rw [if_neg hc, if_neg hc]
    exact .ok ⟨h1, rfl⟩

theorem NodeMoved.step {s s' : Expl ℝ} (h : NodeMoved d s s') (e : Event ℝ) :
    SameOutcome (ReactionMoved d) (s.step e) (s'.step (e.move d)) := by
  cases e with
  | map m =>
    obtain ⟨rest, ec, grid, pose, model⟩ := h
    refine .ok ⟨⟨?_, ec, fun _ => ?_, pose, model⟩, rfl⟩
    · simp only [Expl.mapCallback]
      rw [rest]
    · simp only [Expl.mapCallback]
      exact update_move d m
  | odom v =>
    obtain ⟨rest, ec, grid, pose, model⟩ := h
    refine .ok ⟨⟨?_, ec, grid, pose, model⟩, rfl⟩
    simp only [Expl.odomCallback]
    rw [rest]
  | tick tf draws => exact h.iteration tf draws

theorem NodeMoved.run {s s' : Expl ℝ} (h : NodeMoved d s s') (es : List (Event ℝ)) :
    SameOutcome (ReactionMoved d) (s.run es) (s'.run (es.map (Event.move d))) := by
  induction es generalizing s s' with
  | nil => exact .ok ⟨h, rfl⟩
  | cons e es ih =>
    refine SameOutcome.bind (h.step e) ?_
    rintro ⟨b, o⟩ ⟨b', o'⟩ ⟨hb, ho⟩
    refine SameOutcome.bind (ih hb) ?_
    rintro ⟨c, q⟩ ⟨c', q'⟩ ⟨hc, hq⟩
    refine .ok ⟨hc, ?_⟩
    dsimp only at ho hq ⊢
    rw [ho, hq, List.map_append]

theorem NodeMoved.node_run {n n' : Node ℝ} (hu : n'.up = n.up) (h : NodeMoved d n.expl n'.expl)
    (es : List (Event ℝ)) :
    SameOutcome (fun r r' => r'.2 = r.2.map (Out.move d)) (n.run es) (n'.run (es.map (Event.move d))) := by
  induction es generalizing n n' with
  | nil => exact .ok rfl
  | cons e es ih =>
    simp only [List.map_cons, Node.run]
    have hs : SameOutcome (fun r r' => r'.1.up = r.1.up ∧ NodeMoved d r.1.expl r'.1.expl ∧
        r'.2 = r.2.map (Out.move d)) (n.step e) (n'.step (e.move d)) := by
      unfold Node.step
      rw [hu]
      split
      · refine SameOutcome.bind (h.step e) ?_
        rintro ⟨b, o⟩ ⟨b', o'⟩ ⟨hb, ho⟩
        exact .ok ⟨rfl, hb, ho⟩
      · exact .ok ⟨hu, h, rfl⟩
    refine SameOutcome.bind hs ?_
    rintro ⟨b, o⟩ ⟨b', o'⟩ ⟨hub, hb, ho⟩
    refine SameOutcome.bind (ih hub hb) ?_
    rintro ⟨c, q⟩ ⟨c', q'⟩ hq
    refine .ok ?_
    dsimp only at ho hq ⊢
    rw [ho, hq, List.map_append]

theorem gaussians_move (d : V2 ℝ) (l : List (V2 ℝ × V2 ℝ)) :
    (l.map fun t => (t.1.move d, t.2)).mapM (fun t => Gaussian.new t.1 t.2) =
      List.map (Gaussian.move d) <$> l.mapM fun t => Gaussian.new t.1 t.2 := by
  induction l with
  | nil => rfl
  | cons t l ih =>
    have hn : Gaussian.new (t.1.move d) t.2 = Gaussian.move d <$> Gaussian.new t.1 t.2 := by
      unfold Gaussian.new
      dsimp only
      split <;> rfl
    rw [List.map_cons, List.mapM_cons, List.mapM_cons, ih, hn]
    cases Gaussian.new t.1 t.2 with
    | throw e => rfl
    | ub => rfl
    | timeout => rfl
    | ok g =>
      cases l.mapM fun t => Gaussian.new t.1 t.2 <;> rfl

theorem markers_move (d : V2 ℝ) (t : Target ℝ) (frame : String) :
    (t.move d).markers frame = (t.markers frame).map (Marker.move d) := by
  unfold Target.markers Target.move
  apply List.ext_getElem
  · simp
  · intro i h1 h2
    simp only [List.getElem_mapIdx, List.getElem_map]
    rfl

theorem start_moved (d : V2 ℝ) {ec : ErgodicControl ℝ} (hb : ec.buffer.memory = []) (hm : HeadingOnly ec.model)
    (c : Collision ℝ) (w : DynamicWindow ℝ) (t : Target ℝ) (frame : String) (val_dt val_horizon : ℝ) :
    ReactionMoved d (Expl.start ec c w t frame val_dt val_horizon)
      (Expl.start ec c w (t.move d) frame val_dt val_horizon) := by
  refine ⟨⟨rfl, ?_, fun h => absurd h (by simp [Expl.start]), fun h => absurd h (by simp [Expl.start]), hm⟩, ?_⟩
  · have : moveBuffer d ec.buffer = ec.buffer := by
      unfold moveBuffer
      rw [hb, List.map_nil, ← hb]
    unfold ControlMoved Expl.start ErgodicControl.setTarget
    dsimp only
    rw [this]
  · simp only [Expl.start, markers_move, List.map_cons, List.map_nil]
    rfl

theorem new_moved {m : TwistModel ℝ} {c : Collision ℝ} {dt horizon res w : ℝ} {a b n : Nat} {R : M3 ℝ}
    {lo hi : V3 ℝ} {ec : ErgodicControl ℝ} (h : ErgodicControl.new m c dt horizon res w a b n R lo hi = .ok ec) :
    ec.buffer.memory = [] ∧ ec.model = m := by
  unfold ErgodicControl.new at h
  obtain ⟨s, -, h⟩ := Res.bind_eq_ok.mp h
  split at h
  · exact nomatch h
  · cases h
    exact ⟨rfl, rfl⟩

/-- the two executables started in the two frames -/
def StartMoved (d : V2 ℝ) (r r' : Node ℝ × List (Out ℝ)) : Prop :=
  r'.1.up = r.1.up ∧ NodeMoved d r.1.expl r'.1.expl ∧ r'.2 = r.2.map (Out.move d)

theorem omni_moved (d : V2 ℝ) (p : Params ℝ) : SameOutcome (StartMoved d) (Node.omni p) (Node.omni (p.move d)) := by
  unfold Node.omni Params.move
  dsimp only
  rw [gaussians_move]
  refine SameOutcome.bind (.of_eq rfl) ?_
  rintro _ w0 rfl
  refine SameOutcome.bind (.of_eq rfl) ?_
  rintro _ w1 rfl
  refine SameOutcome.bind (.of_eq rfl) ?_
  rintro _ w2 rfl
  refine SameOutcome.bind (.of_map rfl) ?_
  rintro gs _ rfl
  refine SameOutcome.bind (.of_eq rfl) ?_
  rintro _ c rfl
  refine SameOutcome.bind' (.of_eq rfl) ?_
  rintro _ ec hec rfl
  refine SameOutcome.bind (.of_eq rfl) ?_
  rintro _ w rfl
  obtain ⟨hb, hm⟩ := new_moved hec
  have h := start_moved d hb (by rw [hm]; exact omni_heading) c w ⟨gs⟩ p.map_frame_id p.val_dt p.val_horizon
  exact .ok ⟨rfl, h.1, h.2⟩

theorem cart_moved (d : V2 ℝ) (p : Params ℝ) : SameOutcome (StartMoved d) (Node.cart p) (Node.cart (p.move d)) := by
  unfold Node.cart Params.move
  dsimp only
  rw [gaussians_move]
  refine SameOutcome.bind (.of_eq rfl) ?_
  rintro _ w0 rfl
  refine SameOutcome.bind (.of_eq rfl) ?_
  rintro _ w1 rfl
  refine SameOutcome.bind (.of_map rfl) ?_
  rintro gs _ rfl
  refine SameOutcome.bind (.of_eq rfl) ?_
  rintro _ c rfl
  refine SameOutcome.bind' (.of_eq rfl) ?_
  rintro _ ec hec rfl
  refine SameOutcome.bind (.of_eq rfl) ?_
  rintro _ w rfl
  obtain ⟨hb, hm⟩ := new_moved hec
  have h := start_moved d hb (by rw [hm]; exact cart_heading) c w ⟨gs⟩ p.map_frame_id p.val_dt p.val_horizon
  exact .ok ⟨rfl, h.1, h.2⟩

theorem session_moved {d : V2 ℝ} {start start' : Res (Node ℝ × List (Out ℝ))}
    (h : SameOutcome (StartMoved d) start start') (es : List (Event ℝ)) :
    session start' (es.map (Event.move d)) = List.map (Out.move d) <$> session start es := by
  cases h with
  | throw e => rfl
  | ub => rfl
  | timeout => rfl
  | ok h =>
    rename_i a b
    obtain ⟨n, o⟩ := a
    obtain ⟨n', o'⟩ := b
    obtain ⟨hu, hn, ho⟩ := h
    have := NodeMoved.node_run hu hn es
    dsimp only at ho this
    simp only [session, Res.ok_bind]
    generalize n.run es = x at this
    generalize n'.run (es.map (Event.move d)) = y at this
    cases this with
    | throw e => rfl
    | ub => rfl
    | timeout => rfl
    | ok h =>
      rename_i a b
      simp only [Res.ok_bind, Res.map_eq_bind, List.map_append, h, ho]

/-- C110: the omni robot's executable, started with a displaced target and fed the same history in the
displaced frame, ends in the same way and publishes the same messages in the displaced frame. -/
theorem C110_omni (d : V2 ℝ) (p : Params ℝ) (es : List (Event ℝ)) :
    session (Node.omni (p.move d)) (es.map (Event.move d)) = List.map (Out.move d) <$> session (Node.omni p) es :=
  session_moved (omni_moved d p) es

/-- C110: and the cart's. -/
theorem C110_cart (d : V2 ℝ) (p : Params ℝ) (es : List (Event ℝ)) :
    session (Node.cart (p.move d)) (es.map (Event.move d)) = List.map (Out.move d) <$> session (Node.cart p) es :=
  session_moved (cart_moved d p) es

theorem twists_move (d : V2 ℝ) (l : List (Out ℝ)) : twists (l.map (Out.move d)) = twists l := by
  unfold twists
  rw [List.filterMap_map]
  refine List.filterMap_congr ?_
  intro o _
  cases o <;> rfl

/-- C110: so the twists published are the same, one by one. -/
theorem C110_twists (d : V2 ℝ) (p : Params ℝ) (es : List (Event ℝ)) :
    twists <$> session (Node.omni (p.move d)) (es.map (Event.move d)) =
      twists <$> session (Node.omni p) es ∧
    twists <$> session (Node.cart (p.move d)) (es.map (Event.move d)) =
      twists <$> session (Node.cart p) es := by
  rw [C110_omni, C110_cart]
  constructor
  · cases session (Node.omni p) es with
    | ok o => exact congrArg Res.ok (twists_move d o)
    | throw e => rfl
    | ub => rfl
    | timeout => rfl
  · cases session (Node.cart p) es with
    | ok o => exact congrArg Res.ok (twists_move d o)
    | throw e => rfl
    | ub => rfl
    | timeout => rfl

/-- A history in which the cart publishes a planned path, a path of the dynamic window and the twist
`(0, 1, 0)`; it publishes that twist wherever the origin is. -/
example : ∃ (p : Params ℝ) (es : List (Event ℝ)), ∀ d, ∃ out,
    session (Node.cart (p.move d)) (es.map (Event.move d)) = .ok out ∧ ⟨0, 1, 0⟩ ∈ twists out := by
  obtain ⟨p, n, n', o, out, es, -, hn, hr, hu⟩ := C70_refuted_cart
  refine ⟨p, es, fun d => ⟨(o ++ out).map (Out.move d), ?_, ?_⟩⟩
  · rw [C110_cart, session, hn, Res.ok_bind, hr]
    rfl
  · rw [twists_move]
    simp only [twists, List.filterMap_append, List.mem_append]
    exact Or.inr hu

/-- The same for the omni-directional robot. -/
example : ∃ (p : Params ℝ) (es : List (Event ℝ)), ∀ d, ∃ out,
    session (Node.omni (p.move d)) (es.map (Event.move d)) = .ok out ∧ twists out ≠ [] := by
  obtain ⟨p, n, n', o, out, es, -, hn, hr, u, hu, -⟩ := C70_refuted_omni
  refine ⟨p, es, fun d => ⟨(o ++ out).map (Out.move d), ?_, ?_⟩⟩
  · rw [C110_omni, session, hn, Res.ok_bind, hr]
    rfl
  · rw [twists_move]
    have : u ∈ twists (o ++ out) := by
      simp only [twists, List.filterMap_append, List.mem_append]
      exact Or.inr hu
    exact List.ne_nil_of_mem this

end Ergodic
