import Verif.Spec.ErgodicControl
import Verif.Props.Buffer
import Verif.Props.Basis
import Verif.Props.Integrator
import Verif.Spec.DynamicWindow

/-! # What a successful call of `control` has done -/

namespace Ergodic
namespace ErgodicControl
variable {F : Type} [Flt F]

/-- Result of `configTarget`: only the map position, the basis lengths and the coefficients
change; either the size is the cached one and the coefficients stay, or everything is
recomputed. -/
theorem configTarget_ok {e ec : ErgodicControl F} {g : GridMap F} (h : e.configTarget g = .ok ec) :
    (almostEqual (g.xmax -. g.xmin) e.basis.lx = true ∧ almostEqual (g.ymax -. g.ymin) e.basis.ly = true ∧
      ec = { e with map_pos := ⟨g.xmin, g.ymin⟩ }) ∨
    (¬ (almostEqual (g.xmax -. g.xmin) e.basis.lx = true ∧
        almostEqual (g.ymax -. g.ymin) e.basis.ly = true) ∧
      ∃ grid phik, phiGrid (g.xmax -. g.xmin) (g.ymax -. g.ymin) e.resolution = .ok grid ∧
        ({ e.basis with lx := g.xmax -. g.xmin, ly := g.ymax -. g.ymin } : Basis F).spatialCoeff
          (e.target.fill ⟨g.xmin, g.ymin⟩ grid) grid = .ok phik ∧
        ec = { e with
          map_pos := ⟨g.xmin, g.ymin⟩,
          basis := { e.basis with lx := g.xmax -. g.xmin, ly := g.ymax -. g.ymin },
          phik := phik }) := by
  unfold configTarget at h
  dsimp only at h
  split at h
  · rename_i hc
    rw [Bool.and_eq_true] at hc
    exact Or.inl ⟨hc.1, hc.2, by simpa using h.symm⟩
  · rename_i hc
    rw [Bool.and_eq_true] at hc
    simp only [Res.bind_eq_ok, Res.ok.injEq] at h
    obtain ⟨grid, hg, phik, hp, rfl⟩ := h
    exact Or.inr ⟨hc, grid, phik, hg, hp, rfl⟩

theorem configTarget_frame {e ec : ErgodicControl F} {g : GridMap F} (h : e.configTarget g = .ok ec) :
    ∃ lx ly phik, ec = { e with
      map_pos := ⟨g.xmin, g.ymin⟩, basis := { e.basis with lx := lx, ly := ly }, phik := phik } := by
  rcases configTarget_ok h with ⟨-, -, rfl⟩ | ⟨-, grid, phik, -, -, rfl⟩
  · exact ⟨e.basis.lx, e.basis.ly, e.phik, rfl⟩
  · exact ⟨_, _, phik, rfl⟩

theorem shift_ok {ut ut' : List (V3 F)} (h : shift ut = .ok ut') :
    2 ≤ ut.length ∧ ut' = ut.drop 1 ++ [V3.zero] := by
  unfold shift at h
  split at h
  · simp at h
  · exact ⟨by omega, by simpa using h.symm⟩

theorem updateLoop_ok (e : ErgodicControl F) : ∀ (xs rs us : List (V3 F)),
    e.updateLoop xs rs = .ok us → us.length = xs.length ∧ xs.length ≤ rs.length ∧
      ∀ (i : Nat) (x r : V3 F), xs[i]? = some x → rs[i]? = some r →
        ∃ u, us[i]? = some u ∧ e.newControl x r = .ok u := by
  intro xs
  induction xs with
  | nil => intro rs us h; simp only [updateLoop, Res.ok.injEq] at h; subst h; simp
  | cons x xs ih =>
    intro rs us h
    cases rs with
    | nil => simp [updateLoop] at h
    | cons r rs =>
      simp only [updateLoop, Res.bind_eq_ok, Res.ok.injEq] at h
      obtain ⟨u, hu, rest, hr, rfl⟩ := h
      obtain ⟨h1, h2, h3⟩ := ih rs rest hr
      refine ⟨by simp [h1], by simp [h2], ?_⟩
      intro i y s hy hs
      cases i with
      | zero =>
        simp only [List.getElem?_cons_zero, Option.some.injEq] at hy hs
        subst hy hs
        exact ⟨u, rfl, hu⟩
      | succ i =>
        simp only [List.getElem?_cons_succ] at hy hs ⊢
        exact h3 i y s hy hs

theorem sampleMemory_ok {V : Type} {b : ReplayBuffer V} {draws : List Nat} {xt total : List V}
    (h : b.sampleMemory draws xt = .ok total) : ∃ pre, total = pre ++ xt := by
  unfold ReplayBuffer.sampleMemory at h
  split at h
  · exact ⟨[], by simpa using h.symm⟩
  · split at h
    · simp only [Res.bind_eq_ok, ReplayBuffer.concatCols] at h
      obtain ⟨pre, -, hc⟩ := h
      split at hc
      · simp at hc
      · exact ⟨pre, by simpa using hc.symm⟩
    · simp only [Res.bind_eq_ok, ReplayBuffer.concatCols] at h
      obtain ⟨pre, -, hc⟩ := h
      split at hc
      · simp at hc
      · exact ⟨pre, by simpa using hc.symm⟩

/-- Everything a successful `control` has done, given that `steps_` is the number of steps of
the horizon (true of every constructed object). -/
theorem control_ok {e e' : ErgodicControl F} {g : GridMap F} {x u : V3 F} {draws : List Nat}
    (hs : numSteps e.horizon e.dt = .ok e.steps) (h : e.control g x draws = .ok (e', u)) :
    ∃ ec traj pre rhot us,
      configTarget { e with pose := x } g = .ok ec ∧ 2 ≤ e.ut.length ∧
      RungeKutta.solve e.dt e.model.f x (e.ut.drop 1 ++ [V3.zero]) e.horizon = .ok traj ∧
      e.buffer.sampleMemory draws traj = .ok (pre ++ traj) ∧
      traj.length = e.steps.toNat ∧
      RungeKutta.solveBack e.dt rhodot e.model.fdx e.rhoT (traj.map (relTo g))
        (e.ut.drop 1 ++ [V3.zero])
        (ec.gradErgodicMetric (ec.basis.trajCoeff ((pre ++ traj).map (relTo g))) (traj.map (relTo g)))
        (ec.gradBarrier (traj.map (relTo g))) e.horizon = .ok rhot ∧
      e' = { ec with ut := us } ∧
      us.length = traj.length ∧ rhot.length = traj.length ∧ us[0]? = some u ∧
      (∀ (i : Nat) (y r : V3 F), (traj.map (relTo g))[i]? = some y → rhot[i]? = some r →
        ∃ v, us[i]? = some v ∧ e.newControl y r = .ok v) := by
  unfold control at h
  simp only [Res.bind_eq_ok] at h
  obtain ⟨ec, hc, ut, hsh, traj, ht, total, hm, h⟩ := h
  obtain ⟨lx, ly, phik, hf⟩ := configTarget_frame hc
  obtain ⟨h2, rfl⟩ := shift_ok hsh
  obtain ⟨pre, rfl⟩ := sampleMemory_ok hm
  have e1 : ec.ut = e.ut := by rw [hf]
  have e2 : ec.dt = e.dt := by rw [hf]
  have e3 : ec.horizon = e.horizon := by rw [hf]
  have e4 : ec.model = e.model := by rw [hf]
  have e5 : ec.pose = x := by rw [hf]
  have e6 : ec.steps = e.steps := by rw [hf]
  have e7 : ec.rhoT = e.rhoT := by rw [hf]
  have e8 : ec.map_pos = ⟨g.xmin, g.ymin⟩ := by rw [hf]
  have e9 : ec.buffer = e.buffer := by rw [hf]
  rw [e1, e2, e3, e4, e5] at ht
  rw [e1] at h2
  rw [e9] at hm
  obtain ⟨n, hn, hl, -⟩ := C51_structure e.dt e.horizon _ _ _ _ ht
  rw [hs, Res.ok.injEq] at hn
  subst hn
  have hrel : toFourier ec.map_pos = relTo g := by rw [e8]; rfl
  split at h
  · simp at h
  · simp only [Res.bind_eq_ok] at h
    obtain ⟨rhot, hr, us, hu, u', hcol, h⟩ := h
    have hdrop : ((pre ++ traj).map (toFourier ec.map_pos)).drop
        (((pre ++ traj).map (toFourier ec.map_pos)).length - ec.steps.toNat) = traj.map (relTo g) := by
      rw [hrel, e6, List.map_append, List.length_append, List.length_map, List.length_map, hl,
        Nat.add_sub_cancel]
      exact List.drop_left' (by simp)
    simp only [hdrop] at hr hu
    rw [hrel] at hr
    rw [e1, e2, e3, e4, e7] at hr
    obtain ⟨n', hn', hl', -⟩ := C52_structure _ _ _ _ _ _ _ _ _ _ hr
    rw [hs, Res.ok.injEq] at hn'
    subst hn'
    obtain ⟨hul, -, hui⟩ := updateLoop_ok _ _ _ _ hu
    rw [List.length_map] at hul
    simp only [Res.ok.injEq, Prod.mk.injEq] at h
    obtain ⟨rfl, rfl⟩ := h
    have hnc : ∀ y r : V3 F, newControl { ec with ut := ec.ut.drop 1 ++ [V3.zero] } y r = e.newControl y r := by
      intro y r; rw [hf]; rfl
    refine ⟨ec, traj, pre, rhot, us, hc, h2, ht, hm, hl, ?_, rfl, hul, by rw [hl', hl],
      col_eq_ok.mp hcol, ?_⟩
    · exact hr
    · intro i y r hy hri
      obtain ⟨v, hv, hv'⟩ := hui i y r hy hri
      exact ⟨v, hv, by rw [← hnc]; exact hv'⟩

end ErgodicControl
end Ergodic

namespace Ergodic
variable {F : Type} [Flt F]

/-- what is true of every object reached from a constructor call -/
structure EcInv (model : TwistModel F) (dt horizon resolution weight : F)
    (num_basis buffer_size batch_size : Nat) (Rinv : M3 F) (umin umax : V3 F)
    (e : ErgodicControl F) : Prop where
  model_eq : e.model = model
  dt_eq : e.dt = dt
  horizon_eq : e.horizon = horizon
  resolution_eq : e.resolution = resolution
  weight_eq : e.expl_weight = weight
  Rinv_eq : e.Rinv = Rinv
  umin_eq : e.umin = umin
  umax_eq : e.umax = umax
  rhoT_eq : e.rhoT = V3.zero
  steps_eq : numSteps horizon dt = .ok e.steps
  steps_ne : e.steps ≠ 1
  ut_length : e.ut.length = e.steps.toNat
  basis_eq : ∃ lx ly, e.basis = Basis.new lx ly num_basis
  phik_length : e.phik.length = num_basis * num_basis
  buffer_eq : ∃ history, e.buffer = bufferAfter buffer_size batch_size history

theorem spatialCoeff_length {b : Basis F} {vals : List F} {grid : List (V2 F)} {c : List F}
    (h : b.spatialCoeff vals grid = .ok c) : c.length = b.k.length := by
  unfold Basis.spatialCoeff at h
  split at h
  · simp at h
  · simp only [Res.ok.injEq] at h; rw [← h, List.length_map]

theorem EcBuilt.inv {model : TwistModel F} {collision : Collision F}
    {dt horizon resolution weight : F} {num_basis buffer_size batch_size : Nat} {Rinv : M3 F}
    {umin umax : V3 F} {e : ErgodicControl F}
    (h : EcBuilt model collision dt horizon resolution weight num_basis buffer_size batch_size Rinv
      umin umax e) :
    EcInv model dt horizon resolution weight num_basis buffer_size batch_size Rinv umin umax e := by
  obtain ⟨e0, h0, hr⟩ := h
  induction hr with
  | start =>
    simp only [ErgodicControl.new, Res.bind_eq_ok] at h0
    obtain ⟨steps, hs, h0⟩ := h0
    split at h0
    · simp at h0
    · rename_i hne
      simp only [Res.ok.injEq] at h0
      subst h0
      exact ⟨rfl, rfl, rfl, rfl, rfl, rfl, rfl, rfl, rfl, hs, hne, by simp, ⟨_, _, rfl⟩, by simp,
        ⟨[], rfl⟩⟩
  | @control e e' u g x draws _ hc ih =>
    have hsteps : numSteps e.horizon e.dt = .ok e.steps := by
      rw [ih.horizon_eq, ih.dt_eq]; exact ih.steps_eq
    obtain ⟨ec, traj, pre, rhot, us, hcfg, -, -, -, htl, -, rfl, hul, -, -, -⟩ :=
      ErgodicControl.control_ok hsteps hc
    obtain ⟨lx', ly', hb⟩ := ih.basis_eq
    rcases ErgodicControl.configTarget_ok hcfg with ⟨-, -, hec⟩ | ⟨-, grid, phik, -, hp, hec⟩
    · rw [hec]
      exact ⟨ih.model_eq, ih.dt_eq, ih.horizon_eq, ih.resolution_eq, ih.weight_eq, ih.Rinv_eq,
        ih.umin_eq, ih.umax_eq, ih.rhoT_eq, ih.steps_eq, ih.steps_ne, by simpa [hul] using htl,
        ih.basis_eq, ih.phik_length, ih.buffer_eq⟩
    · have hp' := spatialCoeff_length hp
      rw [hec]
      refine ⟨ih.model_eq, ih.dt_eq, ih.horizon_eq, ih.resolution_eq, ih.weight_eq, ih.Rinv_eq,
        ih.umin_eq, ih.umax_eq, ih.rhoT_eq, ih.steps_eq, ih.steps_ne, by simpa [hul] using htl,
        ⟨g.xmax -. g.xmin, g.ymax -. g.ymin, ?_⟩, ?_, ih.buffer_eq⟩
      · dsimp only; rw [hb]; rfl
      · rw [show (({ e with pose := x } : ErgodicControl F)).basis = e.basis from rfl, hb] at hp'
        dsimp only at hp' ⊢
        rw [hp']
        exact (C39_enumeration F lx' ly' num_basis).1
  | addStateMemory x _ ih =>
    obtain ⟨hist, hb⟩ := ih.buffer_eq
    refine ⟨ih.model_eq, ih.dt_eq, ih.horizon_eq, ih.resolution_eq, ih.weight_eq, ih.Rinv_eq,
      ih.umin_eq, ih.umax_eq, ih.rhoT_eq, ih.steps_eq, ih.steps_ne, ih.ut_length, ih.basis_eq,
      ih.phik_length, ⟨hist ++ [x], ?_⟩⟩
    simp only [ErgodicControl.addStateMemory, hb, bufferAfter, List.foldl_append, List.foldl_cons,
      List.foldl_nil]
  | setTarget t _ ih =>
    exact ⟨ih.model_eq, ih.dt_eq, ih.horizon_eq, ih.resolution_eq, ih.weight_eq, ih.Rinv_eq,
      ih.umin_eq, ih.umax_eq, ih.rhoT_eq, ih.steps_eq, ih.steps_ne, ih.ut_length, ih.basis_eq,
      ih.phik_length, ih.buffer_eq⟩

theorem EcInv.steps {model : TwistModel F} {dt horizon resolution weight : F}
    {num_basis buffer_size batch_size : Nat} {Rinv : M3 F} {umin umax : V3 F} {e : ErgodicControl F}
    (h : EcInv model dt horizon resolution weight num_basis buffer_size batch_size Rinv umin umax e) :
    numSteps e.horizon e.dt = .ok e.steps := by
  rw [h.horizon_eq, h.dt_eq]; exact h.steps_eq

theorem EcBuilt.control {model : TwistModel F} {collision : Collision F}
    {dt horizon resolution weight : F} {num_basis buffer_size batch_size : Nat} {Rinv : M3 F}
    {umin umax : V3 F} {e e' : ErgodicControl F} {g : GridMap F} {x u : V3 F} {draws : List Nat}
    (h : EcBuilt model collision dt horizon resolution weight num_basis buffer_size batch_size Rinv
      umin umax e) (hc : e.control g x draws = .ok (e', u)) :
    EcBuilt model collision dt horizon resolution weight num_basis buffer_size batch_size Rinv
      umin umax e' := by
  obtain ⟨e0, h0, hr⟩ := h
  exact ⟨e0, h0, .control g x draws hr hc⟩

theorem solveLoop_rollout (dt : F) (f : V3 F → V3 F → Res (V3 F)) (ut : List (V3 F)) :
    ∀ (n i : Nat) (x : V3 F) (xs : List (V3 F)), i + n = ut.length →
      RungeKutta.solveLoop dt f ut n i x = .ok xs → Rollout dt f x (ut.drop i) xs := by
  intro n
  induction n with
  | zero =>
    intro i x xs hi h
    simp only [RungeKutta.solveLoop, Res.ok.injEq] at h
    subst h
    rw [List.drop_eq_nil_of_le (by omega)]
    exact .nil x
  | succ n ih =>
    intro i x xs hi h
    simp only [RungeKutta.solveLoop, Res.bind_eq_ok, Res.ok.injEq] at h
    obtain ⟨u, hu, y, hy, rest, hr, rfl⟩ := h
    rw [col_eq_ok] at hu
    have hlt : i < ut.length := by omega
    rw [List.getElem?_eq_getElem hlt, Option.some.injEq] at hu
    rw [List.drop_eq_getElem_cons hlt, hu]
    exact .cons hy (ih (i + 1) _ rest (by omega) hr)

theorem solve_rollout {dt horizon : F} {f : V3 F → V3 F → Res (V3 F)} {x : V3 F}
    {ut xs : List (V3 F)} {n : UInt32} (hn : numSteps horizon dt = .ok n) (hl : ut.length = n.toNat)
    (h : RungeKutta.solve dt f x ut horizon = .ok xs) : Rollout dt f x ut xs := by
  simp only [RungeKutta.solve, hn, Res.ok_bind] at h
  simpa using solveLoop_rollout dt f ut n.toNat 0 x xs (by omega) h

theorem Rollout.length {dt : F} {f : V3 F → V3 F → Res (V3 F)} {x : V3 F} {us xs : List (V3 F)}
    (h : Rollout dt f x us xs) : xs.length = us.length := by
  induction h with
  | nil => rfl
  | cons _ _ ih => simp [ih]

/-- a rollout is determined by its start and controls -/
theorem Rollout.unique {dt : F} {f : V3 F → V3 F → Res (V3 F)} {x : V3 F} {us xs xs' : List (V3 F)}
    (h : Rollout dt f x us xs) (h' : Rollout dt f x us xs') : xs = xs' := by
  induction h generalizing xs' with
  | nil => cases h'; rfl
  | cons hy _ ih =>
    cases h' with
    | cons hy' ht' =>
      rw [hy, Res.ok.injEq] at hy'
      subst hy'
      rw [ih ht']

end Ergodic
