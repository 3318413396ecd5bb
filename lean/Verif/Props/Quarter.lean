import Verif.Props.ExchangeRun
import Verif.Props.MirrorCases
import Verif.Spec.Quarter

/-!
# Property C133: a quarter turn

A quarter turn flips the second axis and then exchanges the axes.  Exact arithmetic.
-/

namespace Ergodic
namespace Quarter

/-- the second axis flipped -/
noncomputable def flip (a b : ℝ) : Mirror := ⟨false, true, b, a⟩

theorem Alike_trans {α β γ : Type} {R : α → β → Prop} {S : β → γ → Prop} {x : Res α} {y : Res β} {z : Res γ}
    (h : Alike R x y) (k : Alike S y z) : Alike (fun p q => ∃ r, R p r ∧ S r q) x z := by
  cases x <;> cases y <;> cases z <;> first
    | exact ⟨_, h, k⟩
    | exact Eq.trans h k
    | exact h.elim
    | exact k.elim
    | trivial

theorem target_turn (a b : ℝ) (t : Target ℝ) : Exchange.target ((flip a b).target t) = target a b t := by
  simp only [Exchange.target, Mirror.target, target, List.map_map]
  congr 2
  funext g
  simp [Exchange.gaussian, Exchange.point, Exchange.square, Mirror.gaussian, Mirror.point, gaussian, flip, Mirror.sx,
    Mirror.sy, Mirror.turn, sub_eq_add_neg]

theorem twist_turn (a b : ℝ) (u : V3 ℝ) : Exchange.twist ((flip a b).twist u) = u := by
  simp [Exchange.twist, Mirror.twist, flip, Mirror.turn, Mirror.sx, Mirror.sy]

theorem remember_flip {m : Mirror} {e e' : ErgodicControl ℝ} (h : m.Controllers e e') {x x' : V3 ℝ} (hx : m.Poses x x') :
    m.Controllers (e.addStateMemory x) (e'.addStateMemory x') :=
  { h with
    buffer_size := by
      show (ReplayBuffer.append _ _).buffer_size = (ReplayBuffer.append _ _).buffer_size
      unfold ReplayBuffer.append
      split <;> split <;> exact h.buffer_size
    batch_size := by
      show (ReplayBuffer.append _ _).batch_size = (ReplayBuffer.append _ _).batch_size
      unfold ReplayBuffer.append
      split <;> split <;> exact h.batch_size
    memory := Mirror.append_mirror h.buffer_size h.memory hx }

theorem remember_exchange {e e' : ErgodicControl ℝ} (h : Exchange.Controllers e e') {x x' : V3 ℝ}
    (hx : Exchange.Poses x x') : Exchange.Controllers (e.addStateMemory x) (e'.addStateMemory x') :=
  { h with
    buffer_size := by
      show (ReplayBuffer.append _ _).buffer_size = (ReplayBuffer.append _ _).buffer_size
      unfold ReplayBuffer.append
      split <;> split <;> exact h.buffer_size
    batch_size := by
      show (ReplayBuffer.append _ _).batch_size = (ReplayBuffer.append _ _).batch_size
      unfold ReplayBuffer.append
      split <;> split <;> exact h.batch_size
    memory := Exchange.append_exchange h.buffer_size h.memory hx }

theorem plans_turn {a b : ℝ} {ps qs : List Moment} (h : List.Forall₂ (Moments a b) ps qs) :
    ∀ {e e' e'' : ErgodicControl ℝ}, (flip a b).Controllers e e' → Exchange.Controllers e' e'' → Exchange.Fair e →
      (e.model = omniModel ∨ e.model = cartModel) → Suited e ps →
      Alike (fun us vs => vs = us) (plans e ps) (plans e'' qs) := by
  induction h with
  | nil => intro e e' e'' _ _ _ _ _; exact rfl
  | @cons p q ps qs hpq _ ih =>
    intro e e' e'' hm hx hf hM hs
    obtain ⟨s1, s2, s3, s4, s5⟩ := hs
    obtain ⟨g, x, ds⟩ := p
    obtain ⟨g'', x'', ds''⟩ := q
    obtain ⟨m1, m2, m3, m4, m5, m6, m7, rfl⟩ := hpq
    dsimp only at m1 m2 m3 m4 m5 m6 m7 s1 s2 s3 s4 s5
    let g' : GridMap ℝ :=
      { g with xmin := b + g.xmin, xmax := b + g.xmax, ymin := a - g.ymax, ymax := a - g.ymin }
    let x' : V3 ℝ := ⟨b + x.c0, a - x.c1, -x.c2⟩
    have px : (flip a b).Poses x x' := by
      simp [Mirror.Poses, flip, Mirror.sx, Mirror.sy, x', sub_eq_add_neg]
    have pe : Exchange.Poses x' x'' := by
      refine ⟨m5, m6, ?_, ?_⟩
      · rw [m7, Real.cos_add_pi_div_two, Real.sin_neg]
      · rw [m7, Real.sin_add_pi_div_two, Real.cos_neg]
    have ge : (flip a b).Extent g g' := ⟨rfl, rfl, rfl, rfl⟩
    have gx : Exchange.Extent g' g'' := ⟨m1, m2, m3, m4⟩
    have c1 := C132_control (flip a b) (remember_flip hm px) (.inr hf) hM ge
      ⟨s1, s2, fun h => (by cases h), fun _ => s3, s4⟩ px ds''
    have hf' : Exchange.Fair (e'.addStateMemory x') := by
      have : Exchange.Fair e' := by
        unfold Exchange.Fair
        rw [hm.umin, hm.umax, hm.Rinv]
        exact hf
      exact this
    have c2 := C133_control (remember_exchange hx pe) hf'
      (show e'.model = omniModel ∨ e'.model = cartModel by rw [hm.model]; exact hM) gx pe ds''
    have c := Alike_trans c1 c2
    show Alike _ ((e.addStateMemory x).control g x ds'' >>= _) ((e''.addStateMemory x'').control g'' x'' ds'' >>= _)
    generalize hr : (e.addStateMemory x).control g x ds'' = r at c
    cases r with
    | ok r =>
      obtain ⟨r'', hr'', r', ⟨k1, k2, -, k3, k4⟩, l1, l2, -, -, -⟩ := c.result rfl
      rw [hr'']
      have hf2 : Exchange.Fair r.1 := by
        rcases k3 with k3 | k3
        · cases k3
        · exact k3
      have k4' : r.1.model = e.model := k4
      have := ih k2 l2 hf2 (by rw [k4']; exact hM) (s5 r hr)
      rw [Res.ok_bind, Res.ok_bind]
      refine Alike.bind this ?_
      intro us vs huv
      show r''.2 :: vs = r.2 :: us
      rw [l1, k1, twist_turn, huv]
    | throw er =>
      revert c
      cases (e''.addStateMemory x'').control g'' x'' ds'' <;> intro c <;> first | exact c | exact c.elim
    | ub =>
      revert c
      cases (e''.addStateMemory x'').control g'' x'' ds'' <;> intro c <;> first | exact c | exact c.elim
    | timeout =>
      revert c
      cases (e''.addStateMemory x'').control g'' x'' ds'' <;> intro c <;> first | exact c | exact c.elim

end Quarter

/-- C133: turn the map, the target and the poses by a quarter and displace them, and a fresh controller plans the same
twists, one by one, or fails in the same way. -/
theorem C133_quarter {M : TwistModel ℝ} {c : Collision ℝ} {dt H res w : ℝ} {nb bs bt : Nat} {R : M3 ℝ}
    {lo hi : V3 ℝ} {e : ErgodicControl ℝ} (h : ErgodicControl.new M c dt H res w nb bs bt R lo hi = .ok e)
    (hf : Exchange.Fair e) (hM : e.model = omniModel ∨ e.model = cartModel) (t : Target ℝ) (a b : ℝ)
    {ps qs : List Quarter.Moment} (hp : List.Forall₂ (Quarter.Moments a b) ps qs) (hs : Quarter.Suited (e.setTarget t) ps) :
    Alike (fun us vs => vs = us) (Quarter.plans (e.setTarget t) ps)
      (Quarter.plans (e.setTarget (Quarter.target a b t)) qs) := by
  have h1 := C132_fresh (Quarter.flip a b) h t
  have h2 := C133_fresh h ((Quarter.flip a b).target t)
  rw [Quarter.target_turn] at h2
  exact Quarter.plans_turn hp h1 h2 hf hM hs

/-- The hypotheses of `C133_quarter` are met: a gallery 300 metres long becomes one 300 metres high. -/
example (t : Target ℝ) (draws : List Nat) (g g' : GridMap ℝ) (hx : g.xmin = 0 ∧ g.xmax = 300)
    (hy : g.ymin = 0 ∧ g.ymax = 100) (hx' : g'.xmin = 0 ∧ g'.xmax = 100) (hy' : g'.ymin = 0 ∧ g'.ymax = 300) :
    ∃ e, ErgodicControl.new omniModel galleryDetector 1 3 1 1 2 5 5 ⟨⟨1, 0, 0⟩, ⟨0, 1, 0⟩, ⟨0, 0, 1⟩⟩ ⟨-1, -1, 0⟩ ⟨1, 1, 0⟩ =
      .ok e ∧ Exchange.Fair e ∧ e.model = omniModel ∧
      List.Forall₂ (Quarter.Moments 100 0) [(g, ⟨10, 20, 0⟩, draws)] [(g', ⟨80, 10, Real.pi / 2⟩, draws)] ∧
      Quarter.Suited (e.setTarget t) [(g, ⟨10, 20, 0⟩, draws)] := by
  have hn : numSteps (3 : ℝ) 1 = .ok 3 := by
    unfold numSteps
    rw [show fabs (3 /. (1 : ℝ)) = 3 by simp [fabs, real_div]]
    exact castU32_real_of (n := 3) (by norm_num) (by norm_num) (by norm_num)
  have hnew : ∃ e, ErgodicControl.new omniModel galleryDetector (1 : ℝ) 3 1 1 2 5 5 ⟨⟨1, 0, 0⟩, ⟨0, 1, 0⟩, ⟨0, 0, 1⟩⟩
      ⟨-1, -1, 0⟩ ⟨1, 1, 0⟩ = .ok e ∧ e.model = omniModel ∧ Exchange.Fair e ∧ e.basis.lx = 0 ∧ e.resolution = 1 := by
    simp only [ErgodicControl.new, hn, Res.ok_bind]
    rw [if_neg (by decide)]
    refine ⟨_, rfl, rfl, ?_, by simp [Basis.new, real_lit], rfl⟩
    norm_num [Exchange.Fair]
  obtain ⟨e, he, hm, hf, hlx, hres⟩ := hnew
  refine ⟨e, he, hf, hm, .cons ⟨?_, ?_, ?_, ?_, ?_, ?_, ?_, rfl⟩ .nil, ?_, ?_, ⟨100, ?_⟩, fun h => ?_, fun _ _ => trivial⟩
  all_goals simp only [hx.1, hx.2, hy.1, hy.2, hx'.1, hx'.2, hy'.1, hy'.2]
  any_goals norm_num
  · exact hres
  · exfalso
    simp only [hx.1, hx.2] at h
    have h : almostEqual ((300 : ℝ) - 0) e.basis.lx = true := h
    rw [hlx, real_almostEqual_eps] at h
    norm_num at h

end Ergodic
