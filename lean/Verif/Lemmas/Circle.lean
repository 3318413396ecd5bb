import Verif.Spec.Collision
import Mathlib.Tactic.Linarith
import Mathlib.Tactic.Ring
import Mathlib.Algebra.Order.Group.Unbundled.Int
import Mathlib.Data.Nat.Sqrt

/-!
# The circle sweep as a list of offsets

`walk` is the sequence of `(x, y)` pairs at which `bresenhamCircle` tests cells, without
the tests.
-/

namespace Ergodic

/-- One step of the loop variables of `bresenhamCircle` (collision.cpp:197-208). -/
def circleStep (x y err : Int) : Int × Int × Int :=
  let (y', err') := if err ≤ y then (y + 1, err + (2 * (y + 1) + 1)) else (y, err)
  let (x', err'') := if err > x ∨ err' > y' then (x + 1, err' + (2 * (x + 1) + 1)) else (x, err')
  (x', y', err'')

/-- The visited `(x, y)` pairs. -/
def walk : Nat → Int → Int → Int → List (Int × Int)
  | 0, _, _, _ => []
  | fuel + 1, x, y, err =>
    if x < 0 then
      (x, y) :: walk fuel (circleStep x y err).1 (circleStep x y err).2.1 (circleStep x y err).2.2
    else []

/-- The four offsets tested at `(x, y)`. -/
def quad (p : Int × Int) : List (Int × Int) :=
  [(-p.1, p.2), (-p.2, -p.1), (p.1, -p.2), (p.2, p.1)]

/-- The offsets tested by `bresenhamCircle` with radius `r`, in order. -/
def ring (r : Int) : List (Int × Int) :=
  (walk (2 * r.toNat + 2) (-r) 0 (2 - 2 * r)).flatMap quad

/-- The values the loop variables `(x, y, err)` of `bresenhamCircle(r)` take at the loop test. -/
inductive CircleReach (r : Int) : Int → Int → Int → Prop
  | start : CircleReach r (-r) 0 (2 - 2 * r)
  | step {x y err : Int} : CircleReach r x y err → x < 0 →
      CircleReach r (circleStep x y err).1 (circleStep x y err).2.1 (circleStep x y err).2.2

/-- Position reached on the circle: `a = -x`, `e = x² + y² - r²`. -/
structure CircleInv (r x y err : Int) : Prop where
  r0 : 1 ≤ r
  err : err = (x + 1) * (x + 1) + (y + 1) * (y + 1) - r * r
  x0 : x ≤ 0
  y0 : 0 ≤ y
  near : (y ≤ -x ∧ x * x + x < r * r - y * y ∧ r * r - y * y ≤ x * x - x ∧
            (y = -x → r * r ≠ 2 * (x * x) + x + 1)) ∨
         (-x < y ∧ y * y - y < r * r - x * x ∧ r * r - x * x ≤ y * y + y)

theorem circleInv_start {r : Int} (hr : 1 ≤ r) : CircleInv r (-r) 0 (2 - 2 * r) where
  r0 := hr
  err := by ring
  x0 := by omega
  y0 := le_refl _
  near := Or.inl ⟨by omega, by nlinarith, by nlinarith, by intro h; omega⟩

/-- While the loop runs below the diagonal `y` grows; afterwards `x` grows. -/
theorem circleStep_lower {r x y err : Int} (h : CircleInv r x y err) (hlt : y < -x) :
    circleStep x y err =
      if x * x + (y + 1) * (y + 1) - r * r < -x ∧ y + 1 < -x then
        (x, y + 1, err + (2 * (y + 1) + 1))
      else (x + 1, y + 1, err + (2 * (y + 1) + 1) + (2 * (x + 1) + 1)) := by
  obtain ⟨hr, he, hx, hy, hn⟩ := h
  have hn' : x * x + x < r * r - y * y ∧ r * r - y * y ≤ x * x - x := by
    rcases hn with ⟨-, a, b, -⟩ | ⟨c, -, -⟩
    · exact ⟨a, b⟩
    · omega
  have h1 : err ≤ y := by rw [he]; nlinarith
  simp only [circleStep, if_pos h1]
  by_cases h2 : x * x + (y + 1) * (y + 1) - r * r < -x ∧ y + 1 < -x
  · rw [if_pos h2, if_neg]
    rw [not_or]
    have := h2.1; have := h2.2
    constructor
    · rw [he]; nlinarith
    · rw [he]; nlinarith
  · rw [if_neg h2, if_pos]
    by_contra hc
    rw [not_or] at hc
    apply h2
    have := hc.1; have := hc.2
    rw [he] at *
    constructor <;> nlinarith

theorem circleStep_upper {r x y err : Int} (h : CircleInv r x y err) (hle : -x ≤ y) :
    circleStep x y err =
      if (x + 1) * (x + 1) + (y + 1) * (y + 1) - r * r ≤ y then
        (x + 1, y + 1, err + (2 * (y + 1) + 1) + (2 * (x + 1) + 1))
      else (x + 1, y, err + (2 * (x + 1) + 1)) := by
  obtain ⟨hr, he, -, hy, hn⟩ := h
  have hn' : r * r - x * x ≤ y * y + y := by
    rcases hn with ⟨a, -, b, -⟩ | ⟨-, -, b⟩
    · have : y = -x := by omega
      subst this; nlinarith
    · exact b
  by_cases h1 : err ≤ y
  · have h2 : err > x ∨ err + (2 * (y + 1) + 1) > y + 1 := by
      left; rw [he]; nlinarith
    rw [if_pos (by rw [← he]; exact h1)]
    simp only [circleStep, if_pos h1, if_pos h2]
  · have h2 : err > x ∨ err > y := by right; omega
    rw [if_neg (by rw [← he]; exact h1)]
    simp only [circleStep, if_neg h1, if_pos h2]

theorem circleInv_step {r x y err : Int} (h : CircleInv r x y err) (hx : x < 0) :
    CircleInv r (circleStep x y err).1 (circleStep x y err).2.1 (circleStep x y err).2.2 := by
  have h0 := h
  obtain ⟨hr, he, -, hy, hn⟩ := h
  rcases lt_or_ge y (-x) with hlt | hge
  · rw [circleStep_lower h0 hlt]
    have hn' : x * x + x < r * r - y * y ∧ r * r - y * y ≤ x * x - x := by
      rcases hn with ⟨-, a, b, -⟩ | ⟨c, -, -⟩
      · exact ⟨a, b⟩
      · omega
    obtain ⟨na, nb⟩ := hn'
    split_ifs with hc
    · obtain ⟨hc1, hc2⟩ := hc
      refine ⟨hr, ?_, by simpa using hx.le, by simp; omega, Or.inl ⟨by simp; omega, ?_, ?_, ?_⟩⟩
      · simp only [he]; ring
      · simp only; nlinarith
      · simp only; nlinarith
      · intro h; simp only at h; omega
    · refine ⟨hr, ?_, by simp only; omega, by simp only; omega, ?_⟩
      · simp only [he]; ring
      · rcases lt_or_ge (y + 1) (-x) with hd | hd
        · have hc' : -x ≤ x * x + (y + 1) * (y + 1) - r * r := by
            by_contra hh; exact hc ⟨by omega, hd⟩
          refine Or.inl ⟨by simp only; omega, ?_, ?_, ?_⟩
          · simp only; nlinarith
          · simp only; nlinarith
          · simp only
            intro hq hq2
            have : x = -y - 2 := by omega
            subst this
            nlinarith
        · have : x = -y - 1 := by omega
          subst this
          refine Or.inr ⟨by simp only; omega, ?_, ?_⟩
          · simp only; nlinarith
          · simp only; nlinarith
  · rw [circleStep_upper h0 hge]
    have hn' : y * y - y < r * r - x * x ∧ r * r - x * x ≤ y * y + y := by
      rcases hn with ⟨a, b, c, -⟩ | ⟨-, a, b⟩
      · have : y = -x := by omega
        subst this; constructor <;> nlinarith
      · exact ⟨a, b⟩
    obtain ⟨na, nb⟩ := hn'
    split_ifs with hc
    · refine ⟨hr, ?_, by simp only; omega, by simp only; omega, Or.inr ⟨by simp only; omega, ?_, ?_⟩⟩
      · simp only [he]; ring
      · simp only; nlinarith
      · simp only; nlinarith
    · refine ⟨hr, ?_, by simp only; omega, by simp only; omega, Or.inr ⟨by simp only; omega, ?_, ?_⟩⟩
      · simp only [he]; ring
      · simp only; nlinarith
      · simp only; nlinarith


theorem CircleReach.inv {r x y err : Int} (hr : 1 ≤ r) (h : CircleReach r x y err) :
    CircleInv r x y err := by
  induction h with
  | start => exact circleInv_start hr
  | step _ hx ih => exact circleInv_step ih hx

theorem CircleInv.bounds {r x y err : Int} (h : CircleInv r x y err) : -r ≤ x ∧ y ≤ r := by
  obtain ⟨hr, he, hx, hy, hn⟩ := h
  rcases hn with ⟨a, b, c, -⟩ | ⟨a, b, c⟩
  · have : -r ≤ x := by by_contra hc; nlinarith
    exact ⟨this, by omega⟩
  · have : y ≤ r := by by_contra hc; nlinarith
    exact ⟨by omega, this⟩

/-- Each step makes progress towards `(0, r)`. -/
theorem circleStep_progress {r x y err : Int} (h : CircleInv r x y err) :
    (circleStep x y err).1 - x + ((circleStep x y err).2.1 - y) ≥ 1 ∧
    x ≤ (circleStep x y err).1 ∧ (circleStep x y err).1 ≤ x + 1 ∧
    y ≤ (circleStep x y err).2.1 ∧ (circleStep x y err).2.1 ≤ y + 1 := by
  rcases lt_or_ge y (-x) with hlt | hge
  · rw [circleStep_lower h hlt]; split_ifs <;> simp
  · rw [circleStep_upper h hge]; split_ifs <;> simp

/-- The loop variables stay close to the circle, hence inside `int`. -/
theorem CircleInv.err_bounds {r x y err : Int} (h : CircleInv r x y err) :
    -(3 * r) ≤ err ∧ err ≤ 3 * r + 2 := by
  have hb := h.bounds
  obtain ⟨hr, he, hx, hy, hn⟩ := h
  rcases hn with ⟨a, b, c, -⟩ | ⟨a, b, c⟩
  · constructor <;> nlinarith
  · constructor <;> nlinarith

theorem mem_walk_inv {r : Int} : ∀ (fuel : Nat) (x y err : Int), CircleInv r x y err →
    ∀ p ∈ walk fuel x y err, ∃ e, CircleInv r p.1 p.2 e ∧ p.1 < 0 := by
  intro fuel
  induction fuel with
  | zero => intro x y err _ p hp; simp [walk] at hp
  | succ n ih =>
    intro x y err h p hp
    rw [walk] at hp
    split_ifs at hp with hx
    · rcases List.mem_cons.mp hp with rfl | hp
      · exact ⟨err, h, hx⟩
      · exact ih _ _ _ (circleInv_step h hx) p hp
    · simp at hp

/-- The first quadrant of the ring, `a = -x > 0`, `b = y ≥ 0`. -/
def Arc (r a b : Int) : Prop :=
  (b ≤ a ∧ a * a - a < r * r - b * b ∧ r * r - b * b ≤ a * a + a ∧
    (b = a → r * r ≠ 2 * (a * a) - a + 1)) ∨
  (a < b ∧ b * b - b < r * r - a * a ∧ r * r - a * a ≤ b * b + b)

theorem CircleInv.arc {r x y err : Int} (h : CircleInv r x y err) : Arc r (-x) y := by
  rcases h.near with ⟨a, b, c, d⟩ | ⟨a, b, c⟩
  · exact Or.inl ⟨a, by nlinarith, by nlinarith, fun e f => d e (by linarith)⟩
  · exact Or.inr ⟨a, by nlinarith, by nlinarith⟩

theorem arc_unique_row {r a a' b : Int} (hb : 0 ≤ b) (h : Arc r a b) (h' : Arc r a' b)
    (hl : b < a) (ha' : 0 ≤ a') : ¬ a' < a := by
  intro hlt
  rcases h with ⟨h1, h2, h3, h4⟩ | ⟨h1, h2, h3⟩
  · rcases h' with ⟨k1, k2, k3, k4⟩ | ⟨k1, k2, k3⟩
    · nlinarith
    · nlinarith
  · omega

theorem mem_walk_of_arc {r A B : Int} (hA : 1 ≤ A) (hB : 0 ≤ B) (hAB : Arc r A B) :
    ∀ (fuel : Nat) (x y err : Int), CircleInv r x y err → A ≤ -x → y ≤ B →
      (-x) + (r - y) < fuel → (-A, B) ∈ walk fuel x y err := by
  intro fuel
  induction fuel with
  | zero =>
    intro x y err h _ _ hf
    have := h.bounds; have := h.x0
    push_cast at hf; omega
  | succ n ih =>
    intro x y err h hAx hyB hf
    have hx : x < 0 := by omega
    have hprog := circleStep_progress h
    have hinv := circleInv_step h hx
    have harc := h.arc
    have hy0 := h.y0
    rw [walk, if_pos hx]
    by_cases heq : A = -x ∧ B = y
    · obtain ⟨rfl, rfl⟩ := heq
      simp
    · refine List.mem_cons_of_mem _ (ih _ _ _ hinv ?_ ?_ (by push_cast at hf; omega))
      · -- A ≤ -x'
        by_cases hAlt : A < -x
        · omega
        · have hAe : A = -x := by omega
          have hBy : y < B := by
            rcases lt_or_eq_of_le hyB with h1 | h1
            · exact h1
            · exact absurd ⟨hAe, h1.symm⟩ heq
          rcases lt_or_ge y (-x) with hlt | hge
          · rw [circleStep_lower h hlt]
            split_ifs with hc
            · exact hAx
            · exfalso
              have e1 : r * r - y * y ≤ x * x - x := by
                rcases h.near with ⟨-, -, c, -⟩ | ⟨c, -, -⟩
                · exact c
                · omega
              rcases lt_or_ge (y + 1) (-x) with hd | hd
              · have hc' : -x ≤ x * x + (y + 1) * (y + 1) - r * r := by
                  by_contra hh; exact hc ⟨by omega, hd⟩
                subst hAe
                rcases hAB with ⟨k1, k2, k3, k4⟩ | ⟨k1, k2, k3⟩
                · nlinarith
                · nlinarith
              · have hxy : x = -y - 1 := by omega
                subst hxy
                subst hAe
                rcases hAB with ⟨k1, k2, k3, k4⟩ | ⟨k1, k2, k3⟩
                · have hB2 : B = - (-y - 1) := by omega
                  have k5 := k4 hB2
                  subst hB2
                  apply k5
                  nlinarith
                · nlinarith
          · exfalso
            have nb : r * r - x * x ≤ y * y + y := by
              rcases h.near with ⟨a, -, c, -⟩ | ⟨-, -, c⟩
              · have : y = -x := by omega
                subst this; nlinarith
              · exact c
            subst hAe
            rcases hAB with ⟨k1, k2, k3, k4⟩ | ⟨k1, k2, k3⟩
            · omega
            · nlinarith
      · -- y' ≤ B
        by_cases hBlt : y < B
        · omega
        · have hBe : B = y := by omega
          subst hBe
          have hAlt : A < -x := by
            rcases lt_or_eq_of_le hAx with h1 | h1
            · exact h1
            · exact absurd ⟨h1, rfl⟩ heq
          rcases lt_or_ge B (-x) with hlt | hge
          · exact absurd hAlt (arc_unique_row hB harc hAB hlt (by omega))
          · rw [circleStep_upper h hge]
            split_ifs with hc
            · exfalso
              rcases hAB with ⟨k1, k2, k3, k4⟩ | ⟨k1, k2, k3⟩
              · omega
              · nlinarith
            · exact le_refl _

theorem arc_iff_onRing {r a b : Int} (ha : 0 ≤ a) (hb : 0 ≤ b) : Arc r a b ↔ OnRing r a b := by
  unfold Arc OnRing
  rw [abs_of_nonneg ha, abs_of_nonneg hb]
  rcases le_or_gt b a with h | h
  · rw [max_eq_left h, min_eq_right h]
    constructor
    · rintro (⟨-, h1, h2, h3⟩ | ⟨h1, -⟩)
      · exact ⟨h1, h2, fun e => h3 e.symm⟩
      · omega
    · rintro ⟨h1, h2, h3⟩
      exact Or.inl ⟨h, h1, h2, fun e => h3 e.symm⟩
  · rw [max_eq_right h.le, min_eq_left h.le]
    constructor
    · rintro (⟨h1, -⟩ | ⟨-, h1, h2⟩)
      · omega
      · exact ⟨h1, h2, fun e => by omega⟩
    · rintro ⟨h1, h2, -⟩
      exact Or.inr ⟨h, h1, h2⟩

theorem onRing_swap {r a b : Int} : OnRing r a b ↔ OnRing r b a := by
  unfold OnRing
  rw [max_comm, min_comm]
  have : (|a| = |b| → r * r ≠ 2 * (a * a) - |a| + 1) ↔
      (|b| = |a| → r * r ≠ 2 * (b * b) - |b| + 1) := by
    constructor
    · intro h e
      have := h e.symm
      rwa [← abs_mul_abs_self b, e, abs_mul_abs_self a]
    · intro h e
      have := h e.symm
      rwa [← abs_mul_abs_self a, e, abs_mul_abs_self b]
  rw [this]

theorem onRing_neg_left {r a b : Int} : OnRing r (-a) b ↔ OnRing r a b := by
  unfold OnRing
  rw [abs_neg, neg_mul_neg]

theorem onRing_neg_right {r a b : Int} : OnRing r a (-b) ↔ OnRing r a b := by
  rw [onRing_swap, onRing_neg_left, onRing_swap]

theorem not_onRing_zero {r : Int} : ¬ OnRing r 0 0 := by
  unfold OnRing
  simp only [abs_zero, max_self, min_self]
  omega

theorem mem_walk_iff {r A B : Int} (hr : 1 ≤ r) (hA : 1 ≤ A) (hB : 0 ≤ B) :
    (-A, B) ∈ walk (2 * r.toNat + 2) (-r) 0 (2 - 2 * r) ↔ OnRing r A B := by
  rw [← arc_iff_onRing (by omega) hB]
  constructor
  · intro h
    obtain ⟨e, he, -⟩ := mem_walk_inv _ _ _ _ (circleInv_start hr) _ h
    simpa using he.arc
  · intro h
    refine mem_walk_of_arc hA hB h _ _ _ _ (circleInv_start hr) ?_ hB (by push_cast; omega)
    rcases h with ⟨h1, h2, h3, -⟩ | ⟨h1, h2, h3⟩
    · by_contra hc; nlinarith
    · by_contra hc; nlinarith

/-- The offsets of the sweep are exactly the digital circle. -/
theorem mem_ring_iff {r dx dy : Int} (hr : 1 ≤ r) : (dx, dy) ∈ ring r ↔ OnRing r dx dy := by
  unfold ring
  rw [List.mem_flatMap]
  constructor
  · rintro ⟨⟨x, y⟩, hp, hq⟩
    obtain ⟨e, he, hx⟩ := mem_walk_inv _ _ _ _ (circleInv_start hr) _ hp
    have hring : OnRing r (-x) y := (arc_iff_onRing (by have := he.x0; simp at this; omega)
      he.y0).mp he.arc
    simp only [quad, List.mem_cons, Prod.mk.injEq, List.not_mem_nil, or_false] at hq
    rcases hq with ⟨rfl, rfl⟩ | ⟨rfl, rfl⟩ | ⟨rfl, rfl⟩ | ⟨rfl, rfl⟩
    · exact hring
    · rw [onRing_neg_left, onRing_swap]; exact hring
    · rw [onRing_neg_right]; exact onRing_neg_left.mp hring
    · rw [onRing_swap]; exact onRing_neg_left.mp hring
  · intro h
    have key : ∀ A B : Int, 1 ≤ A → 0 ≤ B → OnRing r A B →
        ∀ q ∈ quad (-A, B), ∃ a ∈ walk (2 * r.toNat + 2) (-r) 0 (2 - 2 * r), q ∈ quad a :=
      fun A B hA hB hR q hq => ⟨_, (mem_walk_iff hr hA hB).mpr hR, hq⟩
    rcases lt_trichotomy dx 0 with hx | hx | hx <;> rcases lt_trichotomy dy 0 with hy | hy | hy
    · exact key (-dx) (-dy) (by omega) (by omega)
        (onRing_neg_left.mpr (onRing_neg_right.mpr h)) _ (by simp [quad])
    · exact key (-dx) (-dy) (by omega) (by omega)
        (onRing_neg_left.mpr (onRing_neg_right.mpr h)) _ (by simp [quad])
    · exact key dy (-dx) (by omega) (by omega)
        (onRing_neg_right.mpr (onRing_swap.mp h)) _ (by simp [quad])
    · exact key (-dy) dx (by omega) (by omega)
        (onRing_neg_left.mpr (onRing_swap.mp h)) _ (by simp [quad])
    · subst hx; subst hy; exact absurd h not_onRing_zero
    · exact key dy (-dx) (by omega) (by omega)
        (onRing_neg_right.mpr (onRing_swap.mp h)) _ (by simp [quad])
    · exact key (-dy) dx (by omega) (by omega)
        (onRing_neg_left.mpr (onRing_swap.mp h)) _ (by simp [quad])
    · exact key dx dy (by omega) (by omega) h _ (by simp [quad])
    · exact key dx dy (by omega) (by omega) h _ (by simp [quad])

theorem ring_nonpos {r : Int} (hr : r ≤ 0) : ring r = [] := by
  unfold ring
  rw [walk, if_neg (by omega)]
  rfl

/-- The distance of a cell of the ring is within half a cell of `r`. -/
theorem OnRing.dist {r dx dy : Int} (h : OnRing r dx dy) (hr : 0 ≤ r) :
    r * r - r < dx * dx + dy * dy ∧ dx * dx + dy * dy < r * r + r := by
  obtain ⟨h1, h2, -⟩ := h
  have hs : max |dx| |dy| * max |dx| |dy| + min |dx| |dy| * min |dx| |dy| =
      dx * dx + dy * dy := by
    rcases le_total |dx| |dy| with h | h
    · rw [max_eq_right h, min_eq_left h, abs_mul_abs_self, abs_mul_abs_self, add_comm]
    · rw [max_eq_left h, min_eq_right h, abs_mul_abs_self, abs_mul_abs_self]
  have hm0 : 0 ≤ min |dx| |dy| := le_min (abs_nonneg _) (abs_nonneg _)
  have hmn : min |dx| |dy| ≤ max |dx| |dy| := min_le_max
  rw [← hs]
  generalize max |dx| |dy| = m at *
  generalize min |dx| |dy| = n at *
  have hmr : m ≤ r := by by_contra hc; nlinarith
  constructor
  · rcases lt_or_eq_of_le hmr with h | h
    · nlinarith
    · subst h; nlinarith
  · nlinarith


/-! ## Which cells are on some circle -/

/-- The cell lies on some circle of radius at least one. -/
def Covered (dx dy : Int) : Prop := ∃ r, 1 ≤ r ∧ OnRing r dx dy

theorem covered_swap {a b : Int} : Covered a b ↔ Covered b a := by
  unfold Covered; simp only [onRing_swap]

theorem covered_abs {a b : Int} : Covered |a| |b| ↔ Covered a b := by
  unfold Covered
  have : ∀ r, OnRing r |a| |b| ↔ OnRing r a b := by
    intro r
    rcases abs_choice a with h | h <;> rcases abs_choice b with h' | h' <;> rw [h, h'] <;>
      simp only [onRing_neg_left, onRing_neg_right]
  simp only [this]

theorem exists_isqrt {n : Int} (hn : 0 ≤ n) : ∃ r : Int, 0 ≤ r ∧ r * r ≤ n ∧ n < (r + 1) * (r + 1) := by
  refine ⟨(Nat.sqrt n.toNat : Int), by positivity, ?_, ?_⟩
  · have := Nat.sqrt_le n.toNat
    have h2 : ((Nat.sqrt n.toNat * Nat.sqrt n.toNat : Nat) : Int) ≤ (n.toNat : Int) := by
      exact_mod_cast this
    push_cast at h2; omega
  · have := Nat.lt_succ_sqrt n.toNat
    have h2 : (n.toNat : Int) < ((Nat.succ (Nat.sqrt n.toNat) * Nat.succ (Nat.sqrt n.toNat) : Nat) : Int) := by
      exact_mod_cast this
    push_cast at h2; omega

/-- A cell that is on no circle sits in a gap between the squares of two consecutive radii,
or is an excluded diagonal cell. -/
theorem not_covered_gap {a b : Int} (hb : 0 ≤ b) (hab : b ≤ a) (h : ¬ Covered a b) :
    ∃ r : Int, 0 ≤ r ∧
      ((r * r ≤ a * a + b * b - a ∧ a * a + b * b + a < (r + 1) * (r + 1)) ∨
       (a = b ∧ r * r = 2 * (a * a) - a + 1 ∧ 1 ≤ a)) := by
  have ha : 0 ≤ a := by omega
  obtain ⟨r, hr0, hr1, hr2⟩ := exists_isqrt (n := a * a + b * b + a) (by positivity)
  refine ⟨r, hr0, ?_⟩
  by_cases hc : r * r ≤ a * a + b * b - a
  · exact Or.inl ⟨hc, hr2⟩
  · right
    by_contra hd
    apply h
    have hr : 1 ≤ r := by
      by_contra hh
      have : r = 0 := by omega
      subst this
      apply hc
      nlinarith
    refine ⟨r, hr, (arc_iff_onRing ha hb).mp (Or.inl ⟨hab, by omega, by omega, ?_⟩)⟩
    rintro rfl he
    apply hd
    refine ⟨rfl, he, ?_⟩
    by_contra hh
    have : b = 0 := by omega
    subst this
    nlinarith

theorem excluded_diagonal {a r s : Int} (ha : 1 ≤ a) (hr : 0 ≤ r) (hs : 0 ≤ s)
    (h1 : r * r = 2 * (a * a) - a + 1) (h2 : s * s ≤ 2 * (a * a) + a)
    (h3 : 2 * (a * a) + 3 * a + 2 < (s + 1) * (s + 1)) : False := by
  have k1 : r ≤ 2 * a := by
    by_contra hh
    have : (2 * a + 1) * (2 * a + 1) ≤ r * r := mul_self_le_mul_self (by omega) (by omega)
    nlinarith
  have k2 : a ≤ r := by
    by_contra hh
    have : r * r ≤ a * a := mul_self_le_mul_self (by omega) (by omega)
    nlinarith
  have k3 : r ≤ s := by
    by_contra hh
    have : (s + 1) * (s + 1) ≤ r * r := mul_self_le_mul_self (by omega) (by omega)
    linarith
  rcases lt_or_eq_of_le k3 with h | h
  · have : (r + 1) * (r + 1) ≤ s * s := mul_self_le_mul_self (by omega) (by omega)
    linarith
  · subst h; linarith

/-- In the octant `0 ≤ b ≤ a` no two horizontal neighbours are both missed. -/
theorem covered_horizontal {a b : Int} (hb : 0 ≤ b) (hab : b ≤ a) :
    Covered a b ∨ Covered (a + 1) b := by
  by_contra hc
  rw [not_or] at hc
  obtain ⟨r, hr, h1⟩ := not_covered_gap hb hab hc.1
  obtain ⟨s, hs, h2⟩ := not_covered_gap hb (by omega) hc.2
  rcases h2 with ⟨h3, h4⟩ | ⟨h3, -⟩
  · rcases h1 with ⟨h5, h6⟩ | ⟨h7, h5, h6⟩
    · have : s ≤ r := by by_contra hh; nlinarith
      have : r ≤ s := by by_contra hh; nlinarith
      have : r = s := by omega
      subst this
      have : 2 * a < r := by nlinarith
      nlinarith
    · -- the excluded diagonal cell
      subst h7
      exact excluded_diagonal h6 hr hs h5 (by linarith) (by linarith)
  · omega

/-- In the octant `0 ≤ b < a` no two vertical neighbours are both missed. -/
theorem covered_vertical {a b : Int} (hb : 0 ≤ b) (hab : b < a) :
    Covered a b ∨ Covered a (b + 1) := by
  by_contra hc
  rw [not_or] at hc
  obtain ⟨r, hr, h1⟩ := not_covered_gap hb hab.le hc.1
  obtain ⟨s, hs, h2⟩ := not_covered_gap (a := a) (b := b + 1) (by omega) (by omega) hc.2
  rcases h1 with ⟨h5, h6⟩ | ⟨rfl, -⟩
  · rcases h2 with ⟨h3, h4⟩ | ⟨h3, h4, -⟩
    · have : r ≤ s := by by_contra hh; nlinarith
      rcases lt_or_eq_of_le this with h | h
      · nlinarith
      · subst h
        have : a + b < r := by nlinarith
        nlinarith
    · have hb' : b = a - 1 := by omega
      subst hb'
      have : r < s := by by_contra hh; nlinarith
      nlinarith
  · omega

theorem covered_adjacent_abs {a b : Int} (ha : 0 ≤ a) (hb : 0 ≤ b) :
    Covered a b ∨ Covered (a + 1) b := by
  rcases le_or_gt b a with h | h
  · exact covered_horizontal hb h
  · have := covered_vertical ha h
    rwa [covered_swap, covered_swap (a := b)] at this

/-- Of two cells sharing an edge at least one is on some circle. -/
theorem covered_adjacent_x (dx dy : Int) : Covered dx dy ∨ Covered (dx + 1) dy := by
  rw [← covered_abs, ← covered_abs (a := dx + 1)]
  rcases le_or_gt 0 dx with h | h
  · rw [abs_of_nonneg h, abs_of_nonneg (by omega : 0 ≤ dx + 1)]
    exact covered_adjacent_abs h (abs_nonneg _)
  · rw [abs_of_neg h, abs_of_nonpos (by omega : dx + 1 ≤ 0)]
    have := covered_adjacent_abs (a := -(dx + 1)) (by omega) (abs_nonneg dy)
    rw [show -(dx + 1) + 1 = -dx by ring] at this
    exact this.symm

theorem covered_adjacent_y (dx dy : Int) : Covered dx dy ∨ Covered dx (dy + 1) := by
  rw [covered_swap, covered_swap (a := dx)]
  exact covered_adjacent_x dy dx

/-- The radius of a circle through a cell is bounded by the distance of the cell. -/
theorem OnRing.radius {r dx dy lo hi : Int} (h : OnRing r dx dy) (hr : 1 ≤ r) (hlo : 1 ≤ lo)
    (hhi : 0 ≤ hi) (h1 : lo * lo ≤ dx * dx + dy * dy) (h2 : dx * dx + dy * dy ≤ hi * hi) :
    lo ≤ r ∧ r ≤ hi := by
  have := h.dist (by omega)
  constructor
  · by_contra hc; nlinarith
  · by_contra hc; nlinarith

end Ergodic
