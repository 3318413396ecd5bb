import Verif.Model.Launch
import Verif.Props.Startup

/-!
# Property C88: what the parameter server may hold

`C88_statement` asks that a node which starts has read every count as it was written.
-/

namespace Ergodic
variable {F : Type} [Flt F]

/-! ## Whole numbers -/

theorem i2u_nonneg {n : Int} (h0 : 0 ≤ n) (h1 : n < 4294967296) : ((i2u n).toNat : Int) = n := by
  unfold i2u
  rw [UInt32.toNat_ofNat_of_lt' (by rw [show UInt32.size = 2 ^ 32 from rfl]; omega)]
  omega

theorem i2u_neg {n : Int} (h0 : n < 0) (h1 : -4294967296 ≤ n) :
    ((i2u n).toNat : Int) = n + 4294967296 := by
  unfold i2u
  rw [UInt32.toNat_ofNat_of_lt' (by rw [show UInt32.size = 2 ^ 32 from rfl]; omega)]
  omega

/-! ## The basis -/

namespace Basis

/-- The columns are written one after the other until the matrix or the counter ends. -/
theorem fill_eq (total : UInt32) (l : List (Int × Int)) (col : Nat) (hcol : col ≤ 2147483647)
    (hc : col ≤ total.toNat) :
    fill total col l =
      if col + l.length ≤ min total.toNat 2147483647 then .ok l
      else if 2147483647 < total.toNat then .ub else .throw .logicError := by
  induction l generalizing col with
  | nil =>
    rw [if_pos (by simp only [List.length_nil]; omega)]
    rfl
  | cons c cs ih =>
    rw [fill, List.length_cons]
    by_cases h1 : total.toNat ≤ col
    · rw [if_pos h1, if_neg (by omega), if_neg (by omega)]
    rw [if_neg h1]
    by_cases h2 : col = 2147483647
    · rw [if_pos h2, if_neg (by omega), if_pos (by omega)]
    rw [if_neg h2, ih (col + 1) (by omega) (by omega)]
    by_cases h3 : col + 1 + cs.length ≤ min total.toNat 2147483647
    · rw [if_pos h3, if_pos (by omega)]
      rfl
    · have h5 : ¬ col + (cs.length + 1) ≤ min total.toNat 2147483647 := by omega
      rw [if_neg h3, if_neg h5]
      by_cases h4 : 2147483647 < total.toNat
      · simp only [if_pos h4]; rfl
      · simp only [if_neg h4]; rfl

theorem numbers_length (n : Nat) : (numbers n).length = n * n := by
  unfold numbers
  rw [List.length_flatMap]
  simp

end Basis

/-- C88: the basis is built as intended exactly for at most 46340 functions per axis. -/
theorem C88_basis (lx ly : F) (n : UInt32) :
    (n.toNat ≤ 46340 → Basis.create lx ly n = .ok (Basis.new lx ly n.toNat)) ∧
    (46340 < n.toNat → n.toNat < 65536 → Basis.create lx ly n = .ub) ∧
    (65536 ≤ n.toNat → Basis.create lx ly n = .ub ∨ Basis.create lx ly n = .throw .logicError) := by
  have hf := Basis.fill_eq (n * n) (Basis.numbers n.toNat) 0 (by omega) (by omega)
  rw [Basis.numbers_length, Nat.zero_add] at hf
  have hm : (n * n).toNat = n.toNat * n.toNat % 4294967296 := UInt32.toNat_mul n n
  unfold Basis.create
  refine ⟨fun h => ?_, fun h h' => ?_, fun h => ?_⟩
  · have : n.toNat * n.toNat ≤ 46340 * 46340 := Nat.mul_le_mul h h
    rw [if_pos (by omega)] at hf
    rw [hf]
    rfl
  · have h1 : 46341 * 46341 ≤ n.toNat * n.toNat := Nat.mul_le_mul h h
    have h2 : n.toNat * n.toNat ≤ 65535 * 65535 := Nat.mul_le_mul (by omega) (by omega)
    rw [if_neg (by omega), if_pos (by omega)] at hf
    rw [hf]
    rfl
  · have h1 : 65536 * 65536 ≤ n.toNat * n.toNat := Nat.mul_le_mul h h
    have h2 := Nat.mod_lt (n.toNat * n.toNat) (show 4294967296 > 0 by norm_num)
    rw [if_neg (by omega)] at hf
    rw [hf]
    by_cases h3 : 2147483647 < (n * n).toNat
    · rw [if_pos h3]; exact .inl rfl
    · rw [if_neg h3]; exact .inr rfl

/-- Every case occurs. -/
example : (Basis.create (1:ℝ) 1 10 = .ok (Basis.new 1 1 10)) ∧
    Basis.create (1:ℝ) 1 50000 = .ub ∧
    Basis.create (1:ℝ) 1 65536 = .throw .logicError := by
  refine ⟨(C88_basis 1 1 10).1 (by decide), (C88_basis 1 1 50000).2.1 (by decide) (by decide), ?_⟩
  have hf := Basis.fill_eq (65536 * 65536) (Basis.numbers 65536) 0 (by omega) (by omega)
  rw [Basis.numbers_length, if_neg (by decide), if_neg (by decide)] at hf
  unfold Basis.create
  rw [show (65536 : UInt32).toNat = 65536 from rfl, hf]
  rfl

/-! ## Targets -/

/-- The decimal number written in row `i`, column `j`. -/
def Xml.Decimal (x : Xml F) (i j : Nat) (v : F) : Prop :=
  ∃ rows row, x = .arr rows ∧ rows[i]? = some (.arr row) ∧ row[j]? = some (.dbl v)

/-- Something other than a decimal number is written in row `i`, column `j`. -/
def Xml.NotDecimal (x : Xml F) (i j : Nat) : Prop :=
  ∃ rows row, x = .arr rows ∧ rows[i]? = some (.arr row) ∧
    ((∃ v, row[j]? = some (.int v)) ∨ ∃ l, row[j]? = some (.arr l))

theorem Xml.pair_decimal {x : Xml F} {i : Nat} {a b : F} (ha : x.Decimal i 0 a) (hb : x.Decimal i 1 b) :
    x.pair i = .ok ⟨a, b⟩ := by
  obtain ⟨rows, row, rfl, h1, h2⟩ := ha
  obtain ⟨rows', row', h3, h4, h5⟩ := hb
  cases h3
  rw [h1] at h4
  cases h4
  have hi : (Xml.arr rows).item i = .ok (.arr row) := by
    simp only [Xml.item, List.getD_eq_getElem?_getD, h1, Option.getD_some]
  have h0 : (Xml.arr row).item 0 = .ok (.dbl a) := by
    simp only [Xml.item, List.getD_eq_getElem?_getD, h2, Option.getD_some]
  have h0' : (Xml.arr row).item 1 = .ok (.dbl b) := by
    simp only [Xml.item, List.getD_eq_getElem?_getD, h5, Option.getD_some]
  simp only [Xml.pair, hi, h0, h0', Res.ok_bind, Xml.num]

theorem Xml.pair_not_decimal {x : Xml F} {i j : Nat} (hj : j < 2) (h : x.NotDecimal i j) (v : V2 F) :
    x.pair i ≠ .ok v := by
  obtain ⟨rows, row, rfl, h1, h2⟩ := h
  have hi : (Xml.arr rows).item i = .ok (.arr row) := by
    simp only [Xml.item, List.getD_eq_getElem?_getD, h1, Option.getD_some]
  have hb : ∃ y : Xml F, (Xml.arr row).item j = .ok y ∧ ∀ v, y.num ≠ .ok v := by
    rcases h2 with ⟨w, hw⟩ | ⟨l, hl⟩
    · exact ⟨.int w, by simp only [Xml.item, List.getD_eq_getElem?_getD, hw, Option.getD_some],
        fun v => by simp [Xml.num]⟩
    · exact ⟨.arr l, by simp only [Xml.item, List.getD_eq_getElem?_getD, hl, Option.getD_some],
        fun v => by simp [Xml.num]⟩
  obtain ⟨y, hy, hn⟩ := hb
  intro hp
  unfold Xml.pair at hp
  rw [hi] at hp
  simp only [Res.bind_eq_ok, Res.ok.injEq] at hp
  obtain ⟨_, rfl, y0, hy0, a, ha, _, rfl, y1, hy1, b, hb, -⟩ := hp
  obtain rfl | rfl : j = 0 ∨ j = 1 := by omega
  · rw [hy] at hy0
    cases hy0
    exact hn a ha
  · rw [hy] at hy1
    cases hy1
    exact hn b hb

theorem mapM_get {α β : Type} (f : α → Res β) (l : List α) {r : List β} (h : l.mapM f = .ok r) :
    r.length = l.length ∧ ∀ (i : Nat) a, l[i]? = some a → ∃ b, f a = .ok b ∧ r[i]? = some b := by
  induction l generalizing r with
  | nil =>
    cases h
    exact ⟨rfl, fun i a ha => by simp at ha⟩
  | cons x l ih =>
    rw [List.mapM_cons] at h
    simp only [Res.bind_eq_ok] at h
    obtain ⟨b, hb, r', hr', h⟩ := h
    cases h
    obtain ⟨h1, h2⟩ := ih hr'
    refine ⟨by simp [h1], fun i a ha => ?_⟩
    cases i with
    | zero =>
      simp only [List.getElem?_cons_zero, Option.some.injEq] at ha
      subst ha
      exact ⟨b, hb, by simp⟩
    | succ i =>
      simp only [List.getElem?_cons_succ] at ha ⊢
      exact h2 i a ha

/-- C88: reading the targets needs a list of means; a whole number or a list where a mean or standard
deviation belongs makes it fail; otherwise there is a target for each mean, made of the numbers
written. -/
theorem C88_targets (means sigmas : Xml F) :
    (∀ ts, readTargets means sigmas = .ok ts → ∃ rows, means = .arr rows ∧ ts.length = rows.length ∧
      ∀ i j, i < rows.length → j < 2 → ¬ means.NotDecimal i j ∧ ¬ sigmas.NotDecimal i j) ∧
    (∀ ts, readTargets means sigmas = .ok ts → ∀ i t, ts[i]? = some t →
      (∀ a b, means.Decimal i 0 a → means.Decimal i 1 b → t.1 = ⟨a, b⟩) ∧
      (∀ a b, sigmas.Decimal i 0 a → sigmas.Decimal i 1 b → t.2 = ⟨a, b⟩)) := by
  have key : ∀ ts, readTargets means sigmas = .ok ts → ∃ rows, means = .arr rows ∧
      ts.length = rows.length ∧ ∀ i, i < rows.length →
        ∃ m s, means.pair i = .ok m ∧ sigmas.pair i = .ok s ∧ ts[i]? = some (m, s) := by
    intro ts h
    unfold readTargets at h
    rw [Res.bind_eq_ok] at h
    obtain ⟨n, hn, h⟩ := h
    cases means with
    | arr rows =>
      simp only [Xml.size, Res.ok.injEq] at hn
      subst hn
      obtain ⟨h1, h2⟩ := mapM_get _ _ h
      rw [List.length_range] at h1
      refine ⟨rows, rfl, h1, fun i hi => ?_⟩
      obtain ⟨b, hb, hr⟩ := h2 i i (by rw [List.getElem?_range hi])
      simp only [Res.bind_eq_ok, Res.ok.injEq] at hb
      obtain ⟨m, hm, s, hs, rfl⟩ := hb
      exact ⟨m, s, hm, hs, hr⟩
    | invalid => simp [Xml.size] at hn
    | int v => simp [Xml.size] at hn
    | dbl v => simp [Xml.size] at hn
  constructor
  · intro ts h
    obtain ⟨rows, hr, hl, hp⟩ := key ts h
    refine ⟨rows, hr, hl, fun i j hi hj => ?_⟩
    obtain ⟨m, s, hm, hs, -⟩ := hp i hi
    exact ⟨fun hn => Xml.pair_not_decimal hj hn m hm, fun hn => Xml.pair_not_decimal hj hn s hs⟩
  · intro ts h i t ht
    obtain ⟨rows, hr, hl, hp⟩ := key ts h
    obtain ⟨hi, -⟩ := List.getElem?_eq_some_iff.mp ht
    obtain ⟨m, s, hm, hs, hms⟩ := hp i (by omega)
    rw [ht, Option.some.injEq] at hms
    subst hms
    constructor
    · intro a b ha hb
      rw [Xml.pair_decimal ha hb, Res.ok.injEq] at hm
      exact hm.symm
    · intro a b ha hb
      rw [Xml.pair_decimal ha hb, Res.ok.injEq] at hs
      exact hs.symm

/-- C88: when all means and standard deviations are written as decimals, reading them succeeds. -/
theorem C88_targets_read {rows : List (Xml F)} {sigmas : Xml F} (h : ∀ i, i < rows.length →
    (∃ a b, (Xml.arr rows).Decimal i 0 a ∧ (Xml.arr rows).Decimal i 1 b) ∧
    ∃ a b, sigmas.Decimal i 0 a ∧ sigmas.Decimal i 1 b) :
    ∃ ts, readTargets (.arr rows) sigmas = .ok ts := by
  unfold readTargets
  simp only [Xml.size, Res.ok_bind]
  refine (mapM_isOk _ _).mpr fun i hi => ?_
  obtain ⟨⟨a, b, ha, hb⟩, c, d, hc, hd⟩ := h i (List.mem_range.mp hi)
  rw [Xml.pair_decimal ha hb, Xml.pair_decimal hc hd]
  exact ⟨_, rfl⟩

/-- The shipped targets. -/
example : ∃ ts : List (V2 ℝ × V2 ℝ), readTargets (.arr [.arr [.dbl 2.5, .dbl 2.5], .arr [.dbl 8.5, .dbl 2.5]])
    (.arr [.arr [.dbl 1.5, .dbl 1.5], .arr [.dbl 1.5, .dbl 1.5]]) = .ok ts ∧ ts.length = 2 := ⟨_, rfl, rfl⟩

/-- Whole numbers are refused. -/
example : readTargets (.arr [.arr [.int 2, .dbl 2.5]]) (.arr [.arr [.dbl 1.5, .dbl (1.5:ℝ)]]) =
    .throw .runtimeError := rfl

/-! ## Start-up -/

theorem params_parts {l : Launch F} {p : Params F} (h : l.params = .ok p) :
    ∃ buffer targets, castU32 l.buffer_size = .ok buffer ∧ readTargets l.means l.sigmas = .ok targets ∧
      p = { l.base with
        num_basis := (i2u l.num_basis).toNat
        buffer_size := buffer.toNat
        batch_size := (i2u l.batch_size).toNat
        vx_samples := i2u l.vx_samples
        vy_samples := i2u l.vy_samples
        vth_samples := i2u l.vth_samples
        targets := targets } := by
  unfold Launch.params at h
  simp only [Res.bind_eq_ok, Res.ok.injEq] at h
  obtain ⟨buffer, hb, targets, ht, rfl⟩ := h
  exact ⟨buffer, targets, hb, ht, rfl⟩

theorem create_ok_iff (lx ly : F) (n : UInt32) : (∃ b, Basis.create lx ly n = .ok b) ↔ n.toNat ≤ 46340 := by
  obtain ⟨h1, h2, h3⟩ := C88_basis lx ly n
  refine ⟨fun ⟨b, hb⟩ => ?_, fun h => ⟨_, h1 h⟩⟩
  by_contra hc
  by_cases h : n.toNat < 65536
  · rw [h2 (by omega) h] at hb; cases hb
  · rcases h3 (by omega) with h | h <;> rw [h] at hb <;> cases hb

/-- C88: a start-up from the parameter server succeeds exactly when the values are read, there are at
most 46340 basis functions per axis, and the start-up from the values read succeeds. -/
theorem C88_launch (l : Launch F) (r : Node F × List (Out F)) :
    (l.cart = .ok r ↔ (i2u l.num_basis).toNat ≤ 46340 ∧ ∃ p, l.params = .ok p ∧ Node.cart p = .ok r) ∧
    (l.omni = .ok r ↔ (i2u l.num_basis).toNat ≤ 46340 ∧ ∃ p, l.params = .ok p ∧ Node.omni p = .ok r) := by
  constructor
  · unfold Launch.cart
    simp only [Res.bind_eq_ok]
    constructor
    · rintro ⟨p, hp, b, hb, h⟩
      exact ⟨(create_ok_iff _ _ _).mp ⟨b, hb⟩, p, hp, h⟩
    · rintro ⟨hn, p, hp, h⟩
      obtain ⟨b, hb⟩ := (create_ok_iff (lit 0 0 : F) (lit 0 0) (i2u l.num_basis)).mpr hn
      exact ⟨p, hp, b, hb, h⟩
  · unfold Launch.omni
    simp only [Res.bind_eq_ok]
    constructor
    · rintro ⟨p, hp, b, hb, h⟩
      exact ⟨(create_ok_iff _ _ _).mp ⟨b, hb⟩, p, hp, h⟩
    · rintro ⟨hn, p, hp, h⟩
      obtain ⟨b, hb⟩ := (create_ok_iff (lit 0 0 : F) (lit 0 0) (i2u l.num_basis)).mpr hn
      exact ⟨p, hp, b, hb, h⟩

/-- The counts on the parameter server are C++ `int`s. -/
def Launch.Ints (l : Launch F) : Prop :=
  ∀ n ∈ [l.num_basis, l.batch_size, l.vx_samples, l.vy_samples, l.vth_samples],
    -2147483648 ≤ n ∧ n < 2147483648

/-- The counts in `p` are the ones on the parameter server. -/
def Launch.ReadExactly (l : Launch F) (p : Params F) : Prop :=
  (p.num_basis : Int) = l.num_basis ∧ (p.batch_size : Int) = l.batch_size ∧
  (p.vx_samples.toNat : Int) = l.vx_samples ∧ (p.vy_samples.toNat : Int) = l.vy_samples ∧
  (p.vth_samples.toNat : Int) = l.vth_samples

/-- C88 in full: a node that starts has read every count as it is written. -/
def C88_statement : Prop :=
  ∀ l : Launch ℝ, l.Ints → ∀ r p, (l.cart = .ok r ∨ l.omni = .ok r) → l.params = .ok p → l.ReadExactly p

/-- C88, the part that holds: the number of basis functions is read as written; the other counts are
unless they are negative. -/
theorem C88_counts_partial (l : Launch F) (hl : l.Ints) (r : Node F × List (Out F)) (p : Params F)
    (h : l.cart = .ok r ∨ l.omni = .ok r) (hp : l.params = .ok p) :
    0 ≤ l.num_basis ∧ l.num_basis ≤ 46340 ∧ (p.num_basis : Int) = l.num_basis ∧
    (0 ≤ l.batch_size → 0 ≤ l.vx_samples → 0 ≤ l.vy_samples → 0 ≤ l.vth_samples → l.ReadExactly p) := by
  have hn : (i2u l.num_basis).toNat ≤ 46340 := by
    rcases h with h | h
    · exact (((C88_launch l r).1).mp h).1
    · exact (((C88_launch l r).2).mp h).1
  obtain ⟨buffer, targets, -, -, rfl⟩ := params_parts hp
  simp only [Launch.Ints, List.mem_cons, List.not_mem_nil, or_false, forall_eq_or_imp, forall_eq] at hl
  obtain ⟨a, b, c, d, e⟩ := hl
  have h0 : 0 ≤ l.num_basis := by
    by_contra hc
    have := i2u_neg (n := l.num_basis) (by omega) (by omega)
    omega
  have h1 := i2u_nonneg h0 (by omega)
  refine ⟨h0, by omega, h1, fun hb hc hd he => ⟨h1, ?_, ?_, ?_, ?_⟩⟩
  · exact i2u_nonneg hb (by omega)
  · exact i2u_nonneg hc (by omega)
  · exact i2u_nonneg hd (by omega)
  · exact i2u_nonneg he (by omega)

/-- C88: a node never starts without a list of means, nor with a whole number or list in place of a
mean or standard deviation. -/
theorem C88_no_means (l : Launch F) (r : Node F × List (Out F)) (h : l.cart = .ok r ∨ l.omni = .ok r) :
    ∃ rows, l.means = .arr rows ∧ ∀ i j, i < rows.length → j < 2 →
      ¬ l.means.NotDecimal i j ∧ ¬ l.sigmas.NotDecimal i j := by
  have hp : ∃ p, l.params = .ok p := by
    rcases h with h | h
    · obtain ⟨-, p, hp, -⟩ := ((C88_launch l r).1).mp h; exact ⟨p, hp⟩
    · obtain ⟨-, p, hp, -⟩ := ((C88_launch l r).2).mp h; exact ⟨p, hp⟩
  obtain ⟨p, hp⟩ := hp
  obtain ⟨buffer, targets, -, ht, -⟩ := params_parts hp
  obtain ⟨rows, h1, -, h2⟩ := (C88_targets l.means l.sigmas).1 targets ht
  exact ⟨rows, h1, h2⟩

/-- C88: in exact arithmetic a node never starts when a mean has no standard deviations beside it. -/
theorem C88_no_sigmas (l : Launch ℝ) {rows srows : List (Xml ℝ)} (hm : l.means = .arr rows)
    (hs : l.sigmas = .invalid ∨ l.sigmas = .arr srows ∧ srows.length < rows.length) (hpos : 0 < rows.length)
    (r : Node ℝ × List (Out ℝ)) : l.cart ≠ .ok r ∧ l.omni ≠ .ok r := by
  have main : ∀ p, l.params = .ok p → ∃ t ∈ p.targets, ¬ (t.2.c0 ≠ 0 ∧ t.2.c1 ≠ 0) := by
    intro p hp
    obtain ⟨buffer, targets, -, ht, rfl⟩ := params_parts hp
    unfold readTargets at ht
    rw [hm] at ht
    simp only [Xml.size, Res.ok_bind] at ht
    obtain ⟨h1, h2⟩ := mapM_get _ _ ht
    obtain ⟨b, hb, hr⟩ := h2 (rows.length - 1) (rows.length - 1) (by rw [List.getElem?_range (by omega)])
    simp only [Res.bind_eq_ok, Res.ok.injEq] at hb
    obtain ⟨m, hm', s, hs', rfl⟩ := hb
    have hz : l.sigmas.item (rows.length - 1) = .ok .invalid := by
      rcases hs with hs | ⟨hs, hlt⟩
      · rw [hs]; rfl
      · rw [hs]
        simp only [Xml.item, List.getD_eq_getElem?_getD]
        rw [List.getElem?_eq_none (by omega)]
        rfl
    refine ⟨(m, s), List.mem_of_getElem? hr, ?_⟩
    unfold Xml.pair at hs'
    rw [hz] at hs'
    simp only [Res.ok_bind, Xml.item, Xml.num, Res.ok.injEq] at hs'
    subst hs'
    simp
  constructor
  · intro h
    obtain ⟨-, p, hp, hn⟩ := ((C88_launch l r).1).mp h
    obtain ⟨t, ht, hbad⟩ := main p hp
    obtain ⟨w0, w1, gs, collision, ec, dwa, ⟨-, -, hgs, -⟩, -⟩ := cart_parts (n := r.1) (o := r.2) hn
    exact hbad ((gaussian_ok _ _).mp ((mapM_isOk _ _).mp ⟨gs, hgs⟩ t ht))
  · intro h
    obtain ⟨-, p, hp, hn⟩ := ((C88_launch l r).2).mp h
    obtain ⟨t, ht, hbad⟩ := main p hp
    obtain ⟨w0, w1, w2, gs, collision, ec, dwa, ⟨-, -, -, hgs, -⟩, -⟩ :=
      omni_parts (n := r.1) (o := r.2) hn
    exact hbad ((gaussian_ok _ _).mp ((mapM_isOk _ _).mp ⟨gs, hgs⟩ t ht))

/-- The default `buffer_size`, the number `1e6`, and a negative one, which is undefined behaviour. -/
theorem C88_buffer : castU32 (1000000 : ℝ) = .ok 1000000 ∧ ∀ x : ℝ, x ≤ -1 → castU32 x = .ub := by
  constructor
  · have h := castU32_real_of (x := 1000000) (n := 1000000) (by norm_num) (by norm_num) (by norm_num)
    rw [h]
    rfl
  · intro x hx
    simp only [castU32, real_trunc]
    rw [if_neg]
    rintro ⟨h0, -⟩
    unfold realTrunc at h0
    rw [if_neg (by linarith)] at h0
    have : ⌈x⌉ ≤ (-1 : Int) := by
      rw [Int.ceil_le]
      push_cast
      linarith
    omega

/-- A parameter server with `n` samples of the forward velocity. -/
noncomputable def sampleLaunch (n : Int) : Launch ℝ :=
  { base := sideParams 1 1 (-1) 1, num_basis := 2, buffer_size := 10, batch_size := 0
    vx_samples := n, vy_samples := 1, vth_samples := 1
    means := .arr [.arr [.dbl 0, .dbl 0]], sigmas := .arr [.arr [.dbl 1, .dbl 1]] }

theorem sample_params (n : Int) : ∃ p, (sampleLaunch n).params = .ok p ∧ p.vx_samples = i2u n ∧ Sane p ∧
    StartsWith p ∧ 3 ≤ p.control_weights.length := by
  have hb : castU32 (10 : ℝ) = .ok 10 := by
    have h := castU32_real_of (x := 10) (n := 10) (by norm_num) (by norm_num) (by norm_num)
    rw [h]
    rfl
  have ht : readTargets (sampleLaunch n).means (sampleLaunch n).sigmas = .ok [(⟨0, 0⟩, ⟨1, 1⟩)] := rfl
  unfold Launch.params
  rw [ht, show (sampleLaunch n).buffer_size = 10 from rfl, hb]
  refine ⟨_, rfl, rfl, ?_, ⟨?_, ?_, ?_, ?_⟩, ?_⟩
  · constructor <;> simp only [sampleLaunch, sideParams] <;> norm_num
  · intro t ht
    simp only [List.mem_singleton] at ht
    subst ht
    norm_num
  · simp only [sampleLaunch, sideParams]; norm_num
  · simp only [sampleLaunch, sideParams]; norm_num
  · simp only [sampleLaunch, sideParams]; norm_num
  · simp [sampleLaunch, sideParams]

/-- C88 is false: with `vx_samples: -1` the node starts, and will try 4294967295 velocities. -/
theorem C88_refuted : ¬ C88_statement := by
  intro h
  obtain ⟨p, hp, hv, hs, hw, h3⟩ := sample_params (-1)
  obtain ⟨n, o, hn⟩ := (C78_starts_omni p hs).mpr ⟨h3, hw⟩
  have hl : (sampleLaunch (-1)).omni = .ok (n, o) :=
    ((C88_launch _ _).2).mpr ⟨by simp only [sampleLaunch]; decide, p, hp, hn⟩
  obtain ⟨-, -, hx, -, -⟩ := h (sampleLaunch (-1)) (by
    intro m hm
    simp only [sampleLaunch, List.mem_cons, List.not_mem_nil, or_false] at hm
    rcases hm with rfl | rfl | rfl | rfl | rfl <;> decide) (n, o) p (.inr hl) hp
  rw [hv, show (sampleLaunch (-1)).vx_samples = -1 from rfl, i2u_neg (by decide) (by decide)] at hx
  revert hx
  decide

/-- A server from which the omni-directional node starts with every count as written. -/
example : ∃ r p, (sampleLaunch 3).Ints ∧ (sampleLaunch 3).omni = .ok r ∧ (sampleLaunch 3).params = .ok p ∧
    p.vx_samples = 3 := by
  obtain ⟨p, hp, hv, hs, hw, h3⟩ := sample_params 3
  obtain ⟨n, o, hn⟩ := (C78_starts_omni p hs).mpr ⟨h3, hw⟩
  refine ⟨(n, o), p, ?_, ((C88_launch _ _).2).mpr ⟨by simp only [sampleLaunch]; decide, p, hp, hn⟩, hp, hv⟩
  intro m hm
  simp only [sampleLaunch, List.mem_cons, List.not_mem_nil, or_false] at hm
  rcases hm with rfl | rfl | rfl | rfl | rfl <;> decide

end Ergodic
