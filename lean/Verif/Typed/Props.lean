import Verif.Typed.Lemmas
/-
C85: a number of one type is compared with a number of another type by their values.
-/
namespace H2.Typed

abbrev u8 : ITy := .num false .w8
abbrev i32 : ITy := .num true .w32
abbrev u32 : ITy := .num false .w32
abbrev i64 : ITy := .num true .w64
abbrev u64 : ITy := .num false .w64
/-- A rounding for the examples: none at all. -/
def exactly : FTy → Rat → Fl := fun _ q => .fin q

/-! ### A number where a matcher is expected -/

/-- **C85.** `OK(e, a)`, and an `e` that stands for a matcher anywhere else, accepts `a` exactly
when they are the same number, if `e` is a number of the type of `a`. -/
theorem C85_plain_partial (rnd : FTy → Rat → Fl) (E : ITy) (hE : E ≠ .bool) (s : Bool) (w : Width)
    (e a : Int) (ha : InRange (.num s w) a) (he : InRange (.num s w) e) :
    ok rnd (.plain (.int E e)) (.int (.num s w) a) = .is (decide (e = a)) := by
  rw [ok, ok_plain_int rnd hE s w e a ha, fit_false, wrap_id he]

example : InRange u8 200 ∧ ok exactly (.plain (.int i32 200)) (.int u8 200) = .is true ∧
    ok exactly (.plain (.int i32 201)) (.int u8 200) = .is false := by
  refine ⟨by simp [InRange, Width.bits], by decide +kernel, by decide +kernel⟩

/-- **C85.** Otherwise `OK(e, a)` accepts `a` when it differs from `e` by a multiple of 2ⁿ, `n` the
width of the type of `a`. -/
theorem C85_plain_modulo (rnd : FTy → Rat → Fl) (E : ITy) (hE : E ≠ .bool) (s : Bool) (w : Width)
    (e a : Int) (ha : InRange (.num s w) a) :
    (ok rnd (.plain (.int E e)) (.int (.num s w) a) = .is true ↔ ∃ k : Int, e = a + k * 2 ^ w.bits) ∧
    (ok rnd (.plain (.int E e)) (.int (.num s w) a) = .is false ↔ ¬ ∃ k : Int, e = a + k * 2 ^ w.bits) := by
  rw [ok, ok_plain_int rnd hE s w e a ha, fit_false, ← wrap_eq_iff ha]
  simp

example : ok exactly (.plain (.int i32 (-1))) (.int u8 255) = .is true := by decide +kernel

/-- **C85 is false** of numbers that the type of the actual value does not have: `OK(300, c)`
passes for an `unsigned char c` that is 44. -/
theorem C85_narrow_false (rnd : FTy → Rat → Fl) :
    InRange i32 300 ∧ InRange u8 44 ∧ ok rnd (.plain (.int i32 300)) (.int u8 44) = .is true := by
  have ha : InRange u8 44 := by simp [InRange, Width.bits]
  refine ⟨by simp [InRange, Width.bits], ha, ?_⟩
  exact (C85_plain_modulo rnd i32 (by simp) false .w8 300 44 ha).1.2 ⟨1, by simp [Width.bits]⟩

/-- **C85.** A floating `e` loses its fraction in `OK(e, a)` for an integer `a`; what is left is
compared.  It is undefined behaviour if the type of `a` does not have it. -/
theorem C85_plain_floating (rnd : FTy → Rat → Fl) (k : FTy) (s : Bool) (w : Width) (q : Rat) (t a : Int)
    (ha : InRange (.num s w) a) (hq : Whole q t) :
    (InRange (.num s w) t → ok rnd (.plain (.flt k (.fin q))) (.int (.num s w) a) = .is (decide (t = a))) ∧
    (¬ InRange (.num s w) t → ok rnd (.plain (.flt k (.fin q))) (.int (.num s w) a) = .ub) := by
  have e : (Val.flt k (.fin q)).ty ≠ .int .bool := by simp [Val.ty]
  constructor
  · intro h
    rw [ok, fits, if_neg e]
    simp only [Val.ty, convert, flToInt, trunc_whole hq, wrap_id h, if_true, Option.map, Res.ofOption, Res.map]
    rw [equals_int _ _ (by simp), numberfy_inj h ha, fit_false]
  · intro h
    rw [ok, fits, if_neg e]
    simp only [Val.ty, convert, flToInt, trunc_whole hq]
    rw [if_neg (by rw [wrap_iff]; exact h)]
    rfl

/-- **C85.** So a floating `e` that is a whole number is compared as it is. -/
theorem C85_plain_whole_partial (rnd : FTy → Rat → Fl) (k : FTy) (s : Bool) (w : Width) (e a : Int)
    (ha : InRange (.num s w) a) (he : InRange (.num s w) e) :
    ok rnd (.plain (.flt k (.fin (e : Rat)))) (.int (.num s w) a) = .is (decide (e = a)) :=
  (C85_plain_floating rnd k s w e e a ha (whole_int e)).1 he

example : ok exactly (.plain (.flt .f64 (.fin 3))) (.int i32 3) = .is true ∧
    ok exactly (.plain (.flt .f64 (.fin 3))) (.int i32 4) = .is false := by decide +kernel

/-- **C85 is false** of fractions: `OK(3.7, 3)` passes. -/
theorem C85_fraction_false (rnd : FTy → Rat → Fl) :
    ok rnd (.plain (.flt .f64 (.fin (37 / 10)))) (.int i32 3) = .is true := by
  have ha : InRange i32 3 := by simp [InRange, Width.bits]
  exact (C85_plain_floating rnd .f64 true .w32 (37 / 10) 3 3 ha (by constructor <;> intro _ <;> grind)).1 ha

/-- Being near, as the code asks for it. -/
theorem near_iff (x y : Rat) : ((Fl.fin x).sub (.fin y)).abs.le (.fin (1 / 100000)) = true ↔ Near x y := by
  simp only [Fl.sub, Fl.abs, Fl.le, decide_eq_true_eq, Near]
  split <;> constructor
  · intro h; constructor <;> grind
  · rintro ⟨h1, h2⟩; grind
  · intro h; constructor <;> grind
  · rintro ⟨h1, h2⟩; grind

theorem toLong_exact {rnd : FTy → Rat → Fl} {k : FTy} {q : Rat} (h : Exact rnd q) :
    toLong rnd (.flt k (.fin q)) = .fin q := by
  cases k <;> simp [toLong, flToFl, h .f80]

/-- **C85.** With a floating `a`, `OK(e, a)` accepts what is within 0.00001 of `e` (whole or not), if
the floating types hold both numbers as they are. -/
theorem C85_plain_actual_floating_partial (rnd : FTy → Rat → Fl) (e : Val) (k : FTy) (p q : Rat)
    (he : (∃ (E : ITy) (z : Int), E ≠ .bool ∧ e = .int E z ∧ p = z) ∨ (∃ l, e = .flt l (.fin p)))
    (hp : Exact rnd p) (hq : Exact rnd q) :
    ok rnd (.plain e) (.flt k (.fin q)) = .is true ↔ Near q p := by
  have hc : convert rnd (.flt k) e = some (.flt k (.fin p)) := by
    rcases he with ⟨E, z, hE, rfl, rfl⟩ | ⟨l, rfl⟩
    · simp [convert, hp k]
    · simp only [convert]
      split
      · rfl
      · simp [flToFl, hp k]
  have hb : e.ty ≠ .int .bool := by
    rcases he with ⟨E, z, hE, rfl, rfl⟩ | ⟨l, rfl⟩
    · exact tyne hE
    · simp [Val.ty]
  rw [ok, fits, if_neg hb]
  simp only [Val.ty, hc, Res.ofOption, Res.map, fit_false, equalsResult, toLong_exact hp, toLong_exact hq,
    Res.is.injEq]
  exact near_iff q p

example : Exact exactly (1 / 4) ∧ ok exactly (.plain (.int i32 1)) (.flt .f64 (.fin (1 / 4))) = .is false ∧
    ok exactly (.plain (.flt .f32 (.fin (1 / 4)))) (.flt .f64 (.fin (1 / 4))) = .is true :=
  ⟨fun _ => rfl, by decide +kernel, by decide +kernel⟩

/-! ### Eq, Nq and the comparisons -/

theorem range64 {T : ITy} {z : Int} (h : InRange T z) : -2 ^ 63 ≤ z ∧ z < 2 ^ 64 := by
  revert h
  cases T with
  | bool => simp only [InRange]; omega
  | num s w => cases s <;> cases w <;> simp only [InRange, Width.bits] <;> omega

theorem range_big {T : ITy} {z : Int} (h : InRange T z) (hz : 2 ^ 63 ≤ z) : T = u64 := by
  cases T with
  | bool => simp only [InRange] at h; omega
  | num s w => cases s <;> cases w <;> first | rfl | (exfalso; simp only [InRange, Width.bits] at h; omega)

/-- **C85.** `Eq(e)` accepts an integer `a` of any type exactly when it is the same number, or
they differ by 2⁶⁴. -/
theorem C85_eq (rnd : FTy → Rat → Fl) (E A : ITy) (hE : E ≠ .bool) (e a : Int) (he : InRange E e) (ha : InRange A a) :
    ok rnd (.equals (.int E e)) (.int A a) = .is (decide (e = a ∨ e = a + 2 ^ 64 ∨ a = e + 2 ^ 64)) := by
  rw [ok, fits, equals_int e a hE, fit_false]
  congr 1
  rw [Bool.eq_iff_iff, beq_iff_eq, decide_eq_true_eq]
  simp only [numberfy, wrap, Width.bits, if_false, Bool.false_eq_true]
  have h1 := range64 he
  have h2 := range64 ha
  omega

/-- **C85.** So `Eq(e)`, and `OK(e == a)`, is right unless a negative number stands beside one of an
unsigned type of 64 bits. -/
theorem C85_eq_partial (rnd : FTy → Rat → Fl) (E A : ITy) (hE : E ≠ .bool) (e a : Int) (he : InRange E e)
    (ha : InRange A a) (h1 : e < 0 → A ≠ u64) (h2 : a < 0 → E ≠ u64) :
    ok rnd (.equals (.int E e)) (.int A a) = .is (decide (e = a)) ∧
    okCmp rnd .eq (.int E e) (.int A a) = .is (decide (e = a)) := by
  have h := C85_eq rnd E A hE e a he ha
  have g : (e = a ∨ e = a + 2 ^ 64 ∨ a = e + 2 ^ 64) ↔ e = a := by
    constructor
    · have r1 := range64 he
      have r2 := range64 ha
      rintro (h | h | h)
      · exact h
      · exact absurd (range_big he (by omega)) (h2 (by omega))
      · exact absurd (range_big ha (by omega)) (h1 (by omega))
    · exact Or.inl
  refine ⟨?_, ?_⟩
  · rw [h]; simp only [g]
  · show ok rnd (.equals (.int E e)) (.int A a) = _
    rw [h]; simp only [g]

example : okCmp exactly .eq (.int i32 (-1)) (.int u32 4294967295) = .is false ∧
    okCmp exactly .eq (.int i32 7) (.int u64 7) = .is true := by decide +kernel

/-- **C85 is false** of `Eq` across signs: `OK(-1 == a)` passes for the largest unsigned `a`. -/
theorem C85_eq_false (rnd : FTy → Rat → Fl) :
    okCmp rnd .eq (.int i32 (-1)) (.int u64 18446744073709551615) = .is true := by
  show ok rnd (.equals (.int i32 (-1))) (.int u64 18446744073709551615) = _
  rw [C85_eq rnd i32 u64 (by simp) _ _ (by simp [InRange, Width.bits]) (by simp [InRange, Width.bits])]
  simp

/-- **C85.** `OK(l != r)` is right if `l` is a number of the type of `r`. -/
theorem C85_ne_partial (rnd : FTy → Rat → Fl) (L : ITy) (hL : L ≠ .bool) (s : Bool) (w : Width)
    (l r : Int) (hr : InRange (.num s w) r) (hl : InRange (.num s w) l) :
    okCmp rnd .ne (.int L l) (.int (.num s w) r) = .is (decide (l ≠ r)) ∧
    ok rnd (.nq (.int L l)) (.int (.num s w) r) = .is (decide (l ≠ r)) := by
  have : ok rnd (.nq (.int L l)) (.int (.num s w) r) = .is (decide (l ≠ r)) := by
    rw [ok, nq_eq, ok_plain_int rnd hL s w l r hr, wrap_id hl]
    congr 1
    by_cases h : l = r <;> simp [h, fit]
  exact ⟨this, this⟩

example : okCmp exactly .ne (.int i32 200) (.int u8 44) = .is true := by decide +kernel

/-- **C85 is false** of `!=`: neither `OK(300 == c)` nor `OK(300 != c)` passes for an
`unsigned char c` that is 44. -/
theorem C85_neither_false (rnd : FTy → Rat → Fl) :
    okCmp rnd .eq (.int i32 300) (.int u8 44) = .is false ∧
    okCmp rnd .ne (.int i32 300) (.int u8 44) = .is false := by
  have ha : InRange u8 44 := by simp [InRange, Width.bits]
  have he : InRange i32 300 := by simp [InRange, Width.bits]
  constructor
  · rw [(C85_eq_partial rnd i32 u8 (by simp) 300 44 he ha (by simp) (by simp)).2]; simp
  · show fits rnd (.nq (.int i32 300)) (.int u8 44) false = _
    rw [nq_eq, ok_plain_int rnd (by simp) false .w8 300 44 ha]
    congr 1

/-- The order relations on converted numbers. -/
theorem order_int (rnd : FTy → Rat → Fl) (o : Ord) (A E : ITy) (a e : Int) :
    order rnd o (.int A a) (.int E e) = .is (o.ints (toITy (commonI A E) a) (toITy (commonI A E) e)) := rfl

theorem commonI_num (A E : ITy) : ∃ s w, commonI A E = .num s w := by
  cases A with
  | bool => cases E with
    | bool => exact ⟨_, _, rfl⟩
    | num s w => cases w <;> exact ⟨_, _, rfl⟩
  | num s w => cases E with
    | bool => cases w <;> exact ⟨_, _, rfl⟩
    | num t v => cases w <;> cases v <;> exact ⟨_, _, rfl⟩

/-- Fairly met numbers are not changed by the conversion. -/
theorem fair_common {A E : ITy} {a e : Int} (ha : InRange A a) (he : InRange E e) (h : Fair A a E e) :
    toITy (commonI A E) a = a ∧ toITy (commonI A E) e = e := by
  obtain ⟨h1, h2⟩ := h
  have nn : ∀ {s : ITy} {z : Int} {t : ITy} (v w : Width), s = .num true v → t = .num false w → 32 ≤ w.bits → v.bits ≤ w.bits →
      (¬ Meets s z t w) → 0 ≤ z := by
    intro s z t v w hs ht h32 hvw hm
    apply Classical.byContradiction
    intro hz
    exact hm ⟨ht, by omega, h32, v, hs, hvw⟩
  have key : ∀ (s : Bool) (w : Width), commonI A E = .num s w → InRange (.num s w) a ∧ InRange (.num s w) e := by
    intro s w hc
    cases A with
    | bool =>
      cases E with
      | bool =>
        simp only [commonI, promote, ITy.num.injEq] at hc
        obtain ⟨rfl, rfl⟩ := hc
        simp only [InRange, Width.bits, Bool.and_self] at *; omega
      | num t v =>
        cases t <;> cases v <;> simp only [commonI, promote, ITy.num.injEq, Bool.and_self, Bool.and_true, Bool.and_false] at hc <;> obtain ⟨rfl, rfl⟩ := hc <;>
          simp only [InRange, Width.bits] at * <;> omega
    | num b u =>
      cases E with
      | bool =>
        cases b <;> cases u <;> simp only [commonI, promote, ITy.num.injEq, Bool.and_self, Bool.true_and, Bool.false_and] at hc <;> obtain ⟨rfl, rfl⟩ := hc <;>
          simp only [InRange, Width.bits] at * <;> omega
      | num t v =>
        have n1 : b = true → t = false → 32 ≤ v.bits → u.bits ≤ v.bits → 0 ≤ a := by
          intro hb ht h3 h4; subst hb; subst ht
          exact nn u v rfl rfl h3 h4 (h1 v)
        have n2 : t = true → b = false → 32 ≤ u.bits → v.bits ≤ u.bits → 0 ≤ e := by
          intro hb ht h3 h4; subst hb; subst ht
          exact nn v u rfl rfl h3 h4 (h2 u)
        clear nn h1 h2
        cases b <;> cases t <;> cases u <;> cases v <;>
          simp only [commonI, promote, ITy.num.injEq, Bool.and_self, Bool.true_and, Bool.false_and, Bool.and_true, Bool.and_false] at hc <;>
          obtain ⟨rfl, rfl⟩ := hc <;>
          simp only [InRange, Width.bits, true_implies, Bool.false_eq_true, Bool.true_eq_false, false_implies] at * <;> omega
  obtain ⟨s, w, hc⟩ := commonI_num A E
  obtain ⟨k1, k2⟩ := key s w hc
  rw [hc]
  exact ⟨wrap_id k1, wrap_id k2⟩

/-- An unfairly met negative number becomes a large one. -/
theorem meets_common {A E : ITy} {a e : Int} {w : Width} (ha : InRange A a) (he : InRange E e) (h : Meets A a E w) :
    commonI A E = .num false w ∧ commonI E A = .num false w ∧
    toITy (.num false w) a = a + 2 ^ w.bits ∧ toITy (.num false w) e = e := by
  obtain ⟨rfl, hz, h32, v, rfl, hvw⟩ := h
  refine ⟨?_, ?_, ?_, wrap_id he⟩
  · cases w <;> cases v <;> simp [Width.bits] at h32 hvw <;> rfl
  · cases w <;> cases v <;> simp [Width.bits] at h32 hvw <;> rfl
  · simp only [toITy, wrap, if_false, Bool.false_eq_true]
    cases w <;> cases v <;> simp only [InRange, Width.bits] at * <;> omega

theorem commonI_comm (A E : ITy) : commonI A E = commonI E A := by
  cases A with
  | bool => cases E with
    | bool => rfl
    | num s w => cases w <;> cases s <;> rfl
  | num s w => cases E with
    | bool => cases w <;> cases s <;> rfl
    | num t v => cases w <;> cases v <;> cases s <;> cases t <;> rfl

theorem cmp_order (rnd : FTy → Rat → Fl) (c : Cmp) (hc : c ≠ .eq ∧ c ≠ .ne) (L R : ITy) (l r : Int) :
    okCmp rnd c (.int L l) (.int R r) =
      .is (decide (c.Holds (toITy (commonI L R) l) (toITy (commonI L R) r))) := by
  rw [commonI_comm L R]
  cases c <;> first | exact absurd rfl hc.1 | exact absurd rfl hc.2 |
    (rw [okCmp, cmpMatcher, fits, order_int, Res.map, fit_false]; rfl)

/-- **C85.** `OK(l < r)`, `OK(l <= r)`, `OK(l > r)` and `OK(l >= r)` are right for all integer types,
unless a negative number meets an unsigned type that is not smaller. -/
theorem C85_order_partial (rnd : FTy → Rat → Fl) (c : Cmp) (hc : c ≠ .eq ∧ c ≠ .ne) (L R : ITy) (l r : Int)
    (hl : InRange L l) (hr : InRange R r) (h : Fair L l R r) :
    okCmp rnd c (.int L l) (.int R r) = .is (decide (c.Holds l r)) := by
  rw [cmp_order rnd c hc]
  obtain ⟨h1, h2⟩ := fair_common hl hr h
  simp only [h1, h2]

example : Fair i32 (-5) i64 7 ∧ Fair (.num true .w64) (-5) u32 7 ∧ Fair u8 200 i32 (-5) ∧
    okCmp exactly .lt (.int (.num true .w64) (-5)) (.int u32 7) = .is true := by
  refine ⟨?_, ?_, ?_, by decide +kernel⟩ <;>
  · constructor <;> intro w <;> cases w <;> rintro ⟨h1, h2, h3, v, h4, h5⟩ <;> cases v <;> simp_all [Width.bits]

/-- **C85.** If it does, the negative number is taken for one that is larger by 2ⁿ, `n` the width of
the unsigned type. -/
theorem C85_order_mixed (rnd : FTy → Rat → Fl) (c : Cmp) (hc : c ≠ .eq ∧ c ≠ .ne) (L R : ITy) (l r : Int)
    (hl : InRange L l) (hr : InRange R r) (w : Width) :
    (Meets L l R w → okCmp rnd c (.int L l) (.int R r) = .is (decide (c.Holds (l + 2 ^ w.bits) r))) ∧
    (Meets R r L w → okCmp rnd c (.int L l) (.int R r) = .is (decide (c.Holds l (r + 2 ^ w.bits)))) := by
  rw [cmp_order rnd c hc]
  constructor
  · intro h
    obtain ⟨h1, _, h2, h3⟩ := meets_common hl hr h
    simp only [h1, h2, h3]
  · intro h
    obtain ⟨_, h1, h2, h3⟩ := meets_common hr hl h
    simp only [h1, h2, h3]

example : Meets i32 (-5) u32 .w32 := ⟨rfl, by decide, by decide, .w32, rfl, by decide⟩

/-- **C85 is false** then: `OK(-1 < 1u)` fails. -/
theorem C85_order_false (rnd : FTy → Rat → Fl) : okCmp rnd .lt (.int i32 (-1)) (.int u32 1) = .is false := by
  rw [(C85_order_mixed rnd .lt (by simp) i32 u32 (-1) 1 (by simp [InRange, Width.bits]) (by simp [InRange, Width.bits]) .w32).1
    ⟨rfl, by decide, by decide, .w32, rfl, by decide⟩]
  simp [Cmp.Holds, Width.bits]

/-! ### bool -/

theorem truth_iff (a : Val) : a.truth = true ↔ Nonzero a := by
  cases a with
  | int t z => simp [Val.truth, Nonzero]
  | flt k x => cases x <;> simp [Val.truth, Fl.truth, Nonzero]

/-- **C85.** `OK(true, a)` accepts exactly what is not zero, `OK(false, a)` what is. -/
theorem C85_bool (rnd : FTy → Rat → Fl) (a : Val) :
    (ok rnd (.plain (.int .bool 1)) a = .is true ↔ Nonzero a) ∧
    (ok rnd (.plain (.int .bool 0)) a = .is true ↔ ¬ Nonzero a) := by
  rw [← truth_iff]
  simp [ok, fits, Val.ty, equalsResult, fit_false]

/-- **C85.** `OK(x)` passes exactly when `x` is not zero. -/
theorem C85_truth (x : Val) : ok1 x = true ↔ Nonzero x := truth_iff x

/-- **C85.** `OK(e, b)` for a `bool b` passes exactly when `e` is not zero and `b` is true, or `e` is
zero and `b` is false. -/
theorem C85_flag (rnd : FTy → Rat → Fl) (E : ITy) (e b : Int) (hE : E ≠ .bool) (hb : InRange .bool b) :
    ok rnd (.plain (.int E e)) (.int .bool b) = .is (decide (e ≠ 0 ↔ b = 1)) := by
  rw [ok, fits, if_neg (tyne hE)]
  simp only [Val.ty, convert, toITy, Res.ofOption, Res.map, fit_false, equalsResult]
  congr 1
  rcases hb with rfl | rfl <;> by_cases he : e = 0 <;> simp [he, Val.truth]

/-- **C85 is false** of `==` with a `bool` on the left: `OK(true == 5)` passes, `OK(5 == true)` fails. -/
theorem C85_bool_false (rnd : FTy → Rat → Fl) :
    okCmp rnd .eq (.int .bool 1) (.int i32 5) = .is true ∧
    okCmp rnd .eq (.int i32 5) (.int .bool 1) = .is false := by
  constructor
  · simp [okCmp, cmpMatcher, fits, equalsResult, Val.truth, fit]
  · show ok rnd (.equals (.int i32 5)) (.int .bool 1) = _
    rw [C85_eq rnd i32 .bool (by simp) _ _ (by simp [InRange, Width.bits]) (Or.inr rfl)]
    simp

/-! ### Negation -/

theorem fit_not (n b : Bool) : fit (!n) b = !fit n b := by cases n <;> cases b <;> rfl

theorem map_map {α β γ : Type} (f : α → β) (g : β → γ) (r : Res α) : (r.map f).map g = r.map (g ∘ f) := by
  cases r <;> rfl

theorem bind_map {α β γ : Type} (r : Res α) (f : α → Res β) (g : β → γ) :
    (r.bind f).map g = r.bind (fun x => (f x).map g) := by
  cases r <;> rfl

theorem map_fit_not {α : Type} (n : Bool) (r : Res α) (f : α → Bool) :
    (r.map fun y => fit (!n) (f y)) = (r.map fun y => fit n (f y)).map (!·) := by
  cases r <;> simp [Res.map, fit_not]

theorem fits_not (rnd : FTy → Rat → Fl) (m : Mx) : ∀ (a : Val) (n : Bool),
    fits rnd m a (!n) = (fits rnd m a n).map (!·) := by
  induction m with
  | plain e =>
    intro a n
    simp only [fits]
    split
    · simp [Res.map, fit_not]
    · exact map_fit_not n _ _
  | equals e => intro a n; simp [fits, Res.map, fit_not]
  | nq e =>
    intro a n
    simp only [fits]
    split
    · simp [Res.map, fit_not]
    · exact map_fit_not (!n) _ _
  | ord o e => intro a n; exact map_fit_not n _ _
  | any => intro a n; simp [fits, Res.map, fit_not]
  | castOf d m ih =>
    intro a n
    simp only [fits, bind_map, ih]
  | held u m ih =>
    intro a n
    simp only [fits, heldFits, bind_map]
    congr 1
    funext a'
    cases m <;> simp only [ih]
    exact map_fit_not n _ _
  | not m ih => intro a n; exact ih a (!n)
  | bang m ih =>
    intro a n
    simp only [fits]
    split
    · exact ih a (!n)
    · rfl
  | and l r _ _ =>
    intro a n
    simp only [fits]
    split
    · rw [bind_map]; congr 1; funext x; exact map_fit_not n _ _
    · rfl
  | or l r _ _ =>
    intro a n
    simp only [fits]
    split
    · rw [bind_map]; congr 1; funext x; exact map_fit_not n _ _
    · rfl
  | user b => intro a n; exact map_fit_not n (b a) id

/-- **C85.** For every matcher of numbers, whatever conversions it makes, `KO(m, a)`, `OK(Not(m), a)`
and `OK(!m, a)` pass exactly when `OK(m, a)` fails. -/
theorem C85_opposite (rnd : FTy → Rat → Fl) (m : Mx) (a : Val) :
    ok rnd (.not m) a = (ok rnd m a).map (!·) ∧ ko rnd m a = (ok rnd m a).map (!·) ∧
    (m.poly = true → ok rnd (.bang m) a = (ok rnd m a).map (!·)) := by
  refine ⟨fits_not rnd m a false, rfl, ?_⟩
  intro h
  simp only [ok, fits, h, if_true]
  exact fits_not rnd m a false

example : ok exactly (.not (.castOf (.int i32) (.plain (.int i32 1)))) (.flt .f64 (.fin (6 / 5))) = .is false := by
  decide +kernel

/-- **C85.** `OK(l && r, a)` and `OK(l || r, a)` are the conjunction and the disjunction of what the
two matchers say. -/
theorem C85_both (rnd : FTy → Rat → Fl) (l r : Mx) (a : Val) (x y : Bool) (hl : l.poly = true) (hr : r.poly = true)
    (hx : ok rnd l a = .is x) (hy : ok rnd r a = .is y) :
    ok rnd (.and l r) a = .is (x && y) ∧ ok rnd (.or l r) a = .is (x || y) := by
  have s : ∀ (m : Mx) (z : Res Bool), m.poly = true → side rnd m a z = z := by
    intro m z hm; cases m <;> first | rfl | simp [Mx.poly] at hm
  simp only [ok] at hx hy
  constructor
  · simp [ok, fits, hl, s l _ hl, s r _ hr, hx, hy, Res.bind, Res.map, fit_false]
  · simp [ok, fits, hl, s l _ hl, s r _ hr, hx, hy, Res.bind, Res.map, fit_false]

example : ok exactly (.and (.ord .gt (.int i32 1)) (.ord .lt (.int i32 9))) (.int u8 5) = .is true := by decide +kernel

/-- **C85.** A number beside a matcher in `&&` or `||` compares the actual number as a number of its own
type: whether they differ by a multiple of 2ⁿ, `n` the bits of the type of the *expected* number. -/
theorem C85_both_number (rnd : FTy → Rat → Fl) (s : Bool) (w : Width) (e : Int) (he : InRange (.num s w) e) (A : ITy)
    (a : Int) (r : Mx) (x y : Bool) (hr : r.poly = true) (hx : x = true ↔ ∃ k : Int, a = e + k * 2 ^ w.bits)
    (hy : ok rnd r (.int A a) = .is y) :
    ok rnd (.and (.plain (.int (.num s w) e)) r) (.int A a) = .is (x && y) ∧
    ok rnd (.or (.plain (.int (.num s w) e)) r) (.int A a) = .is (x || y) := by
  have sr : ∀ z : Res Bool, side rnd r (.int A a) z = z := by
    intro z; cases r <;> first | rfl | simp [Mx.poly] at hr
  have sl : ∀ z : Res Bool, side rnd (.plain (.int (.num s w) e)) (.int A a) z = .is x := by
    intro z
    simp only [side, heldFits, Val.ty, convert, toITy, Res.ofOption, Res.bind, Res.map, fit_false, wrap_id he]
    rw [equals_int _ _ (by simp), numberfy_inj he (wrap_range s w a)]
    congr 1
    rw [Bool.eq_iff_iff, decide_eq_true_eq, hx, ← wrap_eq_iff he]
    exact eq_comm
  simp only [ok] at hy
  constructor
  · simp [ok, fits, hr, sl, sr, hy, Res.bind, Res.map, fit_false]
  · simp [ok, fits, hr, sl, sr, hy, Res.bind, Res.map, fit_false]

example : ok exactly (.and (.plain (.int u8 44)) (.ord .gt (.int i32 100))) (.int i32 300) = .is true := by decide +kernel

/-! ### CastOf and `h2_matcher<U>` -/

/-- **C85.** `CastOf<D>(e)` with an integer type `D` compares a floating number without its fraction. -/
theorem C85_castOf (rnd : FTy → Rat → Fl) (E : ITy) (hE : E ≠ .bool) (s : Bool) (w : Width) (k : FTy) (q : Rat)
    (t e : Int) (hq : Whole q t) (ht : InRange (.num s w) t) (he : InRange (.num s w) e) :
    ok rnd (.castOf (.int (.num s w)) (.plain (.int E e))) (.flt k (.fin q)) = .is (decide (e = t)) := by
  rw [ok, fits]
  simp only [convert, flToInt, trunc_whole hq, wrap_id ht, if_true, Option.map, Res.ofOption, Res.bind]
  rw [ok_plain_int rnd hE s w e t ht, fit_false, wrap_id he]

example : Whole (6 / 5) 1 ∧ ok exactly (.castOf (.int i32) (.plain (.int i32 1))) (.flt .f64 (.fin (6 / 5))) = .is true :=
  ⟨by constructor <;> intro _ <;> grind, by decide +kernel⟩

/-- **C85.** `CastOf<D>(e)` between integer types compares modulo the width of `D`. -/
theorem C85_castOf_int (rnd : FTy → Rat → Fl) (E A : ITy) (hE : E ≠ .bool) (s : Bool) (w : Width) (a e : Int) :
    ok rnd (.castOf (.int (.num s w)) (.plain (.int E e))) (.int A a) = .is true ↔ ∃ k : Int, a = e + k * 2 ^ w.bits := by
  rw [ok, fits]
  simp only [convert, Res.ofOption, Res.bind, toITy]
  rw [ok_plain_int rnd hE s w e _ (wrap_range s w a), fit_false, Res.is.injEq, decide_eq_true_eq,
    wrap_eq_iff (wrap_range s w a)]
  have h := (wrap_eq_iff (x := a) (wrap_range s w a)).1 rfl
  obtain ⟨j, hj⟩ := h
  constructor
  · rintro ⟨k, hk⟩
    refine ⟨j - k, ?_⟩
    rw [Int.sub_mul]; omega
  · rintro ⟨k, hk⟩
    refine ⟨j - k, ?_⟩
    rw [Int.sub_mul]; omega

example : ok exactly (.castOf (.int u8) (.plain (.int i32 44))) (.int i32 300) = .is true := by decide +kernel

/-- **C85.** `CastOf<bool>(Eq(e))` compares with one what is not zero, with zero what is. -/
theorem C85_castOf_bool (rnd : FTy → Rat → Fl) (E A : ITy) (hE : E ≠ .bool) (e a : Int) (he : InRange E e) :
    ok rnd (.castOf (.int .bool) (.equals (.int E e))) (.int A a) = .is (decide ((a ≠ 0 ∧ e = 1) ∨ (a = 0 ∧ e = 0))) := by
  have hb : ok rnd (.castOf (.int .bool) (.equals (.int E e))) (.int A a) =
      ok rnd (.equals (.int E e)) (.int .bool (if a = 0 then 0 else 1)) := rfl
  rw [hb]
  have hr2 : e < 2 ^ 64 ∧ -2 ^ 63 ≤ e := by
    cases E with
    | bool => rcases he with rfl | rfl <;> decide
    | num s w => cases s <;> cases w <;> simp only [InRange, Width.bits] at he <;> omega
  by_cases ha : a = 0
  · simp only [ha, if_true]
    rw [(C85_eq rnd E .bool hE e 0 he (Or.inl rfl))]
    congr 1; rw [Bool.eq_iff_iff]; simp; omega
  · simp only [ha, if_false]
    rw [(C85_eq rnd E .bool hE e 1 he (Or.inr rfl))]
    congr 1; rw [Bool.eq_iff_iff]; simp [ha]; omega

example (rnd : FTy → Rat → Fl) :
    ok rnd (.castOf (.int .bool) (.equals (.int i32 1))) (.int i32 7) = .is true ∧
    ok rnd (.equals (.int i32 1)) (.int i32 7) = .is false := by
  rw [C85_castOf_bool rnd i32 i32 (by simp) 1 7 (by simp [InRange, Width.bits])]
  exact ⟨by simp, by rw [C85_eq rnd i32 i32 (by simp) 1 7 (by simp [InRange, Width.bits]) (by simp [InRange, Width.bits])]; simp⟩

/-- **C85 is false** of a matcher that is kept in a variable of type `h2_matcher<int>`, and of a number
beside `&&`: the actual value loses its fraction.  `OK(Gt(3), 3.5)` passes, but with
`h2_matcher<int> m = Gt(3)`, `OK(m, 3.5)` fails; and `OK(Gt(0) && 5, 5.9)` passes. -/
theorem C85_held_false (rnd : FTy → Rat → Fl) (h : Exact rnd 3) :
    ok rnd (.ord .gt (.int i32 3)) (.flt .f64 (.fin (7 / 2))) = .is true ∧
    ok rnd (.held (.int i32) (.ord .gt (.int i32 3))) (.flt .f64 (.fin (7 / 2))) = .is false := by
  have w : Whole (7 / 2) 3 := by constructor <;> intro _ <;> grind
  constructor
  · have : rnd .f64 ((3 : Int) : Rat) = .fin 3 := h .f64
    simp only [ok, fits, order, Val.ty, common, convert, Res.ofOption, Res.bind, this, ordSame, Ord.fls, Fl.lt, Res.map,
      fit_false, if_true]
    decide +kernel
  · have w3 : wrap true .w32 3 = 3 := by decide +kernel
    simp only [ok, fits, heldFits, convert, flToInt, trunc_whole w, w3, if_true, Option.map, Res.ofOption, Res.bind, order_int,
      Res.map, fit_false]
    decide +kernel

example : ok exactly (.and (.ord .gt (.int i32 0)) (.plain (.int i32 5))) (.flt .f64 (.fin (59 / 10))) = .is true := by
  decide +kernel

/-! ### Infinity and NaN -/

/-- **C85.** NaN is equal to nothing, and no order holds with it. -/
theorem C85_nan (rnd : FTy → Rat → Fl) (k : FTy) (e : Val) (he : e.ty ≠ .int .bool) (o : Ord) :
    ok rnd (.equals e) (.flt k .nan) = .is false ∧ ok rnd (.ord o e) (.flt k .nan) = .is false := by
  constructor
  · have : toLong rnd (.flt k .nan) = .nan := by cases k <;> rfl
    cases e with
    | int t z =>
      cases t with
      | bool => exact absurd rfl he
      | num s w => simp [ok, fits, equalsResult, this, Fl.sub, Fl.abs, Fl.le, fit]
    | flt l x => simp [ok, fits, equalsResult, this, Fl.sub, Fl.abs, Fl.le, fit]
  · have n1 : ∀ x : Fl, Fl.le .nan x = false := fun x => by cases x <;> rfl
    have n2 : ∀ x : Fl, Fl.le x .nan = false := fun x => by cases x <;> rfl
    have n3 : ∀ x : Fl, Fl.lt .nan x = false := fun x => by cases x <;> rfl
    have n4 : ∀ x : Fl, Fl.lt x .nan = false := fun x => by cases x <;> rfl
    cases e with
    | int t z => cases o <;> simp [ok, fits, order, common, Val.ty, convert, Res.ofOption, Res.bind, ordSame, Ord.fls, Res.map, n1, n2, n3, n4, fit]
    | flt l x =>
      have c : ∀ k' : FTy, convert rnd (.flt k') (.flt k .nan) = some (.flt k' .nan) := by
        intro k'; simp [convert, flToFl]
      cases o <;> simp [ok, fits, order, common, Val.ty, c, Res.ofOption, Res.bind] <;> simp [convert, ordSame, Ord.fls, Res.map, n1, n2, n3, n4, fit]

/-- **C85.** Floating numbers of one type, and infinities, are in order as they should be. -/
theorem C85_order_floating (rnd : FTy → Rat → Fl) (k : FTy) (o : Ord) (e a : Fl) (he : e ≠ .nan) (ha : a ≠ .nan) :
    ok rnd (.ord o (.flt k e)) (.flt k a) = .is (decide (o.Holds a e)) := by
  have c : common (.flt k) (.flt k) = .flt k := by cases k <;> rfl
  simp only [ok, fits, order, Val.ty, c, convert, if_true, Res.ofOption, Res.bind, ordSame, Res.map, fit_false, Res.is.injEq]
  rw [Bool.eq_iff_iff, decide_eq_true_iff]
  rcases e with p | (_ | _) | _ <;> rcases a with q | (_ | _) | _ <;> cases o <;>
    simp_all [Ord.fls, Fl.le, Fl.lt, Ord.Holds, Fl.Below, Rat.not_lt]

example : ok exactly (.ord .lt (.flt .f64 (.inf true))) (.flt .f64 (.inf true)) = .is false ∧
    ok exactly (.ord .lt (.flt .f64 (.fin 1))) (.flt .f64 (.inf true)) = .is true ∧
    ok exactly (.ord .ge (.flt .f64 (.inf false))) (.flt .f64 (.fin 7)) = .is false := by decide +kernel

/-- **C85.** Numbers of two floating types are in order as they should be: the one of the smaller type is made one of the larger type, which
changes nothing. -/
theorem C85_order_widths (rnd : FTy → Rat → Fl) (k l : FTy) (o : Ord) (p q : Rat) (hp : Held rnd k p) (hq : Held rnd l q) :
    ok rnd (.ord o (.flt k (.fin p))) (.flt l (.fin q)) = .is (decide (o.Holds (.fin q) (.fin p))) := by
  have h1 : convert rnd (common (.flt l) (.flt k)) (.flt l (.fin q)) = some (.flt (l.max k) (.fin q)) := by
    simp only [common, convert]
    split
    · rfl
    · rw [flToFl, hq (l.max k) (by cases l <;> cases k <;> decide)]
  have h2 : convert rnd (common (.flt l) (.flt k)) (.flt k (.fin p)) = some (.flt (l.max k) (.fin p)) := by
    simp only [common, convert]
    split
    · rfl
    · rw [flToFl, hp (l.max k) (by cases l <;> cases k <;> decide)]
  simp only [ok, fits, order, Val.ty, h1, h2, Res.ofOption, Res.bind, ordSame, Res.map, fit_false, Res.is.injEq]
  rw [Bool.eq_iff_iff, decide_eq_true_iff]
  cases o <;> simp [Ord.fls, Fl.le, Fl.lt, Ord.Holds, Fl.Below, Rat.not_lt]

/-- Rounding to multiples of 1/2, 1/4 and 1/8 in the three types, to try it out. -/
def coarse : FTy → Rat → Fl
  | .f32, q => .fin ((q * 2).floor / 2)
  | .f64, q => .fin ((q * 4).floor / 4)
  | .f80, q => .fin ((q * 8).floor / 8)

example : Held coarse .f32 (1 / 2) ∧ Held coarse .f64 (3 / 4) ∧ ok coarse (.ord .gt (.flt .f32 (.fin (1 / 2)))) (.flt .f64 (.fin (3 / 4))) = .is true ∧
    ok coarse (.ord .lt (.flt .f64 (.fin (3 / 4)))) (.flt .f32 (.fin (1 / 2))) = .is true := by
  refine ⟨?_, ?_, by decide +kernel, by decide +kernel⟩
  · intro l; cases l <;> decide +kernel
  · intro l; cases l <;> decide +kernel

/-- **C85.** A plain floating number `e` where `a` is of another floating type is rounded to the type of `a` first, and then `OK(e, a)` accepts
what is within 0.00001 of that. -/
theorem C85_plain_rounded (rnd : FTy → Rat → Fl) (k l : FTy) (hkl : k ≠ l) (p p' q : Rat) (hr : rnd l p = .fin p') (hp : Held rnd l p') (hq : Held rnd l q) :
    ok rnd (.plain (.flt k (.fin p))) (.flt l (.fin q)) = .is true ↔ Near q p' := by
  have long : ∀ x, Held rnd l x → toLong rnd (.flt l (.fin x)) = .fin x := by
    intro x hx
    have := hx .f80 (by cases l <;> decide)
    cases l <;> simp [toLong, flToFl, this]
  have hc : convert rnd (.flt l) (.flt k (.fin p)) = some (.flt l (.fin p')) := by
    simp [convert, Ne.symm hkl, flToFl, hr]
  rw [ok, fits, if_neg (by simp [Val.ty])]
  simp only [Val.ty, hc, Res.ofOption, Res.map, fit_false, equalsResult, long _ hp, long _ hq, Res.is.injEq]
  exact near_iff q p'

example : coarse .f32 (3 / 4) = .fin (1 / 2) ∧ ok coarse (.plain (.flt .f64 (.fin (3 / 4)))) (.flt .f32 (.fin (1 / 2))) = .is true := by decide +kernel

/-- **C85.** An infinity is equal to no number, on either side, and not to the other infinity. -/
theorem C85_infinity_apart (rnd : FTy → Rat → Fl) (k l : FTy) (neg : Bool) (p : Rat) (h : Exact rnd p) :
    ok rnd (.equals (.flt l (.fin p))) (.flt k (.inf neg)) = .is false ∧
    ok rnd (.equals (.flt k (.inf neg))) (.flt l (.fin p)) = .is false ∧
    ok rnd (.equals (.flt l (.inf (!neg)))) (.flt k (.inf neg)) = .is false := by
  have a : ∀ k n, toLong rnd (.flt k (.inf n)) = .inf n := fun k n => by cases k <;> rfl
  have b : toLong rnd (.flt l (.fin p)) = .fin p := toLong_exact h
  refine ⟨?_, ?_, ?_⟩ <;> cases neg <;> simp [ok, fits, equalsResult, a, b, Fl.sub, Fl.abs, Fl.le, fit]

example : ok exactly (.equals (.flt .f32 (.fin 5))) (.flt .f64 (.inf false)) = .is false :=
  (C85_infinity_apart exactly .f64 .f32 false 5 (fun _ => rfl)).1

/-- **C85 is false** of infinity: `OK(INFINITY, a)` fails when `a` is infinity too. -/
theorem C85_infinity_false (rnd : FTy → Rat → Fl) (k : FTy) (neg : Bool) :
    ok rnd (.plain (.flt k (.inf neg))) (.flt k (.inf neg)) = .is false ∧
    okCmp rnd .eq (.flt k (.inf neg)) (.flt k (.inf neg)) = .is false := by
  have : toLong rnd (.flt k (.inf neg)) = .inf neg := by cases k <;> rfl
  constructor
  · simp [ok, fits, Val.ty, convert, Res.ofOption, Res.map, equalsResult, this, Fl.sub, Fl.abs, Fl.le, fit]
  · simp [okCmp, cmpMatcher, fits, equalsResult, this, Fl.sub, Fl.abs, Fl.le, fit]

end H2.Typed
