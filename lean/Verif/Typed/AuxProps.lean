import Verif.Typed.Props
import Verif.Typed.Explain
/-
C86: the matchers of `h2_matcher_aux.hpp`, and matchers defined by the user with `H2MATCHER`.
-/
namespace H2.Typed

theorem common_range {A E : ITy} {a e : Int} (ha : InRange A a) (he : InRange E e) (h : Fair A a E e)
    {s : Bool} {w : Width} (hc : commonI A E = .num s w) : InRange (.num s w) a ∧ InRange (.num s w) e := by
  obtain ⟨h1, h2⟩ := fair_common ha he h
  rw [hc] at h1 h2
  exact ⟨wrap_iff.1 h1, wrap_iff.1 h2⟩

theorem common_width (A E : ITy) : ∃ s w, commonI A E = .num s w ∧ (w = .w32 ∨ w = .w64) ∧
    (w = .w32 ↔ ∀ b, A ≠ .num b .w64 ∧ E ≠ .num b .w64) := by
  cases A with
  | bool => cases E with
    | bool => exact ⟨_, _, rfl, by simp, by simp⟩
    | num s w => cases w <;> exact ⟨_, _, rfl, by simp, by simp⟩
  | num s w => cases E with
    | bool => cases w <;> exact ⟨_, _, rfl, by simp, by simp⟩
    | num t v => cases w <;> cases v <;> cases s <;> cases t <;> exact ⟨_, _, rfl, by simp, by simp⟩

theorem common_ne_bool (A E : ITy) {s : Bool} {w : Width} (hc : commonI A E = .num s w) (z : Int) :
    toITy (commonI A E) z = wrap s w z := by rw [hc]; rfl

/-- The remainder of numbers that the conversion keeps. -/
theorem rem_fair {A E : ITy} {a e : Int} (ha : InRange A a) (he : InRange E e) (h : Fair A a E e) :
    (e = 0 → rem (.int A a) (.int E e) = .ub) ∧
    (e = -1 → Least A a E → rem (.int A a) (.int E e) = .ub) ∧
    (e ≠ 0 → (e = -1 → ¬ Least A a E) → ∃ c, rem (.int A a) (.int E e) = .is (c, a.tmod e)) := by
  obtain ⟨s, w, hc, hw, hl⟩ := common_width A E
  obtain ⟨k1, k2⟩ := fair_common ha he h
  obtain ⟨r1, r2⟩ := common_range ha he h hc
  have key : e = -1 → (toITy (commonI A E) (-a) ≠ -a ↔ Least A a E) := by
    intro e1
    subst e1
    rw [common_ne_bool A E hc]
    unfold Least
    rw [← hl]
    rcases hw with rfl | rfl <;> cases s <;>
      simp only [InRange, wrap, Width.bits, if_true, if_false, Bool.false_eq_true, true_and, and_true, reduceCtorEq, and_false, or_false] at * <;> omega
  refine ⟨?_, ?_, ?_⟩
  · intro h0
    simp only [rem, k2]
    rw [if_pos h0]
  · intro e1 hle
    simp only [rem, k1, k2]
    rw [if_neg (by omega), if_pos ⟨e1, (key e1).2 hle⟩]
  · intro h0 hle
    refine ⟨commonI A E, ?_⟩
    simp only [rem, k1, k2]
    rw [if_neg h0, if_neg]
    rintro ⟨e1, h2⟩
    exact hle e1 ((key e1).1 h2)

theorem tmod_dvd (a e : Int) : (a.tmod e == 0) = decide (e ∣ a) := by
  rw [Bool.eq_iff_iff, beq_iff_eq, decide_eq_true_eq]
  exact (Int.dvd_iff_tmod_eq_zero).symm

theorem fair_two (t : ITy) (z : Int) : Fair t z i32 2 := by
  constructor
  · rintro w ⟨h, _⟩; simp at h
  · rintro w ⟨_, h, _⟩; omega

/-- The remainder by two, of a number of any integer type. -/
theorem rem_two (t : ITy) (z : Int) (h : InRange t z) : ∃ c, rem (.int t z) (.int i32 2) = .is (c, z.tmod 2) :=
  (rem_fair h (by simp [InRange, Width.bits]) (fair_two t z)).2.2 (by omega) (by omega)

/-- **C86.** `OK(IsEven(), a)` passes exactly when `a`, of whatever integer type, is even, and
`OK(IsOdd(), a)` exactly when it is odd. -/
theorem C86_even (rnd : FTy → Rat → Fl) (t : ITy) (a : Int) (h : InRange t a) :
    ok rnd isEven (.int t a) = .is (decide (2 ∣ a)) ∧
    ok rnd isOdd (.int t a) = .is (decide (a % 2 = 1)) := by
  obtain ⟨c, hc⟩ := rem_two t a h
  constructor
  · simp only [ok, isEven, fits, hc, Res.map, fit_false, tmod_dvd]
  · have e1 : (a.tmod 2 != 0) = decide (a % 2 = 1) := by
      rw [bne, tmod_dvd, Bool.eq_iff_iff]
      simp only [Bool.not_eq_true', decide_eq_false_iff_not, decide_eq_true_eq]
      omega
    simp only [ok, isOdd, fits, hc, Res.map, fit_false, e1]

example : ok exactly isEven (.int i32 (-4)) = .is true ∧ ok exactly isOdd (.int i32 (-3)) = .is true ∧
    ok exactly isEven (.int u8 255) = .is false := by decide +kernel

/-- **C86.** `OK(IsDivable(e), a)` passes exactly when `e` divides `a`, for numbers of any integer types,
unless a negative number meets an unsigned type that is not smaller. -/
theorem C86_divable_partial (rnd : FTy → Rat → Fl) (A E : ITy) (a e : Int) (ha : InRange A a) (he : InRange E e)
    (h : Fair A a E e) (h0 : e ≠ 0) (h1 : e = -1 → ¬ Least A a E) :
    ok rnd (isDivable (.int E e)) (.int A a) = .is (decide (e ∣ a)) := by
  obtain ⟨c, hc⟩ := (rem_fair ha he h).2.2 h0 h1
  simp only [ok, isDivable, fits, hc, Res.map, fit_false, tmod_dvd]

example : ok exactly (isDivable (.int i32 (-3))) (.int i64 12) = .is true ∧
    ok exactly (isDivable (.int u32 5)) (.int i64 (-12)) = .is false := by decide +kernel

/-- **C86 is false** of zero, and of −1 with the least number: the program does what it likes. -/
theorem C86_divable_ub_false (rnd : FTy → Rat → Fl) (A E : ITy) (a : Int) (ha : InRange A a) :
    (∀ e, InRange E e → Fair A a E e → e = 0 → ok rnd (isDivable (.int E e)) (.int A a) = .ub) ∧
    (InRange E (-1) → Fair A a E (-1) → Least A a E → ok rnd (isDivable (.int E (-1))) (.int A a) = .ub) := by
  constructor
  · intro e he h h0
    simp only [ok, isDivable, fits, (rem_fair ha he h).1 h0, Res.map]
  · intro he h hl
    simp only [ok, isDivable, fits, (rem_fair ha he h).2.1 rfl hl, Res.map]

example : ok exactly (isDivable (.int i32 (-1))) (.int i32 (-2147483648)) = .ub ∧
    ok exactly (isDivable (.int i32 0)) (.int i32 5) = .ub ∧
    ok exactly (isDivable (.int i64 (-1))) (.int i32 (-2147483648)) = .is true := by decide +kernel

theorem rem_unsigned {A E : ITy} {a e x y : Int} {w : Width} (hc : commonI A E = .num false w)
    (hx : toITy (.num false w) a = x) (hy : toITy (.num false w) e = y) (h0 : y ≠ 0) :
    rem (.int A a) (.int E e) = .is (.num false w, x.tmod y) := by
  have : 0 ≤ y := by
    rw [← hy]
    have := wrap_range false w e
    exact this.1
  simp only [rem, hc, hx, hy]
  rw [if_neg h0, if_neg (by omega)]

/-- **C86.** If it does, the negative number is taken for one that is larger by 2ⁿ, `n` the width of the
unsigned type. -/
theorem C86_divable_mixed (rnd : FTy → Rat → Fl) (A E : ITy) (a e : Int) (ha : InRange A a) (he : InRange E e)
    (w : Width) :
    (Meets A a E w → e ≠ 0 → ok rnd (isDivable (.int E e)) (.int A a) = .is (decide (e ∣ a + 2 ^ w.bits))) ∧
    (Meets E e A w → ok rnd (isDivable (.int E e)) (.int A a) = .is (decide (e + 2 ^ w.bits ∣ a))) := by
  constructor
  · intro h h0
    obtain ⟨hc, _, h1, h2⟩ := meets_common ha he h
    simp only [ok, isDivable, fits, rem_unsigned hc h1 h2 h0, Res.map, fit_false, tmod_dvd]
  · intro h
    obtain ⟨_, hc, h1, h2⟩ := meets_common he ha h
    have h0 : e + 2 ^ w.bits ≠ 0 := by
      obtain ⟨_, _, h32, v, rfl, hv⟩ := h
      cases w <;> cases v <;> simp only [InRange, Width.bits] at * <;> omega
    simp only [ok, isDivable, fits, rem_unsigned hc h2 h1 h0, Res.map, fit_false, tmod_dvd]

/-- **C86.** That does not matter when `e` is a power of two. -/
theorem C86_divable_power (rnd : FTy → Rat → Fl) (A E : ITy) (a : Int) (ha : InRange A a) (n : Nat)
    (he : InRange E (2 ^ n)) (w : Width) (h : Meets A a E w) :
    ok rnd (isDivable (.int E (2 ^ n))) (.int A a) = .is (decide ((2 : Int) ^ n ∣ a)) := by
  have h0 : (2 : Int) ^ n ≠ 0 := by
    have : (0 : Int) < 2 ^ n := Int.pow_pos (by omega)
    omega
  rw [(C86_divable_mixed rnd A E a _ ha he w).1 h h0]
  have hn : n < w.bits := by
    obtain ⟨rfl, _⟩ := h
    have := he.2
    rcases Nat.lt_or_ge n w.bits with g | g
    · exact g
    · exfalso
      have : (2 : Int) ^ w.bits ≤ 2 ^ n := by exact_mod_cast Nat.pow_le_pow_right (by omega) g
      omega
  have hd : (2 : Int) ^ w.bits = 2 ^ n * 2 ^ (w.bits - n) := by
    rw [← Int.pow_add]; congr 1; omega
  congr 1
  rw [decide_eq_decide]
  constructor
  · rintro ⟨k, hk⟩
    refine ⟨k - 2 ^ (w.bits - n), ?_⟩
    rw [Int.mul_sub]; omega
  · rintro ⟨k, hk⟩
    refine ⟨k + 2 ^ (w.bits - n), ?_⟩
    rw [Int.mul_add]; omega

example : ok exactly (isDivable (.int u32 4)) (.int i32 (-12)) = .is true := by decide +kernel

/-- **C86 is false** of negative numbers and unsigned ones: `OK(IsDivable(3u), -3)` fails. -/
theorem C86_divable_false (rnd : FTy → Rat → Fl) : ok rnd (isDivable (.int u32 3)) (.int i32 (-3)) = .is false := by
  simp only [ok, isDivable, fits]
  decide +kernel

theorem fl_eq_fin (p q : Rat) : Fl.eq (.fin p) (.fin q) = decide (p = q) := by
  simp only [Fl.eq, Fl.le]
  rw [Bool.eq_iff_iff]
  simp only [Bool.and_eq_true, decide_eq_true_eq]
  constructor
  · rintro ⟨h1, h2⟩; exact Rat.le_antisymm h1 h2
  · rintro rfl; exact ⟨Rat.le_refl, Rat.le_refl⟩

/-- **C86.** `OK(IsInteger(), a)` passes for a finite floating number exactly when it is whole, never for
NaN, and for a number of an integer type if `double` has a whole number for it. -/
theorem C86_integer_partial (rnd : FTy → Rat → Fl) :
    (∀ k q, ok rnd (isInteger rnd) (.flt k (.fin q)) = .is true ↔ ∃ z : Int, q = z) ∧
    (∀ k, ok rnd (isInteger rnd) (.flt k .nan) = .is false) ∧
    (∀ t a, (∃ z : Int, rnd .f64 (a : Int) = .fin z) → ok rnd (isInteger rnd) (.int t a) = .is true) := by
  refine ⟨?_, ?_, ?_⟩
  · intro k q
    simp only [ok, isInteger, fits, Res.map, fit_false, Fl.floor, fl_eq_fin, Res.is.injEq, decide_eq_true_eq]
    constructor
    · intro h; exact ⟨q.floor, h.symm⟩
    · rintro ⟨z, rfl⟩; rw [Rat.floor_intCast]
  · intro k
    simp only [ok, isInteger, fits, Res.map, fit_false, Fl.floor]
    rfl
  · rintro t a ⟨z, hz⟩
    simp only [ok, isInteger, fits, Res.map, fit_false, hz, Fl.floor, fl_eq_fin, Rat.floor_intCast, decide_true]

example : ok exactly (isInteger exactly) (.flt .f64 (.fin (-42 / 10))) = .is false ∧
    ok exactly (isInteger exactly) (.flt .f64 (.fin (-4))) = .is true := by decide +kernel

/-- **C86 is false** of infinity, which is taken for an integer. -/
theorem C86_integer_false (rnd : FTy → Rat → Fl) (k : FTy) (neg : Bool) :
    ok rnd (isInteger rnd) (.flt k (.inf neg)) = .is true := by
  simp only [ok, isInteger, fits, Res.map, fit_false, Fl.floor]
  cases neg <;> rfl

/-- **C86.** `OK(IsNaN(), a)` passes exactly when `a` is NaN. -/
theorem C86_nan (rnd : FTy → Rat → Fl) (hr : ∀ z : Int, rnd .f64 z ≠ .nan) (a : Val) :
    (ok rnd (isNaN rnd) a = .is true ↔ ∃ k, a = .flt k .nan) ∧
    (ok rnd (isNaN rnd) a = .is false ↔ ¬ ∃ k, a = .flt k .nan) := by
  cases a with
  | int t z => simp [ok, isNaN, fits, Res.map, fit_false, hr z]
  | flt k x => cases x <;> simp [ok, isNaN, fits, Res.map, fit_false]

example : ok exactly (isNaN exactly) (.flt .f32 .nan) = .is true := by decide +kernel

/-- **C86.** A matcher that a user has defined accepts exactly what its body accepts: itself, negated,
and wherever it stands beside others in `&&` and `||`. -/
theorem C86_user (rnd : FTy → Rat → Fl) (p r : Val → Bool) (a : Val) :
    ok rnd (.user fun v => .is (p v)) a = .is (p a) ∧
    ok rnd (.bang (.user fun v => .is (p v))) a = .is (!p a) ∧
    ok rnd (.not (.user fun v => .is (p v))) a = .is (!p a) ∧
    ok rnd (.and (.user fun v => .is (p v)) (.bang (.user fun v => .is (r v)))) a = .is (p a && !r a) ∧
    ok rnd (.or (.not (.user fun v => .is (p v))) (.user fun v => .is (r v))) a = .is (!p a || r a) := by
  cases h1 : p a <;> cases h2 : r a <;> simp [ok, fits, side, Mx.poly, Res.map, Res.bind, h1, h2, fit]

/-! ### The message of a matcher -/

open H2.Layout (Word Line text room)
open H2.Abbrev (shown)

/-- **C86.** A failed matcher among the matchers of `AllOf`, `AnyOf` or `ListOf` is printed with its message. -/
theorem C86_message_partial (v : Int) (ci i : Nat) (expection represent : Line) (message : Word) (hm : '\x1b' ∉ message)
    (he : '\x1b' ∉ text expection) (hr : '\x1b' ∉ text represent)
    (hl : room (shown (text expection)) < 2 ^ 64 ∧ room (shown (text represent)) < 2 ^ 64) :
    nthUser i true expection represent message = none ∧
    ∃ f l c, nthUser i false expection represent message = some f ∧ Message.printUnexpect v f 0 ci = some (l, c) ∧
      message <:+ text l := by
  refine ⟨rfl, { expection := expection, represent := represent, user := message, seqno := (i : Int) }, ?_⟩
  have h0 : room (shown []) < 2 ^ 64 := by decide +kernel
  have ho : Message.Ordinary { expection := expection, represent := represent, user := message, seqno := (i : Int) } :=
    ⟨by simp, by simp, by simp, hm, by simp, he, hr, h0, h0, hl.1, hl.2⟩
  obtain ⟨l, c, e, a, h1, h2, _⟩ := Message.C64_within v _ ci ho rfl
  refine ⟨l, c, rfl, h1, ?_⟩
  rw [h2]
  simp only [Message.ending]
  by_cases h : message = []
  · rw [h]; exact List.nil_suffix
  · rw [if_neg h]
    simp only [← List.append_assoc, List.append_nil]
    exact List.suffix_append _ _

example : ∃ f, nthUser 1 false ["Is_Even()".toList] ["3".toList] "is not Even".toList = some f ∧
    (Message.printUnexpect 2 f 0 1).map (fun r => String.ofList (text r.1)) =
      some "   1. expect is Is_Even(), actual is 3, is not Even" := ⟨_, rfl, by decide +kernel⟩

/-- **C86 is false** of `OK(matcher, a)` itself: the message of the matcher is replaced by what is streamed
into the assertion, which is nothing in most; it is never printed.  Whatever the messages of two matchers
are, what is printed is the same. -/
theorem C86_message_false (v : Int) (ci : Nat) (expection represent : Line) (message other streamed eExpr aExpr place : Word) :
    ∃ f g, okUser false expection represent message streamed eExpr aExpr place = some f ∧
      okUser false expection represent other streamed eExpr aExpr place = some g ∧ f.user = streamed ∧
      Message.printUnexpect v f 0 ci = Message.printUnexpect v g 0 ci := ⟨_, _, rfl, rfl, rfl, rfl⟩

example : ∃ f, okUser false ["Is_Even()".toList] ["3".toList] "is not Even".toList [] "Is_Even()".toList "3".toList "a.cpp:7".toList = some f ∧
    (Message.printUnexpect 2 f 0 0).map (fun r => String.ofList (text r.1)) = some " OK(Is_Even() , 3) at a.cpp:7" :=
  ⟨_, rfl, by decide +kernel⟩

end H2.Typed
