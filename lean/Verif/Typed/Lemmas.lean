import Verif.Typed.Spec
namespace H2.Typed

theorem wrap_id {s : Bool} {w : Width} {z : Int} (h : InRange (.num s w) z) : wrap s w z = z := by
  cases s <;> cases w <;> simp only [InRange, wrap, Width.bits, if_true, if_false, Bool.false_eq_true] at * <;> omega

theorem wrap_range (s : Bool) (w : Width) (z : Int) : InRange (.num s w) (wrap s w z) := by
  cases s <;> cases w <;> simp only [InRange, wrap, Width.bits, if_true, if_false, Bool.false_eq_true] <;> omega

theorem wrap_iff {s : Bool} {w : Width} {z : Int} : wrap s w z = z ↔ InRange (.num s w) z :=
  ⟨fun h => h ▸ wrap_range s w z, wrap_id⟩

/-- Two values of one type are the same when their 64 bits are. -/
theorem numberfy_inj {s : Bool} {w : Width} {x y : Int} (hx : InRange (.num s w) x)
    (hy : InRange (.num s w) y) : (numberfy x == numberfy y) = decide (x = y) := by
  rw [Bool.eq_iff_iff, beq_iff_eq, decide_eq_true_eq]
  cases s <;> cases w <;> simp only [InRange, numberfy, wrap, Width.bits, if_false, Bool.false_eq_true] at * <;> omega

/-- The number modulo 2ⁿ. -/
theorem wrap_eq_iff {s : Bool} {w : Width} {x y : Int} (hy : InRange (.num s w) y) :
    wrap s w x = y ↔ ∃ k : Int, x = y + k * 2 ^ w.bits := by
  constructor
  · intro h
    refine ⟨(x - y) / 2 ^ w.bits, ?_⟩
    subst h
    cases s <;> cases w <;> simp only [wrap, Width.bits, if_true, if_false, Bool.false_eq_true] <;> omega
  · rintro ⟨k, rfl⟩
    cases s <;> cases w <;> simp only [InRange, wrap, Width.bits, if_true, if_false, Bool.false_eq_true] at * <;> omega

theorem equals_int {rnd : FTy → Rat → Fl} {E A : ITy} (e a : Int) (hE : E ≠ .bool) :
    equalsResult rnd (.int E e) (.int A a) = (numberfy e == numberfy a) := by
  cases E with
  | bool => exact absurd rfl hE
  | num s w => rfl

theorem fit_false (b : Bool) : fit false b = b := by cases b <;> rfl
theorem fit_true (b : Bool) : fit true b = !b := by cases b <;> rfl

theorem tyne {E : ITy} {e : Int} (hE : E ≠ .bool) : ¬ (Val.int E e).ty = .int .bool := by
  intro h; apply hE; simpa [Val.ty] using h

theorem ok_plain_int (rnd : FTy → Rat → Fl) {E : ITy} (hE : E ≠ .bool) (s : Bool) (w : Width) (e a : Int)
    (ha : InRange (.num s w) a) (n : Bool) :
    fits rnd (.plain (.int E e)) (.int (.num s w) a) n = .is (fit n (decide (wrap s w e = a))) := by
  rw [fits, if_neg (tyne hE)]
  simp only [Val.ty, convert, toITy, Res.ofOption, Res.map]
  rw [equals_int _ _ (by simp), numberfy_inj (wrap_range s w e) ha]

theorem nq_eq (rnd : FTy → Rat → Fl) (e a : Val) (n : Bool) : fits rnd (.nq e) a n = fits rnd (.plain e) a (!n) := rfl

theorem floor_unique {q : Rat} {t : Int} (h1 : (t : Rat) ≤ q) (h2 : q < (t : Rat) + 1) : q.floor = t := by
  have a : t ≤ q.floor := Rat.le_floor_iff.2 h1
  have b : q.floor < t + 1 := by
    rw [Rat.floor_lt_iff]; push_cast; exact h2
  omega

theorem trunc_whole {q : Rat} {t : Int} (h : Whole q t) : trunc q = t := by
  unfold trunc
  split
  · rename_i hq
    obtain ⟨h1, h2⟩ := h.2 hq
    have : (-q).floor = -t := floor_unique (by push_cast; grind) (by push_cast; grind)
    omega
  · rename_i hq
    obtain ⟨h1, h2⟩ := h.1 (by grind)
    exact floor_unique h1 h2

theorem whole_trunc (q : Rat) : Whole q (trunc q) := by
  unfold trunc
  constructor
  · intro h
    rw [if_neg (by grind)]
    have h2 := Rat.lt_floor_add_one q
    push_cast at h2
    exact ⟨Rat.floor_le q, h2⟩
  · intro h
    rw [if_pos h]
    have h1 := Rat.floor_le (-q)
    have h2 := Rat.lt_floor_add_one (-q)
    push_cast
    constructor <;> grind

theorem whole_unique {q : Rat} {t u : Int} (h : Whole q t) (g : Whole q u) : t = u :=
  (trunc_whole h).symm.trans (trunc_whole g)

theorem whole_int (z : Int) : Whole (z : Rat) z := by
  constructor <;> intro _ <;> constructor <;> grind

end H2.Typed
