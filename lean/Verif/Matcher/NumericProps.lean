import Verif.Matcher.Numeric
import Verif.Matcher.Props
/-
Properties C06 (MedianOf), C07 (Range), C50 (floating Eq), C52 (integer Eq and the comparison
forms), C53 (native arrays).
-/
namespace H2.Matcher

/-! ### C07: Range -/

theorem rabs_le (x d : Rat) : rabs x ≤ d ↔ x ≤ d ∧ -d ≤ x := by
  unfold rabs; split <;> grind

theorem margin_default : rabs (absoluteMargin 0) = 1 / 100000 := by
  unfold absoluteMargin rabs; grind

theorem rangeLoop_true (a stop step : Rat) (fuel : Nat) (i : Rat) :
    rangeLoop a stop step fuel i = some true →
      ∃ k : Nat, i + k * step < stop ∧ rabs (a - (i + k * step)) ≤ 1 / 100000 := by
  induction fuel generalizing i with
  | zero => simp [rangeLoop]
  | succ fuel ih =>
    intro h
    unfold rangeLoop at h
    split at h
    · split at h
      · rename_i h1 h2
        rw [margin_default] at h2
        exact ⟨0, by simpa [Rat.zero_mul, Rat.add_zero] using h1, by simpa [Rat.zero_mul, Rat.add_zero] using h2⟩
      · obtain ⟨k, h1, h2⟩ := ih _ h
        refine ⟨k + 1, ?_, ?_⟩
        · grind
        · have : i + ((k + 1 : Nat) : Rat) * step = i + step + k * step := by grind
          rw [this]; exact h2
    · simp at h

theorem rangeLoop_false (a stop step : Rat) (hs : 0 < step) (fuel : Nat) (i : Rat) :
    rangeLoop a stop step fuel i = some false →
      ∀ k : Nat, i + k * step < stop → ¬ rabs (a - (i + k * step)) ≤ 1 / 100000 := by
  induction fuel generalizing i with
  | zero => simp [rangeLoop]
  | succ fuel ih =>
    intro h
    unfold rangeLoop at h
    split at h
    · split at h
      · simp at h
      · rename_i h1 h2
        rw [margin_default] at h2
        intro k hk
        cases k with
        | zero => simpa [Rat.zero_mul, Rat.add_zero] using h2
        | succ k =>
          have e : i + ((k + 1 : Nat) : Rat) * step = i + step + k * step := by grind
          rw [e] at hk ⊢
          exact ih _ h k hk
    · rename_i h1
      intro k hk
      exfalso
      have : 0 ≤ (k : Rat) * step := Rat.mul_nonneg (by exact_mod_cast Nat.zero_le k) (by grind)
      grind

/-- The loop finishes once the index has passed the end. -/
theorem rangeLoop_total (a stop step : Rat) :
    ∀ (n : Nat) (i : Rat), stop ≤ i + n * step → ∃ b, rangeLoop a stop step (n + 1) i = some b := by
  intro n
  induction n with
  | zero =>
    intro i h
    refine ⟨false, ?_⟩
    unfold rangeLoop
    rw [if_neg]; grind
  | succ n ih =>
    intro i h
    unfold rangeLoop
    split
    · split
      · exact ⟨true, rfl⟩
      · exact ih (i + step) (by grind)
    · exact ⟨false, rfl⟩

theorem exists_steps (i stop step : Rat) (hs : 0 < step) : ∃ n : Nat, stop ≤ i + n * step := by
  refine ⟨((stop - i) / step).ceil.toNat, ?_⟩
  have h1 : (stop - i) / step ≤ (((stop - i) / step).ceil : Rat) := Rat.le_ceil
  have h2 : (((stop - i) / step).ceil : Rat) ≤ ((((stop - i) / step).ceil.toNat : Nat) : Rat) := by
    have : ((stop - i) / step).ceil ≤ (((stop - i) / step).ceil.toNat : Int) := by omega
    exact_mod_cast this
  have h3 : (stop - i) / step ≤ ((((stop - i) / step).ceil.toNat : Nat) : Rat) := Rat.le_trans h1 h2
  have h4 : (stop - i) / step * step ≤ ((((stop - i) / step).ceil.toNat : Nat) : Rat) * step :=
    Rat.mul_le_mul_of_nonneg_right h3 (by grind)
  have h5 : (stop - i) / step * step = stop - i := Rat.div_mul_cancel (by grind)
  grind

/-- **C07.** With a positive step, `Range(start, end, step)` always answers, and accepts exactly
the values within 1e-5 of some `start + k * step` (`k ≥ 0`) lying before `end`. -/
theorem C07_range_partial (start stop step a : Rat) (hs : 0 < step) :
    (rangeAccepts start (some stop) (some step) a ↔
      ∃ k : Nat, start + k * step < stop ∧ rabs (a - (start + k * step)) ≤ 1 / 100000) ∧
    (rangeRejects start (some stop) (some step) a ↔
      ¬ ∃ k : Nat, start + k * step < stop ∧ rabs (a - (start + k * step)) ≤ 1 / 100000) := by
  obtain ⟨n, hn⟩ := exists_steps start stop step hs
  obtain ⟨b, hb⟩ := rangeLoop_total a stop step n start hn
  have ht : ∀ f, rangeLoop a stop step f start = some true → _ := fun f => rangeLoop_true a stop step f start
  have hf : ∀ f, rangeLoop a stop step f start = some false → _ := fun f => rangeLoop_false a stop step hs f start
  simp only [rangeAccepts, rangeRejects, rangeArgs, Option.getD_some]
  constructor
  · constructor
    · rintro ⟨f, h⟩; exact ht f h
    · rintro ⟨k, h1, h2⟩
      cases b with
      | true => exact ⟨_, hb⟩
      | false => exact absurd h2 (hf _ hb k h1)
  · constructor
    · rintro ⟨f, h⟩ ⟨k, h1, h2⟩; exact hf f h k h1 h2
    · intro h
      cases b with
      | true => exact absurd (ht _ hb) h
      | false => exact ⟨_, hb⟩

/-- **C07.** On integers this is membership in Python's `range(start, end, step)`, step ≥ 1. -/
theorem C07_range_int_partial (start stop step a : Int) (hs : 0 < step) :
    rangeAccepts start (some stop) (some step) a ↔ ∃ k : Nat, a = start + k * step ∧ a < stop := by
  have hs' : (0 : Rat) < (step : Rat) := by exact_mod_cast hs
  rw [(C07_range_partial start stop step a hs').1]
  constructor
  · rintro ⟨k, h1, h2⟩
    have e : (start : Rat) + k * step = ((start + k * step : Int) : Rat) := by
      simp [Rat.intCast_add, Rat.intCast_mul, Rat.intCast_natCast]
    rw [e] at h1 h2
    have e2 : (a : Rat) - ((start + k * step : Int) : Rat) = ((a - (start + k * step) : Int) : Rat) := by
      simp [Rat.intCast_sub]
    rw [e2, rabs_le] at h2
    obtain ⟨h3, h4⟩ := h2
    have h5 : (a - (start + k * step) : Int) < 1 := by
      have : ((a - (start + k * step) : Int) : Rat) < ((1 : Int) : Rat) := by grind
      exact Rat.intCast_lt_intCast.1 this
    have h6 : (-1 : Int) < (a - (start + k * step) : Int) := by
      have : ((-1 : Int) : Rat) < ((a - (start + k * step) : Int) : Rat) := by
        have : ((-1 : Int) : Rat) = -1 := rfl
        rw [this]; grind
      exact Rat.intCast_lt_intCast.1 this
    have h7 : (start + k * step : Int) < stop := Rat.intCast_lt_intCast.1 h1
    exact ⟨k, by omega, by omega⟩
  · rintro ⟨k, h1, h2⟩
    have e : (start : Rat) + k * step = (a : Rat) := by
      rw [h1]; simp [Rat.intCast_add, Rat.intCast_mul, Rat.intCast_natCast]
    refine ⟨k, ?_, ?_⟩
    · rw [e]; exact_mod_cast h2
    · rw [e, Rat.sub_self]; unfold rabs; grind

/-- **C07.** `Range(n)` is `Range(0, n, 1)` and `Range(s, e)` is `Range(s, e, 1)`. -/
theorem C07_defaults_partial (s e : Rat) (a : Rat) :
    (rangeAccepts e none none a ↔ rangeAccepts 0 (some e) (some 1) a) ∧
    (rangeAccepts s (some e) none a ↔ rangeAccepts s (some e) (some 1) a) := ⟨Iff.rfl, Iff.rfl⟩

/-- **C07 is false for steps that are not positive**: the matcher never returns on a value it has
not met at the start. -/
theorem C07_nonpositive_step_hangs (start stop step a : Rat) (hs : step ≤ 0) (hlt : start < stop)
    (ha : start + 1 / 100000 < a) : rangeHangs start (some stop) (some step) a := by
  intro fuel
  simp only [rangeArgs, Option.getD_some]
  have key : ∀ (fuel : Nat) (i : Rat), i ≤ start → rangeLoop a stop step fuel i = none := by
    intro fuel
    induction fuel with
    | zero => intros; rfl
    | succ fuel ih =>
      intro i hi
      unfold rangeLoop
      rw [if_pos (by grind), if_neg (by rw [margin_default, rabs_le]; grind)]
      exact ih _ (by grind)
  exact key fuel start (by grind)

/-- **C07 is false for counting down**: 5 is in Python's `range(10, 0, -1)`; it is rejected. -/
theorem C07_countdown_false : rangeRejects 10 (some 0) (some (-1)) 5 := ⟨1, by decide +kernel⟩

example : rangeAccepts 1 (some 10) (some 3) 7 := (C07_range_int_partial 1 10 3 7 (by decide)).2 ⟨2, by decide, by decide⟩
example : rangeRejects 1 (some 10) (some 3) 8 := ⟨5, by decide +kernel⟩

/-! ### C06: MedianOf -/

/-- Sorted from least to greatest. -/
def Ascending (l : List Rat) : Prop := l.Pairwise (· ≤ ·)

theorem medianInsert_perm (x : Rat) (l : List Rat) : (medianInsert x l).Perm (x :: l) := by
  induction l with
  | nil => exact List.Perm.refl _
  | cons b bs ih =>
    unfold medianInsert
    split
    · exact List.Perm.refl _
    · exact (List.Perm.cons b ih).trans (List.Perm.swap x b bs)

theorem medianInsert_sorted (x : Rat) (l : List Rat) (h : Ascending l) : Ascending (medianInsert x l) := by
  induction l with
  | nil => simp [medianInsert, Ascending]
  | cons b bs ih =>
    unfold Ascending at *
    rw [List.pairwise_cons] at h
    unfold medianInsert
    split
    · rename_i hx
      rw [List.pairwise_cons]
      refine ⟨?_, List.pairwise_cons.2 h⟩
      intro y hy
      rcases List.mem_cons.1 hy with hy | hy
      · subst hy; grind
      · have := h.1 y hy; grind
    · rename_i hx
      rw [List.pairwise_cons]
      refine ⟨?_, ih h.2⟩
      intro y hy
      have := (medianInsert_perm x bs).mem_iff.1 hy
      rcases List.mem_cons.1 this with hy | hy
      · subst hy; grind
      · exact h.1 y hy

theorem medianSorted_aux (xs acc : List Rat) (h : Ascending acc) :
    Ascending (xs.foldl (fun b x => medianInsert x b) acc) ∧
    (xs.foldl (fun b x => medianInsert x b) acc).Perm (xs ++ acc) := by
  induction xs generalizing acc with
  | nil => exact ⟨h, List.Perm.refl _⟩
  | cons x xs ih =>
    obtain ⟨h1, h2⟩ := ih (medianInsert x acc) (medianInsert_sorted x acc h)
    refine ⟨h1, h2.trans ?_⟩
    have h3 : (xs ++ medianInsert x acc).Perm (xs ++ x :: acc) := List.Perm.append_left xs (medianInsert_perm x acc)
    exact h3.trans (List.perm_middle)

/-- **C06 (odd count).** For an odd number of selected elements MedianOf hands on the middle
element of the sorted sequence: for *any* ascending rearrangement `s` of the elements, the
element at the middle index. -/
theorem C06_median_odd_partial (xs s : List Rat) (hs : Ascending s) (hp : s.Perm xs) (q : Rat)
    (hodd : xs.length % 2 = 1) (hq : s[xs.length / 2]? = some q) : medianValue xs = .value q := by
  have h := medianSorted_aux xs [] (by simp [Ascending])
  have heq : medianSorted xs = s := by
    have hperm : (medianSorted xs).Perm s := by
      have : (medianSorted xs).Perm (xs ++ []) := h.2
      rw [List.append_nil] at this
      exact this.trans hp.symm
    exact hperm.eq_of_pairwise (fun a b _ _ h1 h2 => Rat.le_antisymm h1 h2) h.1 hs
  have hlen : s.length = xs.length := hp.length_eq
  unfold medianValue
  rw [heq]
  simp only
  rw [hlen, if_neg (by omega), if_pos hodd, hq]

/-- The median of an even number of elements: mean of the two middle ones of the sorted
sequence. -/
def evenMedian (s : List Rat) : Option Rat :=
  match s[s.length / 2 - 1]?, s[s.length / 2]? with
  | some p, some q => some ((p + q) / 2)
  | _, _ => none

/-- **C06 is false for even counts**: the median of 1, 2, 3, 4 is 5/2, MedianOf uses 7/2. -/
theorem C06_median_even_false :
    Ascending [1, 2, 3, 4] ∧ evenMedian [1, 2, 3, 4] = some (5 / 2) ∧ medianValue [1, 2, 3, 4] = .value (7 / 2) := by
  refine ⟨?_, by decide +kernel, by decide +kernel⟩
  unfold Ascending; decide +kernel

/-- **C06 is false for even counts**: with two elements it always reads past the end of its
vector. -/
theorem C06_median_two_ub (x y : Rat) : medianValue [x, y] = .ub := by
  unfold medianValue medianSorted
  simp only [List.foldl, medianInsert]
  split <;> simp

/-- What MedianOf computes for an even count of at least four: elements number n/2 and n/2+1 of
the sorted sequence (counted from zero), one too far up. -/
theorem C06_median_even_actual (xs s : List Rat) (hs : Ascending s) (hp : s.Perm xs) (p q : Rat)
    (heven : xs.length % 2 = 0) (h0 : xs.length ≠ 0)
    (hp' : s[xs.length / 2]? = some p) (hq : s[xs.length / 2 + 1]? = some q) :
    medianValue xs = .value ((p + q) / 2) := by
  have h := medianSorted_aux xs [] (by simp [Ascending])
  have heq : medianSorted xs = s := by
    have hperm : (medianSorted xs).Perm s := by
      have : (medianSorted xs).Perm (xs ++ []) := h.2
      rw [List.append_nil] at this
      exact this.trans hp.symm
    exact hperm.eq_of_pairwise (fun a b _ _ h1 h2 => Rat.le_antisymm h1 h2) h.1 hs
  have hlen : s.length = xs.length := hp.length_eq
  unfold medianValue
  rw [heq]
  simp only
  rw [hlen, if_neg h0, if_neg (by omega), hp', hq]

example : medianValue [5, 1, 3] = .value 3 := by decide +kernel
example : Ascending [1, 3, 5] ∧ [1, 3, 5].Perm [5, 1, (3 : Rat)] := by
  constructor
  · unfold Ascending; decide +kernel
  · decide +kernel

/-! ### C50: floating Eq -/

/-- **C50.** `Eq(e)` accepts exactly within 1e-5. -/
theorem C50_default_partial (e a : Rat) : floatEq .default e a = some (decide (rabs (a - e) ≤ 1 / 100000)) := by
  unfold floatEq eqEpsilon
  simp only [Option.map_some, ne_eq, not_true_eq_false, false_and, if_false, Option.some.injEq]
  have : ((0 : Nat) : Rat) = 0 := rfl
  rw [this, margin_default]

/-- An amount with at most 14 decimals. -/
def Decimal14 (x : Rat) (n : Nat) : Prop := x * (apA : Nat) = (n : Nat)

theorem approxTimes_decimal (x : Rat) (n : Nat) (hx : 0 ≤ x) (h : Decimal14 x n) (hn : n < 2 ^ 64) :
    approxTimes x = some n := by
  unfold approxTimes
  have h1 : rabs x = x := by unfold rabs; grind
  unfold Decimal14 at h
  rw [h1, h]
  have h2 : ((n : Nat) : Rat).floor = (n : Int) := by
    have : ((n : Nat) : Rat) = ((n : Int) : Rat) := rfl
    rw [this, Rat.floor_intCast]
  simp only [h2]
  rw [if_pos (by exact_mod_cast hn)]
  simp

/-- **C50.** `Eq(e, eps)` accepts exactly within `eps`, for margins with at most 14 decimals and
below 174467.44. -/
theorem C50_absolute_partial (eps e a : Rat) (n : Nat) (h0 : 0 ≤ eps) (h : Decimal14 eps n)
    (hn : n + apB < 2 ^ 64) : floatEq (.absolute eps) e a = some (decide (rabs (a - e) ≤ eps)) := by
  simp only [floatEq, eqEpsilon]
  rw [approxTimes_decimal eps n h0 h (by omega)]
  simp only [Option.map_some, Option.some.injEq]
  rw [Nat.mod_eq_of_lt hn]
  have hB : ¬ (n + apB ≠ 0 ∧ n + apB < apB) := by omega
  rw [if_neg hB]
  have hm : rabs (absoluteMargin ((n + apB : Nat) : Rat)) = eps := by
    unfold absoluteMargin
    have hne : ¬ ((n + apB : Nat) : Rat) = 0 := by
      have : (n + apB) ≠ 0 := by unfold apB; omega
      exact_mod_cast this
    rw [if_neg hne]
    have h1 : (((n + apB : Nat) : Rat) - (apB : Nat)) = (n : Nat) := by
      have : ((n + apB : Nat) : Rat) = (n : Rat) + (apB : Rat) := by simp [Rat.natCast_add]
      rw [this]; grind
    unfold Decimal14 at h
    rw [h1, ← h, Rat.mul_div_cancel (by unfold apA; decide)]
    unfold rabs; grind
  rw [hm]

/-- **C50.** `Eq(e, p%)` accepts exactly within `p` percent of `e`, for percentages with at most
14 decimals, above 0 and below 10000. -/
theorem C50_percent_partial (p e a : Rat) (n : Nat) (h0 : 0 ≤ p) (h : Decimal14 p n)
    (hn0 : n ≠ 0) (hn : n < apB) :
    floatEq (.percent p) e a = some (decide (rabs (a - e) ≤ rabs (e * (p / 100)))) := by
  simp only [floatEq, eqEpsilon]
  rw [approxTimes_decimal p n h0 h (by unfold apB at hn; omega)]
  simp only [Option.map_some, Option.some.injEq]
  rw [Nat.mod_eq_of_lt hn, if_pos ⟨hn0, hn⟩]
  unfold Decimal14 at h
  rw [← h, Rat.mul_div_cancel (by unfold apA; decide)]

/-- **C50 is false for large absolute margins**: `Eq(0, 180000)` rejects 170000. -/
theorem C50_large_margin_false : floatEq (.absolute 180000) 0 170000 = some false := by decide +kernel

/-- **C50 is false for 10000% and more**: `Eq(1, 10000%)` rejects 2. -/
theorem C50_large_percent_false : floatEq (.percent 10000) 1 2 = some false := by decide +kernel

example : floatEq (.absolute (1 / 10)) 1 (11 / 10) = some true ∧ Decimal14 (1 / 10) 10000000000000 := by
  constructor
  · decide +kernel
  · unfold Decimal14; decide +kernel
example : floatEq (.percent 5) 100 95 = some true ∧ floatEq (.percent 5) 100 94 = some false := by decide +kernel

/-! ### C52: integer equality and comparisons -/

/-- **C52.** Two integers of 64-bit types (both signed or both unsigned) are accepted as equal
exactly when they are equal. -/
theorem C52_int_eq_partial (e a : Int)
    (h : (-2 ^ 63 ≤ e ∧ e < 2 ^ 63 ∧ -2 ^ 63 ≤ a ∧ a < 2 ^ 63) ∨ (0 ≤ e ∧ e < 2 ^ 64 ∧ 0 ≤ a ∧ a < 2 ^ 64)) :
    intEq e a = decide (e = a) := by
  unfold intEq toUintptr
  rw [Bool.eq_iff_iff]
  simp only [beq_iff_eq, decide_eq_true_eq]
  constructor
  · intro hh
    have := congrArg BitVec.toInt hh
    simp only [BitVec.toInt_ofInt] at this
    have h2 := congrArg BitVec.toNat hh
    simp only [BitVec.toNat_ofInt] at h2
    omega
  · intro hh; rw [hh]

/-- **C52 is false across signedness**: −1 and 2⁶⁴−1 are accepted as equal. -/
theorem C52_mixed_sign_false : intEq (-1) (2 ^ 64 - 1) = true := by decide +kernel

/-- **C52.** `OK(a < b)`, `OK(a >= b)`, … pass exactly when the relation holds (signed 64-bit). -/
theorem C52_comparisons_partial (op : CmpOp) (l r : Int)
    (hl : -2 ^ 63 ≤ l ∧ l < 2 ^ 63) (hr : -2 ^ 63 ≤ r ∧ r < 2 ^ 63) :
    cmpVerdict op l r = true ↔
      (match op with
        | .eq => l = r | .ne => l ≠ r | .gt => l > r | .lt => l < r | .ge => l ≥ r | .le => l ≤ r) := by
  have h := C52_int_eq_partial l r (Or.inl ⟨hl.1, hl.2, hr.1, hr.2⟩)
  cases op <;> simp [cmpVerdict, h]

example : cmpVerdict .lt (-3) 5 = true ∧ cmpVerdict .ge (-3) 5 = false := by decide +kernel

/-! ### C53: container matchers on native arrays and raw pointers -/

/-- **C53.** A native array of `d` elements is seen as exactly its `d` elements, whatever the
ranges. -/
theorem C53_array_whole_partial (r : Rng) (c : C) (mem : List Val) (d : Nat) (hd : c.dimension = d) (hm : mem.length = d) :
    arrayView r c mem = some mem := by
  unfold arrayView arraySize
  have : ¬ c.dimension = -1 := by omega
  rw [if_neg this, hd]
  simp [← hm]

/-- **C53.** A raw pointer with the range `(0, n)` (or `/ n`) is seen as its first `n` elements. -/
theorem C53_pointer_prefix_partial (c : C) (mem : List Val) (n : Nat) (hd : c.dimension = -1)
    (hs : c.rangeStart = 0) (he : c.rangeEnd = n) (hn : n < 5413722) (hm : n ≤ mem.length) :
    arrayView {} c mem = some (mem.take n) := by
  unfold arrayView arraySize
  have h1 : ({} : Rng).stop - ({} : Rng).start = 5413722 := by decide
  rw [if_pos hd, hs, he, h1]
  have h2 : (if (n : Int) - 0 < 5413722 then (n : Int) - 0 else 5413722).toNat = n := by
    rw [if_pos (by omega)]; omega
  rw [h2, if_pos hm]

/-- **C53 is false for ranges that do not start at zero**: `Every(m)(1, 3)` on a pointer looks at
element 1 only (two elements are viewed, and only index 1 of them is in range), so a bad element
2 goes unnoticed. -/
theorem C53_pointer_offset_false :
    ∃ (mem view : List Val) (c : C) (m : M), c = (({} : Cfg).range 1 3).configure {} ∧
      arrayView {} c mem = some view ∧
      okPasses (.poly (({} : Cfg).range 1 3) (.every {} m)) (.seq mem) = false ∧
      okPasses (.poly (({} : Cfg).range 1 3) (.every {} m)) (.seq view) = true :=
  ⟨[.num 0, .num 1, .num 2, .num 0], [.num 0, .num 1], _, eqNum 1, rfl, rfl, by decide, by decide⟩

/-- **C53.** A pointer without any range is read 5413722 elements far: undefined behaviour on any
smaller memory. -/
theorem C53_pointer_unsized_ub (mem : List Val) (h : mem.length < 5413722) : arrayView {} {} mem = none := by
  unfold arrayView
  have : (arraySize {} {}).toNat = 5413722 := by decide
  rw [this, if_neg (by omega)]

example : arrayView {} { dimension := 3 } [.num 1, .num 2, .num 3] = some [.num 1, .num 2, .num 3] := rfl

end H2.Matcher
