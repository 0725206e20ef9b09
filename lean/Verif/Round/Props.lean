import Verif.Round.Lemmas
/-
C05 (AvgOf), C07 (Range) and C50 (Eq with a margin) with the rounding of floating-point arithmetic.
-/
namespace H2.Round
open H2.Matcher (rabs apA apB Approx)

/-! ### Rounding is rounding to nearest -/

theorem rabs_nonneg (x : Rat) : 0 ≤ rabs x := by unfold rabs; grind

theorem rabs_neg (x : Rat) : rabs (-x) = rabs x := by unfold rabs; grind

theorem rabs_sub (x y : Rat) : rabs (x - y) = rabs (y - x) := by unfold rabs; grind

theorem representable_neg {p : Nat} {x : Rat} (h : Representable p x) : Representable p (-x) := by
  obtain ⟨m, k, hm, rfl⟩ := h
  exact ⟨-m, k, by omega, by rw [Rat.intCast_neg]; grind⟩

theorem roundPos_representable (p : Nat) (hp : 0 < p) (x : Rat) (h : 0 < x) : Representable p (roundPos p x) := by
  obtain ⟨h1, h2⟩ := ilog2_spec x h
  unfold roundPos
  simp only []
  generalize ilog2 x = E at *
  have hq := P_pos (E + 1 - (p : Int))
  have e2 : (2 : Rat) ^ (E + 1) = 2 ^ (p : Int) * 2 ^ (E + 1 - (p : Int)) := by
    rw [← P_add]; congr 1; omega
  have hy : x / 2 ^ (E + 1 - (p : Int)) < ((2 ^ p : Nat) : Int) := by
    rw [Rat.div_lt_iff hq]
    rw [e2, P_nat] at h2
    exact h2
  have hy0 : 0 < x / 2 ^ (E + 1 - (p : Int)) := by
    rw [Rat.lt_div_iff hq]; grind
  generalize x / 2 ^ (E + 1 - (p : Int)) = y at *
  obtain ⟨n1, n2⟩ := nearest_spec y
  have l1 : (-1 : Int) < nearest y := by
    apply Rat.intCast_lt_intCast.1
    have : ((-1 : Int) : Rat) = -1 := rfl
    rw [this]; grind
  have l2 : nearest y < ((2 ^ p : Nat) : Int) + 1 := by
    apply Rat.intCast_lt_intCast.1
    rw [Rat.intCast_add]
    have : ((1 : Int) : Rat) = 1 := rfl
    rw [this]; grind
  by_cases hm : nearest y = ((2 ^ p : Nat) : Int)
  · refine ⟨1, E + 1, ?_, ?_⟩
    · have : 2 ^ 1 ≤ 2 ^ p := Nat.pow_le_pow_right (by decide) hp
      simp; omega
    · rw [hm, e2, P_nat]
      have : ((1 : Int) : Rat) = 1 := rfl
      rw [this]
      have : (((2 ^ p : Nat) : Int) : Rat) = ((2 ^ p : Nat) : Rat) := rfl
      rw [this]; grind
  · exact ⟨nearest y, E + 1 - p, by omega, rfl⟩

theorem roundPos_best (p : Nat) (x y : Rat) (h : 0 < x) (hr : Representable p y) : rabs (roundPos p x - x) ≤ rabs (y - x) := by
  obtain ⟨h1, h2⟩ := ilog2_spec x h
  -- the distance to multiples of the unit
  have key : ∀ m : Int, rabs (roundPos p x - x) ≤ rabs ((m : Rat) * 2 ^ (ilog2 x + 1 - (p : Int)) - x) := by
    intro m
    unfold roundPos
    simp only []
    generalize ilog2 x = E at *
    have hq := P_pos (E + 1 - (p : Int))
    have ex : x / 2 ^ (E + 1 - (p : Int)) * 2 ^ (E + 1 - (p : Int)) = x := Rat.div_mul_cancel (by grind)
    have hb := nearest_best (x / 2 ^ (E + 1 - (p : Int))) m
    generalize x / 2 ^ (E + 1 - (p : Int)) = z at *
    generalize (nearest z : Rat) = n at *
    generalize (2 : Rat) ^ (E + 1 - (p : Int)) = q at *
    have g : ∀ w : Rat, rabs (w * q - x) = rabs (w - z) * q := by
      intro w
      have e : w * q - x = (w - z) * q := by grind
      rw [e]
      by_cases hw : w - z < 0
      · have : (w - z) * q < 0 := by
          have := Rat.mul_lt_mul_of_pos_right hw hq
          grind
        unfold rabs; rw [if_pos this, if_pos hw]; grind
      · have : 0 ≤ (w - z) * q := Rat.mul_nonneg (by grind) (Rat.le_of_lt hq)
        unfold rabs; rw [if_neg (by grind), if_neg hw]
    rw [g, g]
    exact Rat.mul_le_mul_of_nonneg_right hb (Rat.le_of_lt hq)
  obtain ⟨m, k, hm, rfl⟩ := hr
  by_cases hk : ilog2 x + 1 - p ≤ k
  · obtain ⟨j, hj⟩ : ∃ j : Nat, k = ilog2 x + 1 - p + j := ⟨(k - (ilog2 x + 1 - p)).toNat, by omega⟩
    have := key (m * (2 ^ j : Nat))
    have e : (m : Rat) * 2 ^ k = ((m * ((2 ^ j : Nat) : Int) : Int) : Rat) * 2 ^ (ilog2 x + 1 - (p : Int)) := by
      rw [Rat.intCast_mul]
      have e1 : (2 : Rat) ^ k = ((2 ^ j : Nat) : Rat) * 2 ^ (ilog2 x + 1 - (p : Int)) := by
        rw [← P_nat, ← P_add]; congr 1; omega
      have e2 : (((2 ^ j : Nat) : Int) : Rat) = ((2 ^ j : Nat) : Rat) := rfl
      rw [e1, e2]; grind
    rw [e]; exact this
  · -- `y` is below the binade of `x`
    have hq := P_pos k
    have hy : (m : Rat) * 2 ^ k ≤ 2 ^ (ilog2 x) := by
      have h3 : (m : Rat) ≤ 2 ^ (p : Int) := by
        rw [P_nat]
        have : m ≤ ((2 ^ p : Nat) : Int) := by omega
        exact Rat.intCast_le_intCast.2 this
      have h4 := Rat.mul_le_mul_of_nonneg_right h3 (Rat.le_of_lt hq)
      rw [← P_add] at h4
      have h5 := P_mono (a := (p : Int) + k) (b := ilog2 x) (by omega)
      grind
    by_cases hp : p = 0
    · subst hp
      have : m = 0 := by omega
      subst this
      have := key 0
      have e : ((0 : Int) : Rat) = 0 := rfl
      rw [e] at *
      simpa using this
    · have hm' := key ((2 ^ (p - 1) : Nat) : Int)
      have e : (((2 ^ (p - 1) : Nat) : Int) : Rat) * 2 ^ (ilog2 x + 1 - (p : Int)) = 2 ^ ilog2 x := by
        have : (((2 ^ (p - 1) : Nat) : Int) : Rat) = ((2 ^ (p - 1) : Nat) : Rat) := rfl
        rw [this, ← P_nat, ← P_add]; congr 1; omega
      rw [e] at hm'
      generalize (m : Rat) * 2 ^ k = y at *
      generalize roundPos p x = r at *
      unfold rabs at *
      grind

/-- Rounding gives a number of the type, and none is nearer (what IEEE 754 asks for). -/
theorem round_nearest (p : Nat) (hp : 0 < p) (x : Rat) :
    Representable p (round p x) ∧ ∀ y, Representable p y → rabs (round p x - x) ≤ rabs (y - x) := by
  unfold round
  by_cases h0 : x = 0
  · rw [if_pos h0]
    refine ⟨⟨0, 0, ?_, by simp⟩, fun y _ => ?_⟩
    · simpa using Nat.two_pow_pos p
    · rw [h0]; unfold rabs; grind
  · rw [if_neg h0]
    by_cases hn : x < 0
    · rw [if_pos hn]
      refine ⟨representable_neg (roundPos_representable p hp (-x) (by grind)), fun y hy => ?_⟩
      have := roundPos_best p (-x) (-y) (by grind) (representable_neg hy)
      generalize roundPos p (-x) = r at *
      unfold rabs at *
      grind
    · rw [if_neg hn]
      exact ⟨roundPos_representable p hp x (by grind), fun y hy => roundPos_best p x y (by grind) hy⟩

example : dbl (1 / 10) = 3602879701896397 / 36028797018963968 := by decide +kernel

/-! ### Bounds -/

theorem u64 : (2 : Rat) ^ (-((64 : Nat) : Int)) = 1 / 18446744073709551616 := by decide +kernel
theorem u53 : (2 : Rat) ^ (-((53 : Nat) : Int)) = 1 / 9007199254740992 := by decide +kernel

theorem ext_bounds (x : Rat) : rabs (ext x) ≤ rabs x * (1 + 1 / 18446744073709551616) ∧ rabs x * (1 - 1 / 18446744073709551616) ≤ rabs (ext x) := by
  have h := round_err 64 x
  rw [u64] at h
  unfold ext
  generalize round 64 x = r at *
  unfold rabs at *
  constructor <;> grind

theorem dbl_bounds (x : Rat) : rabs (dbl x) ≤ rabs x * (1 + 1 / 9007199254740992) ∧ rabs x * (1 - 1 / 9007199254740992) ≤ rabs (dbl x) := by
  have h := round_err 53 x
  rw [u53] at h
  unfold dbl
  generalize round 53 x = r at *
  unfold rabs at *
  constructor <;> grind

theorem round_nonneg (p : Nat) (x : Rat) (h : 0 ≤ x) : 0 ≤ round p x := by
  have h1 := round_err p x
  have h2 : (2 : Rat) ^ (-(p : Int)) ≤ 1 := by
    have := P_mono (a := -(p : Int)) (b := 0) (by omega)
    rwa [Rat.zpow_zero] at this
  have h3 := Rat.mul_le_mul_of_nonneg_left h2 h
  have e : rabs x = x := by unfold rabs; grind
  rw [e] at h1
  generalize round p x = r at *
  generalize x * (2 : Rat) ^ (-(p : Int)) = z at *
  unfold rabs at h1
  grind

theorem rabs_of_nonneg {x : Rat} (h : 0 ≤ x) : rabs x = x := by unfold rabs; grind

/-- The margin without a second argument. -/
theorem margin_bounds : rabs (absoluteMargin 0) ≤ 1 / 100000 * (1 + 1 / 9007199254740992) ∧
    1 / 100000 * (1 - 1 / 9007199254740992) ≤ rabs (absoluteMargin 0) := by
  unfold absoluteMargin
  rw [if_pos rfl]
  have := dbl_bounds (1 / 100000)
  rw [rabs_of_nonneg (x := 1 / 100000) (by grind)] at this
  exact this

/-! ### C50 -/

/-- **C50.** `Eq(e)`, for all `double`s: what differs by at most 0.00001 is accepted, what differs by more is not, up to one part in 2⁵². -/
theorem C50_double_default (e a : Rat) :
    (rabs (a - e) ≤ 1 / 100000 * (1 - 1 / 4503599627370496) → floatEq .default e a = some true) ∧
    (1 / 100000 * (1 + 1 / 4503599627370496) ≤ rabs (a - e) → floatEq .default e a = some false) := by
  obtain ⟨m1, m2⟩ := margin_bounds
  obtain ⟨d1, d2⟩ := ext_bounds (a - e)
  have hz : ((0 : Nat) : Rat) = 0 := rfl
  unfold floatEq eqEpsilon
  simp only [Option.map_some, ne_eq, not_true_eq_false, false_and, if_false, Option.some.injEq, decide_eq_true_eq, decide_eq_false_iff_not, hz]
  generalize rabs (absoluteMargin 0) = m at *
  generalize rabs (ext (a - e)) = d at *
  generalize rabs (a - e) = x at *
  constructor <;> intro h <;> grind

theorem apA_val : ((apA : Nat) : Rat) = 100000000000000 := rfl
theorem apB_val : ((apB : Nat) : Rat) = 1000000000000000000 := rfl

/-- What becomes of a margin: a number of 1e-14ths. -/
theorem approxTimes_bounds (x : Rat) (h : 0 ≤ x) (hx : x ≤ 170000) : ∃ n : Nat, approxTimes x = some n ∧ n + apB < 2 ^ 64 ∧
    (n : Rat) ≤ x * 100000000000000 * (1 + 1 / 9007199254740992) ∧ x * 100000000000000 * (1 - 1 / 9007199254740992) - 1 < (n : Rat) := by
  have h1 : 0 ≤ rabs x * ((apA : Nat) : Rat) := by rw [rabs_of_nonneg h, apA_val]; grind
  obtain ⟨d1, d2⟩ := dbl_bounds (rabs x * ((apA : Nat) : Rat))
  have h2 : 0 ≤ dbl (rabs x * ((apA : Nat) : Rat)) := round_nonneg 53 _ h1
  rw [rabs_of_nonneg h1, rabs_of_nonneg h2] at d1 d2
  rw [rabs_of_nonneg h, apA_val] at *
  unfold approxTimes
  rw [rabs_of_nonneg h, apA_val]
  generalize dbl (x * 100000000000000) = r at *
  have f1 := Rat.floor_le r
  have f2 := Rat.lt_floor_add_one r
  have f3 : (0 : Int) ≤ r.floor := by
    rw [Rat.le_floor_iff]; exact h2
  rw [Rat.intCast_add] at f2
  have e1 : ((1 : Int) : Rat) = 1 := rfl
  rw [e1] at f2
  have hlt : r.floor < 17440000000000000000 := by
    rw [Rat.floor_lt_iff]
    have : ((17440000000000000000 : Int) : Rat) = 17440000000000000000 := rfl
    rw [this]; grind
  have hn : ((r.floor.toNat : Nat) : Rat) = ((r.floor : Int) : Rat) := by
    have : ((r.floor.toNat : Nat) : Int) = r.floor := by omega
    have h4 : ((r.floor.toNat : Nat) : Rat) = (((r.floor.toNat : Nat) : Int) : Rat) := rfl
    rw [h4, this]
  refine ⟨r.floor.toNat, ?_, ?_, ?_, ?_⟩
  · simp only []
    rw [if_pos (by omega)]
  · unfold apB; omega
  · rw [hn]; grind
  · rw [hn]; grind

/-- **C50.** `Eq(e, eps)`, for all `double`s with a margin of at most 170000: what differs by at most `eps` is accepted, what differs by more is
not, up to one part in 2⁵¹ and, on the side of rejecting, 1e-14. -/
theorem C50_double_absolute_partial (eps e a : Rat) (h0 : 0 ≤ eps) (h1 : eps ≤ 170000) :
    (rabs (a - e) ≤ eps * (1 - 1 / 2251799813685248) - 1 / 100000000000000 → floatEq (.absolute eps) e a = some true) ∧
    (eps * (1 + 1 / 2251799813685248) < rabs (a - e) → floatEq (.absolute eps) e a = some false) := by
  obtain ⟨n, hn, hlt, n1, n2⟩ := approxTimes_bounds eps h0 h1
  obtain ⟨d1, d2⟩ := ext_bounds (a - e)
  have hB : ¬ (n + apB ≠ 0 ∧ n + apB < apB) := by omega
  have hne : ¬ ((n + apB : Nat) : Rat) = 0 := by
    have : (n + apB) ≠ 0 := by unfold apB; omega
    exact_mod_cast this
  have es : (((n + apB : Nat) : Rat) - (apB : Nat)) = (n : Nat) := by
    have : ((n + apB : Nat) : Rat) = (n : Rat) + (apB : Rat) := by simp [Rat.natCast_add]
    rw [this]; grind
  have np : (0 : Rat) ≤ (n : Rat) := by exact_mod_cast Nat.zero_le n
  obtain ⟨t1, t2⟩ := ext_bounds ((n : Nat) : Rat)
  have tp : 0 ≤ ext ((n : Nat) : Rat) := round_nonneg 64 _ np
  have mp : 0 ≤ ext ((n : Nat) : Rat) / 100000000000000 := by grind
  obtain ⟨m1, m2⟩ := ext_bounds (ext ((n : Nat) : Rat) / 100000000000000)
  rw [rabs_of_nonneg np, rabs_of_nonneg tp] at t1 t2
  rw [rabs_of_nonneg mp] at m1 m2
  have dp := rabs_nonneg (a - e)
  simp only [floatEq, eqEpsilon, hn, Option.map_some, Option.some.injEq]
  rw [Nat.mod_eq_of_lt hlt, if_neg hB]
  unfold absoluteMargin
  rw [if_neg hne, es, apA_val, decide_eq_true_iff, decide_eq_false_iff_not]
  generalize rabs (ext (ext ((n : Nat) : Rat) / 100000000000000)) = m at *
  generalize ext ((n : Nat) : Rat) = t at *
  generalize ((n : Nat) : Rat) = N at *
  generalize rabs (ext (a - e)) = d at *
  generalize rabs (a - e) = x at *
  constructor <;> intro h <;> grind

theorem rabs_mul (x y : Rat) (hy : 0 ≤ y) : rabs (x * y) = rabs x * y := by
  by_cases hx : x < 0
  · by_cases h : y = 0
    · rw [h]; simp [rabs]
    · have := Rat.mul_lt_mul_of_pos_right hx (show 0 < y by grind)
      unfold rabs; rw [if_pos (by grind), if_pos hx]; grind
  · have := Rat.mul_nonneg (a := x) (b := y) (by grind) hy
    unfold rabs; rw [if_neg (by grind), if_neg hx]

/-- **C50.** `Eq(e, p%)`, for all `double`s with a percentage of at most 9999 and at least 0.00000000000002: what differs by at most `p` percent of
`e` is accepted, what differs by more is not, up to one part in 2⁵¹ and, on the side of rejecting, 1e-14 percent. -/
theorem C50_double_percent_partial (p e a : Rat) (h0 : 2 / 100000000000000 ≤ p) (h1 : p ≤ 9999) :
    (rabs (a - e) ≤ rabs e * ((p * (1 - 1 / 2251799813685248) - 1 / 100000000000000) / 100) → floatEq (.percent p) e a = some true) ∧
    (rabs e * (p * (1 + 1 / 2251799813685248) / 100) < rabs (a - e) → floatEq (.percent p) e a = some false) := by
  obtain ⟨n, hn, _, n1, n2⟩ := approxTimes_bounds p (by grind) (by grind)
  obtain ⟨d1, d2⟩ := ext_bounds (a - e)
  have hn0 : n ≠ 0 := by
    intro hz
    rw [hz] at n2
    have : ((0 : Nat) : Rat) = 0 := rfl
    rw [this] at n2; grind
  have hnB : n < apB := by
    have h2 : ((n : Nat) : Rat) < ((apB : Nat) : Rat) := by rw [apB_val]; grind
    exact_mod_cast h2
  have np : (0 : Rat) ≤ (n : Rat) := by exact_mod_cast Nat.zero_le n
  have qp : (0 : Rat) ≤ (n : Rat) / 100000000000000 := by grind
  obtain ⟨t1, t2⟩ := ext_bounds ((n : Rat) / 100000000000000)
  have tp : 0 ≤ ext ((n : Rat) / 100000000000000) := round_nonneg 64 _ qp
  have sp : 0 ≤ ext ((n : Rat) / 100000000000000) / 100 := by grind
  obtain ⟨s1, s2⟩ := ext_bounds (ext ((n : Rat) / 100000000000000) / 100)
  have sp' : 0 ≤ ext (ext ((n : Rat) / 100000000000000) / 100) := round_nonneg 64 _ sp
  obtain ⟨m1, m2⟩ := ext_bounds (e * ext (ext ((n : Rat) / 100000000000000) / 100))
  rw [rabs_of_nonneg qp, rabs_of_nonneg tp] at t1 t2
  rw [rabs_of_nonneg sp, rabs_of_nonneg sp'] at s1 s2
  rw [rabs_mul e _ sp'] at m1 m2
  have dp := rabs_nonneg (a - e)
  have ep := rabs_nonneg e
  simp only [floatEq, eqEpsilon, hn, Option.map_some, Option.some.injEq]
  rw [Nat.mod_eq_of_lt hnB, if_pos ⟨hn0, hnB⟩, decide_eq_true_iff, decide_eq_false_iff_not]
  unfold percentageScale
  rw [apA_val]
  generalize ext (ext ((n : Rat) / 100000000000000) / 100) = s at *
  generalize ext ((n : Rat) / 100000000000000) = t at *
  generalize ((n : Nat) : Rat) = N at *
  generalize rabs (ext (e * s)) = m at *
  generalize rabs (ext (a - e)) = d at *
  generalize rabs (a - e) = x at *
  generalize rabs e = w at *
  -- the scale is about `p / 100`
  have a1 : s ≤ p * (1 + 1 / 4503599627370496) / 100 := by grind
  have a2 : (p * (1 - 1 / 4503599627370496) - 1 / 100000000000000) / 100 ≤ s := by grind
  have b1 := Rat.mul_le_mul_of_nonneg_left a1 ep
  have b2 := Rat.mul_le_mul_of_nonneg_left a2 ep
  have c1 : 0 ≤ w * p := Rat.mul_nonneg ep (by grind)
  have c2 : 0 ≤ w * s := Rat.mul_nonneg ep sp'
  have g1 : w * (p * (1 + 1 / 4503599627370496) / 100) = w * p * (1 + 1 / 4503599627370496) / 100 := by grind
  have g2 : w * ((p * (1 - 1 / 4503599627370496) - 1 / 100000000000000) / 100) = w * p * (1 - 1 / 4503599627370496) / 100 - w / 100000000000000 / 100 := by grind
  have g3 : w * (p * (1 + 1 / 2251799813685248) / 100) = w * p * (1 + 1 / 2251799813685248) / 100 := by grind
  have g4 : w * ((p * (1 - 1 / 2251799813685248) - 1 / 100000000000000) / 100) = w * p * (1 - 1 / 2251799813685248) / 100 - w / 100000000000000 / 100 := by grind
  have c3 := Rat.mul_le_mul_of_nonneg_left h0 ep
  rw [g1] at b1
  rw [g2] at b2
  rw [g3, g4]
  generalize w * p = wp at *
  generalize w * s = ws at *
  constructor <;> intro h <;> grind

/-- **C50 is false of margins with their decimals**: `Eq(0.0, 0.1)` rejects 0.1 and `Eq(0.0, 0.29)` rejects 0.29 (all of them the nearest `double`). -/
theorem C50_itself_false :
    floatEq (.absolute (dbl (1 / 10))) 0 (dbl (1 / 10)) = some false ∧
    floatEq (.absolute (dbl (29 / 100))) 0 (dbl (29 / 100)) = some false := by decide +kernel

/-- **C50 is false of margins below 1e-14**: `Eq(0.0, 9e-15)` rejects 1e-15. -/
theorem C50_small_margin_false : floatEq (.absolute (dbl (9 / 1000000000000000))) 0 (dbl (1 / 1000000000000000)) = some false := by decide +kernel

/-- **C50 is false of 0%**: `Eq(0.0, 0%)` accepts 0.000009. -/
theorem C50_zero_percent_false : floatEq (.percent 0) 0 (dbl (9 / 1000000)) = some true := by decide +kernel

example : floatEq (.absolute (dbl (1 / 10))) 1 (dbl (105 / 100)) = some true ∧ floatEq (.absolute (dbl (1 / 10))) 1 (dbl (12 / 10)) = some false ∧
    floatEq (.percent 5) 100 95 = some true ∧ floatEq (.percent 5) 100 (dbl (9499 / 100)) = some false ∧
    floatEq .default (dbl (1 / 10)) (dbl (100001 / 1000000)) = some true ∧ floatEq .default 1 (dbl (100002 / 100000)) = some false := by decide +kernel

/-! ### C07 -/

/-- The difference that is compared is 0 just for equal numbers, and not much wrong otherwise. -/
theorem hit_near (a i : Rat) (h : rabs (a - i) ≤ 1 / 100000 * (1 - 1 / 2251799813685248)) : rabs (dbl (a - i)) ≤ rabs (absoluteMargin 0) := by
  obtain ⟨m1, m2⟩ := margin_bounds
  obtain ⟨d1, d2⟩ := dbl_bounds (a - i)
  grind

theorem hit_far (a i : Rat) (h : 1 / 100000 * (1 + 1 / 2251799813685248) ≤ rabs (a - i)) : ¬ rabs (dbl (a - i)) ≤ rabs (absoluteMargin 0) := by
  obtain ⟨m1, m2⟩ := margin_bounds
  obtain ⟨d1, d2⟩ := dbl_bounds (a - i)
  grind

theorem grid_exact (k : Int) (m : Int) (h : m.natAbs < 2 ^ 53) : dbl ((m : Rat) * 2 ^ k) = (m : Rat) * 2 ^ k :=
  round_exact 53 _ ⟨m, k, h, rfl⟩

theorem grid_lt (k m n : Int) : (m : Rat) * 2 ^ k < (n : Rat) * 2 ^ k ↔ m < n := by
  rw [Rat.mul_lt_mul_right (P_pos k)]
  exact Rat.intCast_lt_intCast

theorem grid_add (k m n : Int) : (m : Rat) * 2 ^ k + (n : Rat) * 2 ^ k = ((m + n : Int) : Rat) * 2 ^ k := by
  rw [Rat.intCast_add]; grind

/-- The loop on a grid. -/
theorem loop_grid (a : Rat) (k t d : Int) (hd : 0 < d) (ht : t + d ≤ 2 ^ 53) (n : Nat) : ∀ s : Int, -2 ^ 53 < s → t ≤ s + n * d →
    ∃ b, rangeLoop a (t * 2 ^ k) (d * 2 ^ k) (n + 1) (s * 2 ^ k) = some b ∧
      (b = true ↔ ∃ j : Nat, s + j * d < t ∧ rabs (dbl (a - ((s + j * d : Int) : Rat) * 2 ^ k)) ≤ rabs (absoluteMargin 0)) := by
  induction n with
  | zero =>
    intro s hs h
    refine ⟨false, ?_, ?_⟩
    · unfold rangeLoop
      rw [if_neg]
      rw [grid_lt]; omega
    · constructor
      · intro h; cases h
      · rintro ⟨j, h1, _⟩
        have : 0 ≤ (j : Int) * d := Int.mul_nonneg (by omega) (by omega)
        omega
  | succ n ih =>
    intro s hs h
    by_cases hlt : s < t
    · by_cases hh : rabs (dbl (a - (s : Rat) * 2 ^ k)) ≤ rabs (absoluteMargin 0)
      · refine ⟨true, ?_, ?_⟩
        · rw [rangeLoop, if_pos ((grid_lt k s t).2 hlt), if_pos hh]
        · refine ⟨fun _ => ⟨0, by omega, ?_⟩, fun _ => rfl⟩
          have : s + ((0 : Nat) : Int) * d = s := by simp
          rw [this]; exact hh
      · have hs' : -2 ^ 53 < s + d := by omega
        have e : dbl ((s : Rat) * 2 ^ k + (d : Rat) * 2 ^ k) = ((s + d : Int) : Rat) * 2 ^ k := by
          rw [grid_add]; exact grid_exact k (s + d) (by omega)
        have hnd : ((n + 1 : Nat) : Int) * d = n * d + d := by
          rw [Int.natCast_add, Int.add_mul]; simp
        obtain ⟨b, hb, hi⟩ := ih (s + d) hs' (by omega)
        refine ⟨b, ?_, ?_⟩
        · rw [rangeLoop, if_pos ((grid_lt k s t).2 hlt), if_neg hh, e, hb]
        · rw [hi]
          constructor
          · rintro ⟨j, h1, h2⟩
            have ej : s + ((j + 1 : Nat) : Int) * d = s + d + j * d := by
              rw [Int.natCast_add, Int.add_mul]; simp; omega
            exact ⟨j + 1, by rw [ej]; exact h1, by rw [ej]; exact h2⟩
          · rintro ⟨j, h1, h2⟩
            cases j with
            | zero =>
              have : s + ((0 : Nat) : Int) * d = s := by simp
              rw [this] at h2; exact absurd h2 hh
            | succ j =>
              have ej : s + ((j + 1 : Nat) : Int) * d = s + d + j * d := by
                rw [Int.natCast_add, Int.add_mul]; simp; omega
              rw [ej] at h1 h2
              exact ⟨j, h1, h2⟩
    · refine ⟨false, ?_, ?_⟩
      · rw [rangeLoop, if_neg]
        rw [grid_lt]; exact hlt
      · constructor
        · intro h; cases h
        · rintro ⟨j, h1, _⟩
          have : 0 ≤ (j : Int) * d := Int.mul_nonneg (by omega) (by omega)
          omega

theorem loop_det (a stop step : Rat) : ∀ (f g : Nat) (i : Rat) (b c : Bool), rangeLoop a stop step f i = some b → rangeLoop a stop step g i = some c → b = c := by
  intro f
  induction f with
  | zero => intro g i b c h; simp [rangeLoop] at h
  | succ f ih =>
    intro g i b c h1 h2
    cases g with
    | zero => simp [rangeLoop] at h2
    | succ g =>
      rw [rangeLoop] at h1 h2
      by_cases hi : i < stop
      · rw [if_pos hi] at h1 h2
        by_cases hh : rabs (dbl (a - i)) ≤ rabs (absoluteMargin 0)
        · rw [if_pos hh] at h1 h2; rw [← Option.some.inj h1, ← Option.some.inj h2]
        · rw [if_neg hh] at h1 h2; exact ih g _ b c h1 h2
      · rw [if_neg hi] at h1 h2; rw [← Option.some.inj h1, ← Option.some.inj h2]

theorem grid_answer (a : Rat) (k s t d : Int) (hd : 0 < d) (hs : -2 ^ 53 < s) (ht : t + d ≤ 2 ^ 53) :
    (Accepts (s * 2 ^ k) (t * 2 ^ k) (d * 2 ^ k) a ↔
      ∃ j : Nat, s + j * d < t ∧ rabs (dbl (a - ((s + j * d : Int) : Rat) * 2 ^ k)) ≤ rabs (absoluteMargin 0)) ∧
    (Rejects (s * 2 ^ k) (t * 2 ^ k) (d * 2 ^ k) a ↔
      ¬ ∃ j : Nat, s + j * d < t ∧ rabs (dbl (a - ((s + j * d : Int) : Rat) * 2 ^ k)) ≤ rabs (absoluteMargin 0)) := by
  obtain ⟨b, hb, hi⟩ := loop_grid a k t d hd ht (t - s).toNat s hs (by
    have h1 : ((t - s).toNat : Int) ≤ (t - s).toNat * d := by
      have := Int.mul_le_mul_of_nonneg_left (show (1 : Int) ≤ d by omega) (show (0 : Int) ≤ ((t - s).toNat : Int) by omega)
      omega
    omega)
  rw [← hi]
  constructor
  · constructor
    · rintro ⟨f, h⟩; exact loop_det _ _ _ _ _ _ _ _ hb h
    · intro h; exact ⟨_, h ▸ hb⟩
  · constructor
    · rintro ⟨f, h⟩ h'
      have := loop_det _ _ _ _ _ _ _ _ hb h
      rw [h'] at this; cases this
    · intro h
      have : b = false := by simpa using h
      exact ⟨_, this ▸ hb⟩

/-- **C07.** `Range(start, end, step)` on `double`s that are integers, or halves, quarters, … down to 65536ths, of at most 53 digits, and
a positive step: it answers, and accepts exactly the members of Python's `range`. -/
theorem C07_double_partial (k s t d c : Int) (hk : -16 ≤ k) (hd : 0 < d) (hs : -2 ^ 53 < s) (ht : t + d ≤ 2 ^ 53) :
    (Accepts (s * 2 ^ k) (t * 2 ^ k) (d * 2 ^ k) (c * 2 ^ k) ↔ ∃ j : Nat, c = s + j * d ∧ c < t) ∧
    (Rejects (s * 2 ^ k) (t * 2 ^ k) (d * 2 ^ k) (c * 2 ^ k) ↔ ¬ ∃ j : Nat, c = s + j * d ∧ c < t) := by
  have key : ∀ m : Int, rabs (dbl ((c : Rat) * 2 ^ k - (m : Rat) * 2 ^ k)) ≤ rabs (absoluteMargin 0) ↔ c = m := by
    intro m
    constructor
    · intro h
      refine Classical.byContradiction fun hne => ?_
      apply hit_far _ _ _ h
      have e : (c : Rat) * 2 ^ k - (m : Rat) * 2 ^ k = ((c - m : Int) : Rat) * 2 ^ k := by rw [Rat.intCast_sub]; grind
      rw [e, rabs_mul _ _ (Rat.le_of_lt (P_pos k))]
      have h1 : (1 : Rat) ≤ rabs ((c - m : Int) : Rat) := by
        rcases Int.lt_or_lt_of_ne hne with h | h
        · have : ((c - m : Int) : Rat) ≤ ((-1 : Int) : Rat) := Rat.intCast_le_intCast.2 (by omega)
          have e1 : ((-1 : Int) : Rat) = -1 := rfl
          rw [e1] at this
          unfold rabs; grind
        · have : ((1 : Int) : Rat) ≤ ((c - m : Int) : Rat) := Rat.intCast_le_intCast.2 (by omega)
          have e1 : ((1 : Int) : Rat) = 1 := rfl
          rw [e1] at this
          unfold rabs; grind
      have h2 := P_mono hk
      have h3 : (2 : Rat) ^ (-16 : Int) = 1 / 65536 := by decide +kernel
      rw [h3] at h2
      have h4 := Rat.mul_le_mul_of_nonneg_right h1 (Rat.le_of_lt (P_pos k))
      grind
    · intro h
      rw [h]
      apply hit_near
      rw [Rat.sub_self]; unfold rabs; grind
  have hx : (∃ j : Nat, s + j * d < t ∧ rabs (dbl ((c : Rat) * 2 ^ k - ((s + j * d : Int) : Rat) * 2 ^ k)) ≤ rabs (absoluteMargin 0)) ↔
      ∃ j : Nat, c = s + j * d ∧ c < t := by
    constructor
    · rintro ⟨j, h1, h2⟩
      have := (key _).1 h2
      exact ⟨j, this, by omega⟩
    · rintro ⟨j, h1, h2⟩
      exact ⟨j, by omega, (key _).2 h1⟩
  rw [← hx]
  exact grid_answer _ k s t d hd hs ht

/-- **C07.** The same for any `double` to be found: accepted if it is within 0.00001 of a member, rejected if it is not, up to one part in
2⁵¹. -/
theorem C07_double_near_partial (k s t d : Int) (a : Rat) (hd : 0 < d) (hs : -2 ^ 53 < s) (ht : t + d ≤ 2 ^ 53) :
    ((∃ j : Nat, s + j * d < t ∧ rabs (a - ((s + j * d : Int) : Rat) * 2 ^ k) ≤ 1 / 100000 * (1 - 1 / 2251799813685248)) →
      Accepts (s * 2 ^ k) (t * 2 ^ k) (d * 2 ^ k) a) ∧
    ((∀ j : Nat, s + j * d < t → 1 / 100000 * (1 + 1 / 2251799813685248) ≤ rabs (a - ((s + j * d : Int) : Rat) * 2 ^ k)) →
      Rejects (s * 2 ^ k) (t * 2 ^ k) (d * 2 ^ k) a) := by
  obtain ⟨h1, h2⟩ := grid_answer a k s t d hd hs ht
  constructor
  · rintro ⟨j, h3, h4⟩
    exact h1.2 ⟨j, h3, hit_near _ _ h4⟩
  · intro h
    exact h2.2 fun ⟨j, h3, h4⟩ => hit_far _ _ (h j h3) h4

example : Accepts ((0 : Int) * 2 ^ (-1 : Int)) ((7 : Int) * 2 ^ (-1 : Int)) ((3 : Int) * 2 ^ (-1 : Int)) ((6 : Int) * 2 ^ (-1 : Int)) :=
  (C07_double_partial (-1) 0 7 3 6 (by decide) (by decide) (by decide) (by decide)).1.2 ⟨2, by decide, by decide⟩

/-- **C07 is false of steps like 0.1**: the sum of ten steps is less than 1, so `Range(0, 1, 0.1)` accepts 1; the tenth multiple of the step is
not less than 1. -/
theorem C07_drift_false : Accepts 0 1 (dbl (1 / 10)) 1 ∧
    ¬ ∃ j : Nat, (j : Rat) * dbl (1 / 10) < 1 ∧ rabs (1 - (j : Rat) * dbl (1 / 10)) ≤ 1 / 1000 := by
  refine ⟨⟨20, by decide +kernel⟩, ?_⟩
  rintro ⟨j, h1, h2⟩
  have hd : dbl (1 / 10) = 3602879701896397 / 36028797018963968 := by decide +kernel
  rw [hd] at h1 h2
  rcases Nat.lt_or_ge j 10 with h | h
  · have : ((j : Nat) : Rat) ≤ ((9 : Nat) : Rat) := by exact_mod_cast (show j ≤ 9 by omega)
    have e : ((9 : Nat) : Rat) = 9 := rfl
    rw [e] at this
    unfold rabs at h2
    grind
  · have : ((10 : Nat) : Rat) ≤ ((j : Nat) : Rat) := by exact_mod_cast h
    have e : ((10 : Nat) : Rat) = 10 := rfl
    rw [e] at this
    grind

/-- **C07 is false of large numbers**: from 2⁵³ on, adding 1 changes nothing, and `Range(9007199254740992, 9007199254740996)` never returns. -/
theorem C07_stuck_false : Hangs 9007199254740992 9007199254740996 1 0 := by
  intro fuel
  induction fuel with
  | zero => rfl
  | succ n ih =>
    rw [rangeLoop, if_pos (by decide +kernel), if_neg (by decide +kernel)]
    have : dbl (9007199254740992 + 1) = 9007199254740992 := by decide +kernel
    rw [this]; exact ih

/-! ### C05 -/

theorem sum_grid (k : Int) (l : List Int) : ∀ s : Int, s.natAbs + (l.map Int.natAbs).sum < 2 ^ 53 →
    (l.map fun m : Int => (m : Rat) * 2 ^ k).foldl (fun sum x => dbl (sum + x)) ((s : Rat) * 2 ^ k) = ((s + l.sum : Int) : Rat) * 2 ^ k := by
  induction l with
  | nil => intro s _; simp
  | cons m l ih =>
    intro s h
    simp only [List.map_cons, List.sum_cons] at h
    simp only [List.map_cons, List.foldl_cons, List.sum_cons]
    rw [grid_add, grid_exact k (s + m) (by omega), ih (s + m) (by omega), Int.add_assoc]

/-- **C05.** The average of integers (or halves, quarters, …) with a sum below 2⁵³ is the true one, rounded once. -/
theorem C05_double_avg_partial (k : Int) (l : List Int) (h : (l.map Int.natAbs).sum < 2 ^ 53) :
    average (l.map fun m : Int => (m : Rat) * 2 ^ k) = dbl ((l.sum : Rat) * 2 ^ k / (l.length : Nat)) := by
  unfold average
  have := sum_grid k l 0 (by simpa using h)
  have e : ((0 : Int) : Rat) * 2 ^ k = 0 := by
    have : ((0 : Int) : Rat) = 0 := rfl
    rw [this]; grind
  rw [e] at this
  rw [this]; simp

example : average ([1, 2, 4].map fun m : Int => (m : Rat) * 2 ^ (0 : Int)) = dbl (7 / 3) := by decide +kernel

/-- The sum of the absolute values. -/
def absSum (l : List Rat) : Rat := (l.map rabs).sum

theorem rabs_add (x y : Rat) : rabs (x + y) ≤ rabs x + rabs y := by unfold rabs; grind

theorem pow_one_le (v : Rat) (hv : 0 ≤ v) (n : Nat) : 1 ≤ (1 + v) ^ n := by
  induction n with
  | zero => rw [Rat.pow_zero]; grind
  | succ n ih =>
    rw [Rat.pow_succ]
    have := Rat.mul_le_mul_of_nonneg_left (show (1 : Rat) ≤ 1 + v by grind) (show (0 : Rat) ≤ (1 + v) ^ n by grind)
    grind

theorem sum_err (l : List Rat) : ∀ (n : Nat) (s t A : Rat), rabs t ≤ A → rabs (s - t) ≤ ((1 + 1 / 9007199254740992) ^ n - 1) * A →
    rabs (l.foldl (fun sum x => dbl (sum + x)) s - (t + l.sum)) ≤ ((1 + 1 / 9007199254740992) ^ (n + l.length) - 1) * (A + absSum l) := by
  induction l with
  | nil => intro n s t A _ h; simpa [absSum, Rat.add_zero] using h
  | cons x l ih =>
    intro n s t A ht h
    have hx := rabs_nonneg x
    have hA : 0 ≤ A := by have := rabs_nonneg t; grind
    have h1 := rabs_add t x
    have hr := round_err 53 (s + x)
    rw [u53] at hr
    have hd : dbl (s + x) = round 53 (s + x) := rfl
    have hp := pow_one_le (1 / 9007199254740992) (by grind) n
    have key : rabs (dbl (s + x) - (t + x)) ≤ ((1 + 1 / 9007199254740992) ^ (n + 1) - 1) * (A + rabs x) := by
      rw [hd, Rat.pow_succ]
      have e1 : rabs (round 53 (s + x) - (t + x)) ≤ rabs (round 53 (s + x) - (s + x)) + rabs (s - t) := by
        have := rabs_add (round 53 (s + x) - (s + x)) (s - t)
        have e : round 53 (s + x) - (s + x) + (s - t) = round 53 (s + x) - (t + x) := by grind
        rw [e] at this; exact this
      have e2 : rabs (s + x) ≤ rabs (s - t) + rabs (t + x) := by
        have := rabs_add (s - t) (t + x)
        have e : s - t + (t + x) = s + x := by grind
        rw [e] at this; exact this
      generalize (1 + 1 / 9007199254740992 : Rat) ^ n = P at *
      have e3 := Rat.mul_le_mul_of_nonneg_left (show A ≤ A + rabs x by grind) (show 0 ≤ P - 1 by grind)
      have e4 : ((P * (1 + 1 / 9007199254740992)) - 1) * (A + rabs x) =
          (P - 1) * (A + rabs x) * (1 + 1 / 9007199254740992) + (A + rabs x) * (1 / 9007199254740992) := by grind
      rw [e4]
      generalize (P - 1) * (A + rabs x) = Q at *
      generalize (P - 1) * A = Q' at *
      generalize rabs (round 53 (s + x) - (t + x)) = y1 at *
      generalize rabs (round 53 (s + x) - (s + x)) = y2 at *
      generalize rabs (s - t) = y3 at *
      generalize rabs (s + x) = y4 at *
      generalize rabs (t + x) = y5 at *
      grind
    have := ih (n + 1) (dbl (s + x)) (t + x) (A + rabs x) (by grind) key
    rw [List.foldl_cons]
    have e1 : t + (x :: l).sum = t + x + l.sum := by rw [List.sum_cons]; grind
    have e2 : A + absSum (x :: l) = A + rabs x + absSum l := by unfold absSum; rw [List.map_cons, List.sum_cons]; grind
    have e3 : n + (x :: l).length = n + 1 + l.length := by rw [List.length_cons]; omega
    rw [e1, e2, e3]; exact this

/-- **C05.** For any `double`s, the sum that is divided is the true sum up to `n` parts in 2⁵³, about, of the sum of the absolute values. -/
theorem C05_double_sum (l : List Rat) : rabs (l.foldl (fun sum x => dbl (sum + x)) 0 - l.sum) ≤
    ((1 + 1 / 9007199254740992) ^ l.length - 1) * (l.map rabs).sum := by
  have := sum_err l 0 0 0 0 (by unfold rabs; grind) (by rw [Rat.pow_zero]; unfold rabs; grind)
  have e1 : (0 : Rat) + l.sum = l.sum := by grind
  have e2 : (0 : Rat) + absSum l = (l.map rabs).sum := by unfold absSum; grind
  rw [e1, e2, Nat.zero_add] at this
  exact this

/-- **C05 is false of large sums**: the average of 2⁵³, 1 and 1 is made as if the ones were not there, and the true average is rejected. -/
theorem C05_double_avg_false : average [9007199254740992, 1, 1] = dbl (9007199254740992 / 3) ∧
    floatEq .default (dbl (9007199254740994 / 3)) (average [9007199254740992, 1, 1]) = some false := by decide +kernel

end H2.Round
