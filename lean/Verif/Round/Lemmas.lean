import Verif.Round.Spec
import Verif.Matcher.NumericProps
namespace H2.Round
open H2.Matcher (rabs apA apB Approx)

/-! ### Powers of two -/

theorem two_ne : (2 : Rat) ≠ 0 := by decide

theorem P_pos (k : Int) : (0 : Rat) < 2 ^ k := Rat.zpow_pos (by decide)

theorem P_add (a b : Int) : (2 : Rat) ^ (a + b) = 2 ^ a * 2 ^ b := Rat.zpow_add two_ne a b

theorem P_succ (a : Int) : (2 : Rat) ^ (a + 1) = 2 ^ a * 2 := Rat.zpow_add_one two_ne a

theorem P_nat (n : Nat) : (2 : Rat) ^ (n : Int) = ((2 ^ n : Nat) : Rat) := by
  rw [Rat.zpow_natCast, Rat.natCast_pow]; rfl

theorem P_one_le (n : Nat) : (1 : Rat) ≤ 2 ^ (n : Int) := by
  rw [P_nat]
  have : 1 ≤ 2 ^ n := Nat.one_le_two_pow
  exact_mod_cast this

theorem P_mono {a b : Int} (h : a ≤ b) : (2 : Rat) ^ a ≤ 2 ^ b := by
  obtain ⟨n, rfl⟩ : ∃ n : Nat, b = a + n := ⟨(b - a).toNat, by omega⟩
  rw [P_add]
  have h1 := P_one_le n
  have h2 := Rat.mul_le_mul_of_nonneg_left h1 (Rat.le_of_lt (P_pos a))
  grind

theorem P_lt {a b : Int} (h : a < b) : (2 : Rat) ^ a < 2 ^ b := by
  have h1 := P_mono (a := a + 1) (b := b) (by omega)
  rw [P_succ] at h1
  have := P_pos a
  grind

theorem P_lt_iff {a b : Int} (h : (2 : Rat) ^ a < 2 ^ b) : a < b := by
  rcases Int.lt_or_le a b with h1 | h1
  · exact h1
  · have := P_mono h1; grind

/-! ### The exponent -/

theorem ilog2_spec (x : Rat) (h : 0 < x) : (2 : Rat) ^ ilog2 x ≤ x ∧ x < 2 ^ (ilog2 x + 1) := by
  have hn : 0 < x.num := by
    have h0 : 0 ≤ x.num := Rat.num_nonneg.2 (Rat.le_of_lt h)
    have h1 : x.num ≠ 0 := fun e => by rw [Rat.num_eq_zero] at e; grind
    omega
  have hd : 0 < x.den := x.den_pos
  have e : x = (x.num.natAbs : Rat) / (x.den : Rat) := by
    have h1 : ((x.num.natAbs : Nat) : Rat) = ((x.num : Int) : Rat) := by
      have : ((x.num.natAbs : Nat) : Int) = x.num := by omega
      rw [← this]; rfl
    rw [h1, ← Rat.mkRat_eq_div, Rat.mkRat_self]
  have hN : x.num.natAbs ≠ 0 := by omega
  have hD : x.den ≠ 0 := by omega
  have n1 := Nat.log2_self_le hN
  have n2 := Nat.lt_log2_self (n := x.num.natAbs)
  have d1 := Nat.log2_self_le hD
  have d2 := Nat.lt_log2_self (n := x.den)
  have n1' : (2 : Rat) ^ (x.num.natAbs.log2 : Int) ≤ (x.num.natAbs : Rat) := by rw [P_nat]; exact_mod_cast n1
  have n2' : (x.num.natAbs : Rat) < (2 : Rat) ^ ((x.num.natAbs.log2 + 1 : Nat) : Int) := by rw [P_nat]; exact_mod_cast n2
  have d1' : (2 : Rat) ^ (x.den.log2 : Int) ≤ (x.den : Rat) := by rw [P_nat]; exact_mod_cast d1
  have d2' : (x.den : Rat) < (2 : Rat) ^ ((x.den.log2 + 1 : Nat) : Int) := by rw [P_nat]; exact_mod_cast d2
  have dp : (0 : Rat) < (x.den : Rat) := by exact_mod_cast hd
  have ex : x * (x.den : Rat) = (x.num.natAbs : Rat) := by
    have := Rat.div_mul_cancel (a := (x.num.natAbs : Rat)) (b := (x.den : Rat)) (by grind)
    rw [← e] at this; exact this
  generalize hNN : x.num.natAbs.log2 = N at *
  generalize hDD : x.den.log2 = D at *
  -- `x < 2 ^ (N - D + 1)`
  have up : x < 2 ^ ((N : Int) - D + 1) := by
    have h1 : (2 : Rat) ^ ((N + 1 : Nat) : Int) = 2 ^ ((N : Int) - D + 1) * 2 ^ (D : Int) := by
      rw [← P_add]; congr 1; omega
    have h2 := Rat.mul_le_mul_of_nonneg_left d1' (Rat.le_of_lt (P_pos ((N : Int) - D + 1)))
    apply Rat.lt_of_mul_lt_mul_right (c := (x.den : Rat)) _ (Rat.le_of_lt dp)
    grind
  have low : 2 ^ ((N : Int) - D - 1) ≤ x := by
    have h1 : (2 : Rat) ^ (N : Int) = 2 ^ ((N : Int) - D - 1) * 2 ^ ((D + 1 : Nat) : Int) := by
      rw [← P_add]; congr 1; omega
    have h2 := Rat.mul_le_mul_of_nonneg_left (Rat.le_of_lt d2') (Rat.le_of_lt (P_pos ((N : Int) - D - 1)))
    apply Rat.le_of_mul_le_mul_right (c := (x.den : Rat)) _ dp
    grind
  unfold ilog2
  simp only [hNN, hDD]
  by_cases hk : (2 : Rat) ^ ((N : Int) - D) ≤ x
  · rw [if_pos hk]; exact ⟨hk, up⟩
  · rw [if_neg hk]
    refine ⟨low, ?_⟩
    have : (N : Int) - D - 1 + 1 = (N : Int) - D := by omega
    rw [this]; grind

/-! ### The nearest integer -/

theorem nearest_spec (y : Rat) : (nearest y : Rat) - y ≤ 1 / 2 ∧ y - (nearest y : Rat) ≤ 1 / 2 := by
  have h1 := Rat.floor_le y
  have h2 := Rat.lt_floor_add_one y
  have h3 : ((y.floor + 1 : Int) : Rat) = (y.floor : Rat) + 1 := by rw [Rat.intCast_add]; rfl
  unfold nearest
  simp only []
  split
  · constructor <;> grind
  · split
    · constructor <;> grind
    · split <;> constructor <;> grind

theorem nearest_best (y : Rat) (m : Int) : rabs ((nearest y : Rat) - y) ≤ rabs ((m : Rat) - y) := by
  obtain ⟨h1, h2⟩ := nearest_spec y
  by_cases h : m = nearest y
  · rw [h]; exact Rat.le_refl
  · have h3 : m ≤ nearest y - 1 ∨ nearest y + 1 ≤ m := by omega
    have e1 : ((nearest y - 1 : Int) : Rat) = (nearest y : Rat) - 1 := by rw [Rat.intCast_sub]; rfl
    have e2 : ((nearest y + 1 : Int) : Rat) = (nearest y : Rat) + 1 := by rw [Rat.intCast_add]; rfl
    rcases h3 with h3 | h3
    · have : (m : Rat) ≤ (nearest y : Rat) - 1 := by rw [← e1]; exact Rat.intCast_le_intCast.2 h3
      unfold rabs; grind
    · have : (nearest y : Rat) + 1 ≤ (m : Rat) := by rw [← e2]; exact Rat.intCast_le_intCast.2 h3
      unfold rabs; grind

theorem nearest_int (m : Int) : nearest (m : Rat) = m := by
  unfold nearest
  simp only [Rat.floor_intCast]
  rw [if_pos]
  rw [Rat.sub_self]; grind

/-! ### Rounding -/

theorem roundPos_err (p : Nat) (x : Rat) (h : 0 < x) :
    roundPos p x - x ≤ x * 2 ^ (-(p : Int)) ∧ x - roundPos p x ≤ x * 2 ^ (-(p : Int)) := by
  obtain ⟨h1, _⟩ := ilog2_spec x h
  unfold roundPos
  simp only []
  generalize ilog2 x = E at *
  have hq := P_pos (E + 1 - p)
  obtain ⟨n1, n2⟩ := nearest_spec (x / 2 ^ (E + 1 - (p : Int)))
  have ex : x / 2 ^ (E + 1 - (p : Int)) * 2 ^ (E + 1 - (p : Int)) = x := Rat.div_mul_cancel (by grind)
  have e2 : (2 : Rat) ^ (E + 1 - (p : Int)) = 2 ^ E * 2 ^ (-(p : Int)) * 2 := by
    rw [← P_add, ← P_succ]; congr 1; omega
  have h3 := Rat.mul_le_mul_of_nonneg_right h1 (Rat.le_of_lt (P_pos (-(p : Int))))
  have m1 := Rat.mul_le_mul_of_nonneg_right n1 (Rat.le_of_lt hq)
  have m2 := Rat.mul_le_mul_of_nonneg_right n2 (Rat.le_of_lt hq)
  generalize x / 2 ^ (E + 1 - (p : Int)) = y at *
  generalize (nearest y : Rat) = n at *
  constructor <;> grind

/-- Rounding moves a number by at most one part in `2 ^ p`. -/
theorem round_err (p : Nat) (x : Rat) : rabs (round p x - x) ≤ rabs x * 2 ^ (-(p : Int)) := by
  unfold round
  have hq := P_pos (-(p : Int))
  by_cases h0 : x = 0
  · rw [if_pos h0, h0]; simp [rabs]; grind
  · rw [if_neg h0]
    by_cases hn : x < 0
    · rw [if_pos hn]
      obtain ⟨h1, h2⟩ := roundPos_err p (-x) (by grind)
      have e : rabs x = -x := by unfold rabs; rw [if_pos hn]
      rw [e]
      generalize -x * (2 : Rat) ^ (-(p : Int)) = z at *
      unfold rabs; grind
    · rw [if_neg hn]
      obtain ⟨h1, h2⟩ := roundPos_err p x (by grind)
      have e : rabs x = x := by unfold rabs; rw [if_neg hn]
      rw [e]
      generalize x * (2 : Rat) ^ (-(p : Int)) = z at *
      unfold rabs; grind

theorem round_neg (p : Nat) (x : Rat) : round p (-x) = -round p x := by
  unfold round
  by_cases h0 : x = 0
  · simp [h0]
  · have h0' : ¬ -x = 0 := by grind
    rw [if_neg h0, if_neg h0']
    by_cases hn : x < 0
    · rw [if_pos hn, if_neg (by grind)]; grind
    · rw [if_neg hn, if_pos (by grind)]
      have : -(-x) = x := by grind
      rw [this]

theorem roundPos_exact (p : Nat) (m : Nat) (k : Int) (hm : 0 < m) (h : m < 2 ^ p) :
    roundPos p ((m : Rat) * 2 ^ k) = (m : Rat) * 2 ^ k := by
  have hx : 0 < (m : Rat) * 2 ^ k := Rat.mul_pos (by exact_mod_cast hm) (P_pos k)
  obtain ⟨h1, h2⟩ := ilog2_spec _ hx
  unfold roundPos
  simp only []
  generalize ilog2 ((m : Rat) * 2 ^ k) = E at *
  -- the exponent of the unit is at most `k`
  have hE : E < k + p := by
    apply P_lt_iff
    have h3 : (m : Rat) < 2 ^ (p : Int) := by rw [P_nat]; exact_mod_cast h
    have h4 := Rat.mul_lt_mul_of_pos_right h3 (P_pos k)
    have h5 : (2 : Rat) ^ (k + (p : Int)) = 2 ^ (p : Int) * 2 ^ k := by rw [← P_add]; congr 1; omega
    grind
  obtain ⟨j, hj⟩ : ∃ j : Nat, k = E + 1 - p + j := ⟨(k - (E + 1 - p)).toNat, by omega⟩
  have e : (m : Rat) * 2 ^ k = ((m * 2 ^ j : Nat) : Int) * 2 ^ (E + 1 - (p : Int)) := by
    rw [hj, P_add, P_nat]
    have : (((m * 2 ^ j : Nat) : Int) : Rat) = (m : Rat) * ((2 ^ j : Nat) : Rat) := by
      show ((m * 2 ^ j : Nat) : Rat) = _
      rw [Rat.natCast_mul]
    rw [this]; grind
  have hq := P_pos (E + 1 - (p : Int))
  rw [e, Rat.mul_div_cancel (by grind), nearest_int]

/-- Numbers with `p` digits are left as they are. -/
theorem round_exact (p : Nat) (x : Rat) (h : Representable p x) : round p x = x := by
  obtain ⟨m, k, hm, rfl⟩ := h
  have hq := P_pos k
  unfold round
  rcases Int.lt_trichotomy m 0 with h | h | h
  · have h1 : (m : Rat) < 0 := by exact_mod_cast h
    have h2 : (m : Rat) * 2 ^ k < 0 := by
      have := Rat.mul_lt_mul_of_pos_right h1 hq
      grind
    rw [if_neg (by grind), if_pos h2]
    have e : -((m : Rat) * 2 ^ k) = ((m.natAbs : Nat) : Rat) * 2 ^ k := by
      have : ((m.natAbs : Nat) : Rat) = -(m : Rat) := by
        have h3 : ((m.natAbs : Nat) : Int) = -m := by omega
        have h4 : ((m.natAbs : Nat) : Rat) = (((m.natAbs : Nat) : Int) : Rat) := rfl
        rw [h4, h3, Rat.intCast_neg]
      rw [this]; grind
    rw [e, roundPos_exact p _ k (by omega) hm, ← e]; grind
  · rw [h]; simp
  · have h1 : (0 : Rat) < (m : Rat) := by exact_mod_cast h
    have h2 : 0 < (m : Rat) * 2 ^ k := Rat.mul_pos h1 hq
    rw [if_neg (by grind), if_neg (by grind)]
    have e : (m : Rat) * 2 ^ k = ((m.natAbs : Nat) : Rat) * 2 ^ k := by
      have h3 : ((m.natAbs : Nat) : Int) = m := by omega
      have h4 : ((m.natAbs : Nat) : Rat) = (((m.natAbs : Nat) : Int) : Rat) := rfl
      rw [h4, h3]
    rw [e, roundPos_exact p _ k (by omega) hm]

end H2.Round
