import Verif.Round.Props
/-
Rounding keeps the order of numbers, and takes the even neighbour of two as near.
-/
namespace H2.Round
open H2.Matcher (rabs)

theorem nearest_mono {x y : Rat} (h : x ≤ y) : nearest x ≤ nearest y := by
  rcases Int.lt_or_le (nearest y) (nearest x) with hlt | hle
  · obtain ⟨a, b⟩ := nearest_spec x
    obtain ⟨c, d⟩ := nearest_spec y
    have e : ((nearest y + 1 : Int) : Rat) = (nearest y : Rat) + 1 := by rw [Rat.intCast_add]; rfl
    have h1 : (nearest y : Rat) + 1 ≤ (nearest x : Rat) := by rw [← e]; exact Rat.intCast_le_intCast.2 hlt
    have : x = y := by grind
    subst this
    omega
  · exact hle

theorem ilog2_mono {x y : Rat} (hx : 0 < x) (h : x ≤ y) : ilog2 x ≤ ilog2 y := by
  obtain ⟨a, b⟩ := ilog2_spec x hx
  obtain ⟨c, d⟩ := ilog2_spec y (by grind)
  have : (2 : Rat) ^ ilog2 x < 2 ^ (ilog2 y + 1) := by grind
  have := P_lt_iff this
  omega

theorem ilog2_unique {x : Rat} {k : Int} (h1 : (2 : Rat) ^ k ≤ x) (h2 : x < 2 ^ (k + 1)) : ilog2 x = k := by
  have hp := P_pos k
  obtain ⟨a, b⟩ := ilog2_spec x (by grind)
  have h3 := P_lt_iff (a := k) (b := ilog2 x + 1) (by grind)
  have h4 := P_lt_iff (a := ilog2 x) (b := k + 1) (by grind)
  omega

theorem P_sub_one (p : Nat) (hp : 0 < p) (E : Int) : ((2 ^ (p - 1) : Nat) : Rat) * 2 ^ (E + 1 - (p : Int)) = 2 ^ E := by
  rw [← P_nat, ← P_add]; congr 1; omega

/-- A positive number does not leave the powers of two it lies between. -/
theorem roundPos_range (p : Nat) (hp : 0 < p) (x : Rat) (h : 0 < x) : (2 : Rat) ^ ilog2 x ≤ roundPos p x ∧ roundPos p x ≤ 2 ^ (ilog2 x + 1) := by
  obtain ⟨h1, h2⟩ := ilog2_spec x h
  unfold roundPos
  simp only []
  generalize ilog2 x = E at *
  have hq := P_pos (E + 1 - p)
  have ex : x / 2 ^ (E + 1 - (p : Int)) * 2 ^ (E + 1 - (p : Int)) = x := Rat.div_mul_cancel (by grind)
  have lo := P_sub_one p hp E
  have hi : ((2 ^ p : Nat) : Rat) * 2 ^ (E + 1 - (p : Int)) = 2 ^ (E + 1) := by
    rw [← P_nat, ← P_add]; congr 1; omega
  generalize hy : x / 2 ^ (E + 1 - (p : Int)) = y at *
  have y1 : ((2 ^ (p - 1) : Nat) : Rat) ≤ y := by
    refine Rat.le_of_mul_le_mul_right (c := 2 ^ (E + 1 - (p : Int))) ?_ hq
    grind
  have y2 : y ≤ ((2 ^ p : Nat) : Rat) := by
    refine Rat.le_of_mul_le_mul_right (c := 2 ^ (E + 1 - (p : Int))) ?_ hq
    grind
  have n1 := nearest_mono y1
  have n2 := nearest_mono y2
  have c1 : ∀ n : Nat, ((n : Nat) : Rat) = (((n : Nat) : Int) : Rat) := fun _ => rfl
  rw [c1, nearest_int] at n1 n2
  have n1 : ((2 ^ (p - 1) : Nat) : Rat) ≤ (nearest y : Rat) := by rw [c1]; exact Rat.intCast_le_intCast.2 n1
  have n2 : (nearest y : Rat) ≤ ((2 ^ p : Nat) : Rat) := by rw [c1]; exact Rat.intCast_le_intCast.2 n2
  have m1 := Rat.mul_le_mul_of_nonneg_right n1 (Rat.le_of_lt hq)
  have m2 := Rat.mul_le_mul_of_nonneg_right n2 (Rat.le_of_lt hq)
  constructor
  · rw [← lo]; exact m1
  · rw [← hi]; exact m2

theorem roundPos_mono (p : Nat) (hp : 0 < p) {x y : Rat} (hx : 0 < x) (h : x ≤ y) : roundPos p x ≤ roundPos p y := by
  have hy : 0 < y := by grind
  by_cases he : ilog2 x = ilog2 y
  · unfold roundPos
    simp only [he]
    have hq := P_pos (ilog2 y + 1 - p)
    refine Rat.mul_le_mul_of_nonneg_right (Rat.intCast_le_intCast.2 (nearest_mono ?_)) (Rat.le_of_lt hq)
    rw [Rat.div_def, Rat.div_def]
    exact Rat.mul_le_mul_of_nonneg_right h (Rat.le_of_lt (Rat.inv_pos.2 hq))
  · have := ilog2_mono hx h
    have h1 := (roundPos_range p hp x hx).2
    have h2 := (roundPos_range p hp y hy).1
    have h3 := P_mono (a := ilog2 x + 1) (b := ilog2 y) (by omega)
    grind

/-- Rounding keeps the order. -/
theorem round_mono (p : Nat) (hp : 0 < p) {x y : Rat} (h : x ≤ y) : round p x ≤ round p y := by
  have pos : ∀ z : Rat, 0 ≤ z → 0 ≤ round p z := fun z hz => round_nonneg p z hz
  by_cases hx : 0 ≤ x
  · by_cases h0 : x = 0
    · have : round p x = 0 := by rw [h0]; rfl
      rw [this]; exact pos y (by grind)
    · unfold round
      rw [if_neg h0, if_neg (by grind), if_neg (by grind), if_neg (by grind)]
      exact roundPos_mono p hp (by grind) h
  · by_cases hy : 0 ≤ y
    · have h1 := pos (-x) (by grind)
      rw [round_neg] at h1
      have := pos y hy
      grind
    · unfold round
      rw [if_neg (by grind), if_pos (by grind), if_neg (by grind), if_pos (by grind)]
      have := roundPos_mono p hp (x := -y) (y := -x) (by grind) (by grind)
      grind

/-- Half way between two neighbours of the type the one with an even last digit is taken (what IEEE 754 asks for). -/
theorem round_tie (p : Nat) (m : Nat) (k : Int) (h1 : 2 ^ p ≤ 2 * m) (h2 : m < 2 ^ p) :
    round p (((m : Rat) + 1 / 2) * 2 ^ k) = ((if m % 2 = 0 then m else m + 1 : Nat) : Rat) * 2 ^ k := by
  have hq := P_pos k
  have hp : 0 < p := by
    rcases Nat.eq_zero_or_pos p with h | h
    · subst h; omega
    · exact h
  obtain ⟨r, rfl⟩ : ∃ r, p = r + 1 := ⟨p - 1, by omega⟩
  have hm0 : (0 : Rat) ≤ (m : Rat) := by exact_mod_cast Nat.zero_le m
  have hx : 0 < ((m : Rat) + 1 / 2) * 2 ^ k := Rat.mul_pos (by grind) hq
  have h1' : ((2 ^ r : Nat) : Rat) ≤ (m : Rat) := by
    have : 2 ^ r ≤ m := by rw [Nat.pow_succ] at h1; omega
    exact_mod_cast this
  have h2' : (m : Rat) + 1 ≤ ((2 ^ (r + 1) : Nat) : Rat) := by exact_mod_cast h2
  have hE : ilog2 (((m : Rat) + 1 / 2) * 2 ^ k) = r + k := by
    apply ilog2_unique
    · rw [P_add, P_nat]
      exact Rat.mul_le_mul_of_nonneg_right (by grind) (Rat.le_of_lt hq)
    · rw [show (r : Int) + k + 1 = ((r + 1 : Nat) : Int) + k by omega, P_add, P_nat]
      exact Rat.mul_lt_mul_of_pos_right (by grind) hq
  unfold round
  rw [if_neg (by grind), if_neg (by grind)]
  unfold roundPos
  simp only [hE]
  rw [show (r : Int) + k + 1 - ((r + 1 : Nat) : Int) = k by omega, Rat.mul_div_cancel (by grind)]
  have hf : ((m : Rat) + 1 / 2).floor = (m : Int) := by
    have f1 : (m : Int) ≤ ((m : Rat) + 1 / 2).floor := by
      rw [Rat.le_floor_iff]; show (m : Rat) ≤ _; grind
    have f2 : ¬ (m : Int) + 1 ≤ ((m : Rat) + 1 / 2).floor := by
      rw [Rat.le_floor_iff, Rat.intCast_add]
      show ¬ (m : Rat) + 1 ≤ _
      grind
    omega
  unfold nearest
  simp only [hf]
  have hd : (m : Rat) + 1 / 2 - (((m : Nat) : Int) : Rat) = 1 / 2 := by
    show (m : Rat) + 1 / 2 - (m : Rat) = 1 / 2
    grind
  rw [hd, if_neg (by grind), if_neg (by grind)]
  have hc : (((m : Nat) : Int) % 2 = 0) ↔ m % 2 = 0 := by omega
  by_cases he : m % 2 = 0
  · rw [if_pos (hc.2 he), if_pos he]; rfl
  · rw [if_neg (fun h => he (hc.1 h)), if_neg he]; rfl

/-- 2⁵³ + 1 lies between 2⁵³ and 2⁵³ + 2. -/
example : dbl ((2 ^ 53 : Nat) + 1) = (2 ^ 53 : Nat) := by
  have := round_tie 53 (2 ^ 52) 1 (by decide) (by decide)
  have e : (((2 ^ 52 : Nat) : Rat) + 1 / 2) * 2 ^ (1 : Int) = (2 ^ 53 : Nat) + 1 := by decide +kernel
  rw [e] at this
  unfold dbl
  rw [this]; decide +kernel

end H2.Round
