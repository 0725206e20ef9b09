import Verif.Follow.Model
import Verif.Follow.Spec
import Verif.Stub.Jump
/-
Lemmas for C83.
-/
namespace H2.Follow
open H2.Stub

/-! ### Masks -/

theorem and_mask (x k s : Nat) : x &&& ((2 ^ k - 1) <<< s) = (x / 2 ^ s % 2 ^ k) <<< s := by
  apply Nat.eq_of_testBit_eq
  intro i
  simp only [Nat.testBit_and, Nat.testBit_shiftLeft, Nat.testBit_two_pow_sub_one, Nat.testBit_mod_two_pow, ← Nat.shiftRight_eq_div_pow, Nat.testBit_shiftRight]
  by_cases h : s ≤ i
  · simp [h, Nat.add_sub_cancel' h, Bool.and_comm]
  · simp [h]

theorem mask_adrp (x : Nat) : x &&& 0x9f00001f = (x % 32) ||| ((x / 2 ^ 24 % 32) <<< 24) ||| ((x / 2 ^ 31 % 2) <<< 31) := by
  have e : 0x9f00001f = ((2 ^ 5 - 1) <<< 0 ||| ((2 ^ 5 - 1) <<< 24)) ||| ((2 ^ 1 - 1) <<< 31) := by decide
  rw [e, Nat.and_or_distrib_left, Nat.and_or_distrib_left, and_mask, and_mask, and_mask]
  simp

theorem mask_ldr (x : Nat) : x &&& 0xffe003ff = (x % 2 ^ 10) ||| ((x / 2 ^ 21 % 2 ^ 11) <<< 21) := by
  have e : 0xffe003ff = ((2 ^ 10 - 1) <<< 0 ||| ((2 ^ 11 - 1) <<< 21)) := by decide
  rw [e, Nat.and_or_distrib_left, and_mask, and_mask]
  simp

theorem mask_br (x : Nat) : x &&& 0xfffffc1f = (x % 32) ||| ((x / 2 ^ 10 % 2 ^ 22) <<< 10) := by
  have e : 0xfffffc1f = ((2 ^ 5 - 1) <<< 0 ||| ((2 ^ 22 - 1) <<< 10)) := by decide
  rw [e, Nat.and_or_distrib_left, and_mask, and_mask]
  simp

theorem mask_literal (x : Nat) : x &&& 0xf8000000 = (x / 2 ^ 27 % 2 ^ 5) <<< 27 := by
  have e : 0xf8000000 = (2 ^ 5 - 1) <<< 27 := by decide
  rw [e, and_mask]

theorem mask_offset (x : Nat) : x &&& 0x07ffffe0 = (x / 2 ^ 5 % 2 ^ 22) <<< 5 := by
  have e : 0x07ffffe0 = (2 ^ 22 - 1) <<< 5 := by decide
  rw [e, and_mask]

theorem page_and (a : Addr) : a &&& 0xfffffffffffff000 = a - BitVec.ofNat 64 (a.toNat % 4096) := by
  apply BitVec.eq_of_toNat_eq
  have e : (0xfffffffffffff000 : Addr).toNat = (2 ^ 52 - 1) <<< 12 := by decide
  rw [BitVec.toNat_and, e, and_mask, Nat.shiftLeft_eq, BitVec.toNat_sub, BitVec.toNat_ofNat]
  have := a.isLt
  omega

/-! ### Words -/

theorem field_succ (m : Mem) (a : Addr) (n : Nat) : field m a (n + 1) = (m a).toNat + 256 * field m (a + 1) n := rfl

theorem field_eight (m : Mem) (a : Addr) : field m a 8 = field m a 4 + 2 ^ 32 * field m (a + 4) 4 := by
  have e1 : a + 1 + 1 = a + 2 := by rw [BitVec.add_assoc]; rfl
  have e2 : a + 2 + 1 = a + 3 := by rw [BitVec.add_assoc]; rfl
  have e3 : a + 3 + 1 = a + 4 := by rw [BitVec.add_assoc]; rfl
  have h8 : field m a 8 = (m a).toNat + 256 * ((m (a + 1)).toNat + 256 * ((m (a + 2)).toNat + 256 * ((m (a + 3)).toNat + 256 * field m (a + 4) 4))) := by
    rw [field_succ, field_succ, field_succ, field_succ, e1, e2, e3]
  have h4 : field m a 4 = (m a).toNat + 256 * ((m (a + 1)).toNat + 256 * ((m (a + 2)).toNat + 256 * ((m (a + 3)).toNat + 256 * 0))) := by
    rw [field_succ, field_succ, field_succ, field_succ, e1, e2, e3]; rfl
  rw [h8, h4]
  generalize field m (a + 4) 4 = z
  omega

theorem fetch_mod (m : Mem) (a : Addr) (i : Nat) : fetch m a i % 2 ^ 32 = word m (a + BitVec.ofNat 64 (i * 4)) := by
  unfold fetch word
  rw [← field_eq, field_eight]
  have : field m (a + BitVec.ofNat 64 (i * 4)) 4 < 256 ^ 4 := by
    rw [field_eq]
    have := le_lt (read m (a + BitVec.ofNat 64 (i * 4)) 4)
    rwa [length_read] at this
  generalize field m (a + BitVec.ofNat 64 (i * 4) + 4) 4 = z at *
  generalize field m (a + BitVec.ofNat 64 (i * 4)) 4 = y at *
  omega

theorem fetch0 (m : Mem) (a : Addr) : fetch m a 0 % 2 ^ 32 = word m a := by
  rw [fetch_mod]; simp

theorem fetch1 (m : Mem) (a : Addr) : fetch m a 1 % 2 ^ 32 = word m (a + 4) := by
  rw [fetch_mod]; rfl

theorem fetch2 (m : Mem) (a : Addr) : fetch m a 2 % 2 ^ 32 = word m (a + 8) := by
  rw [fetch_mod]; rfl

theorem fetch3 (m : Mem) (a : Addr) : fetch m a 3 % 2 ^ 32 = word m (a + 12) := by
  rw [fetch_mod]; rfl

theorem pointer_eq (m : Mem) (a : Addr) : pointer m a = wide m a := by
  unfold pointer wide; rw [field_eq]

/-! ### The forms -/

theorem is_br {x n : Nat} (hn : n < 31) (h : x % 2 ^ 32 = 0xD61F0000 + n * 2 ^ 5) : x &&& 0xfffffc1f = 0xd61f0000 := by
  rw [mask_br]
  have h1 : x % 32 = 0 := by omega
  have h2 : x / 2 ^ 10 % 2 ^ 22 = 0xD61F0000 / 2 ^ 10 := by omega
  rw [h1, h2]; decide

theorem is_adrp {x p q : Nat} (hp : p < 4) (hq : q < 2 ^ 19) (h : x % 2 ^ 32 = 0x90000000 + p * 2 ^ 29 + q * 2 ^ 5 + 16) :
    x &&& 0x9f00001f = 0x90000010 ∧ (x >>> 29) &&& 3 = p ∧ (x >>> 5) &&& (2 ^ 19 - 1) = q := by
  refine ⟨?_, ?_, ?_⟩
  · rw [mask_adrp]
    have h1 : x % 32 = 16 := by omega
    have h2 : x / 2 ^ 24 % 32 = 16 := by omega
    have h3 : x / 2 ^ 31 % 2 = 1 := by omega
    rw [h1, h2, h3]; decide
  · rw [show 3 = 2 ^ 2 - 1 from rfl, Nat.and_two_pow_sub_one_eq_mod, Nat.shiftRight_eq_div_pow]
    omega
  · rw [Nat.and_two_pow_sub_one_eq_mod, Nat.shiftRight_eq_div_pow]
    omega

theorem is_ldr {x imm : Nat} (hi : imm < 2 ^ 11) (h : x % 2 ^ 32 = 0xF9400000 + imm * 2 ^ 10 + 16 * 2 ^ 5 + 17) :
    x &&& 0xffe003ff = 0xf9400211 ∧ (x >>> 10) &&& (2 ^ 12 - 1) = imm := by
  refine ⟨?_, ?_⟩
  · rw [mask_ldr]
    have h1 : x % 2 ^ 10 = 0x211 := by omega
    have h2 : x / 2 ^ 21 % 2 ^ 11 = 0xF9400000 / 2 ^ 21 := by omega
    rw [h1, h2]; decide
  · rw [Nat.and_two_pow_sub_one_eq_mod, Nat.shiftRight_eq_div_pow]
    omega

theorem signExtend_pos {v : Nat} (h : v < 2 ^ 20) : signExtend (BitVec.ofNat 64 v) 21 = BitVec.ofNat 64 v := by
  unfold signExtend
  have : ¬ (BitVec.ofNat 64 v <<< (64 - 21)).toInt < 0 := by
    rw [BitVec.toInt_eq_toNat_cond, BitVec.toNat_shiftLeft, BitVec.toNat_ofNat, Nat.shiftLeft_eq]
    have e : v % 2 ^ 64 * 2 ^ (64 - 21) % 2 ^ 64 = v * 2 ^ 43 := by
      rw [Nat.mod_eq_of_lt (show v < 2 ^ 64 by omega)]
      omega
    rw [e]
    split <;> omega
  simp only [if_neg this]
  simp

/-- Where the code of a procedure linkage table leads. -/
theorem pltTarget_eq {m : Mem} {a : Addr} {page imm : Nat} (hp : page < 2 ^ 20) (hi : imm < 2 ^ 11)
    (h0 : word m a = 0x90000000 + page % 4 * 2 ^ 29 + page / 4 * 2 ^ 5 + 16)
    (h1 : word m (a + 4) = 0xF9400000 + imm * 2 ^ 10 + 16 * 2 ^ 5 + 17) :
    pltTarget m a = wide m (a - BitVec.ofNat 64 (a.toNat % 4096) + BitVec.ofNat 64 (page * 4096) + BitVec.ofNat 64 (8 * imm)) := by
  rw [← fetch0] at h0
  rw [← fetch1] at h1
  obtain ⟨-, e1, e2⟩ := is_adrp (Nat.mod_lt _ (by omega)) (by omega) h0
  obtain ⟨-, e3⟩ := is_ldr hi h1
  unfold pltTarget
  rw [e1, e2, e3, pointer_eq, page_and]
  have e4 : (page / 4) <<< 2 ||| page % 4 = page := by
    rw [← Nat.shiftLeft_add_eq_or_of_lt (show page % 4 < 2 ^ 2 by omega), Nat.shiftLeft_eq]; omega
  simp only [e4, signExtend_pos hp]
  have e5 : BitVec.ofNat 64 page <<< 12 = BitVec.ofNat 64 (page * 4096) := by
    apply BitVec.eq_of_toNat_eq
    rw [BitVec.toNat_shiftLeft, BitVec.toNat_ofNat, BitVec.toNat_ofNat, Nat.shiftLeft_eq]
    omega
  have e6 : imm <<< 3 = 8 * imm := by rw [Nat.shiftLeft_eq]; omega
  rw [e5, e6]

end H2.Follow
