import Verif.Stub.Spec
namespace H2.Stub

/-! ### Bytes -/

theorem length_leBytes (n k : Nat) : (leBytes n k).length = k := by
  induction k generalizing n with
  | zero => rfl
  | succ k ih => simp [leBytes, ih]

theorem le_leBytes (n k : Nat) : le (leBytes n k) = n % 256 ^ k := by
  induction k generalizing n with
  | zero => simp [leBytes, le, Nat.mod_one]
  | succ k ih =>
    rw [leBytes, le, ih, Nat.pow_succ, Nat.mul_comm (256 ^ k) 256, Nat.mod_mul]
    simp

theorem length_read (m : Mem) (a : Addr) (n : Nat) : (read m a n).length = n := by simp [read]

theorem read_succ (m : Mem) (a : Addr) (n : Nat) : read m a (n + 1) = m a :: read m (a + 1) n := by
  unfold read
  rw [List.range_succ_eq_map]
  simp only [List.map_cons, List.map_map]
  congr 1
  · simp
  · apply List.map_congr_left
    intro i _
    simp only [Function.comp]
    congr 1
    rw [BitVec.add_assoc]
    congr 1
    apply BitVec.eq_of_toNat_eq
    simp [Nat.add_comm]

theorem field_eq (m : Mem) (a : Addr) (n : Nat) : field m a n = le (read m a n) := by
  induction n generalizing a with
  | zero => rfl
  | succ n ih => rw [read_succ, le, field, ih]

theorem le_lt (bs : List Byte) : le bs < 256 ^ bs.length := by
  induction bs with
  | nil => simp [le]
  | cons b bs ih =>
    have := b.toNat_lt
    simp only [le, List.length_cons, Nat.pow_succ]
    omega

theorem signed_eq (bits n : Nat) (hb : bits = 8 ∨ bits = 32) (hn : n < 2 ^ bits) :
    signed bits n = BitVec.ofInt 64 ((BitVec.ofNat bits n).toInt) := by
  rw [BitVec.toInt_eq_toNat_cond, BitVec.toNat_ofNat, Nat.mod_eq_of_lt hn]
  unfold signed
  apply BitVec.eq_of_toInt_eq
  rcases hb with hb | hb <;> subst hb
  · by_cases h : n < 2 ^ 7
    · rw [if_pos h, if_pos (by omega), BitVec.toInt_ofInt, BitVec.toInt_ofNat']
    · rw [if_neg h, if_neg (by omega), BitVec.toInt_ofInt, BitVec.toInt_sub, BitVec.toInt_ofNat', BitVec.toInt_ofNat']
      simp only [Int.bmod_def]; omega
  · by_cases h : n < 2 ^ 31
    · rw [if_pos h, if_pos (by omega), BitVec.toInt_ofInt, BitVec.toInt_ofNat']
    · rw [if_neg h, if_neg (by omega), BitVec.toInt_ofInt, BitVec.toInt_sub, BitVec.toInt_ofNat', BitVec.toInt_ofNat']
      simp only [Int.bmod_def]; omega

theorem sub_add_toNat (a : Addr) (i : Nat) (hi : i < 2 ^ 64) : (a + BitVec.ofNat 64 i - a).toNat = i := by
  rw [BitVec.add_comm, BitVec.add_sub_cancel]; simp [Nat.mod_eq_of_lt hi]

theorem write_at (m : Mem) (a : Addr) (bs : List Byte) (i : Nat) (hi : i < bs.length) (hl : bs.length ≤ 12) :
    write m a bs (a + BitVec.ofNat 64 i) = bs[i] := by
  unfold write
  rw [sub_add_toNat _ _ (by omega)]
  simp [List.getD, hi]

theorem read_write (m : Mem) (a : Addr) (bs : List Byte) (i n : Nat) (hl : bs.length ≤ 12) (hi : i + n ≤ bs.length) :
    read (write m a bs) (a + BitVec.ofNat 64 i) n = (bs.drop i).take n := by
  apply List.ext_getElem
  · simp [read]; omega
  · intro k h1 h2
    simp [read] at h1
    simp only [read, List.getElem_map, List.getElem_range, List.getElem_take, List.getElem_drop]
    have : a + BitVec.ofNat 64 i + BitVec.ofNat 64 k = a + BitVec.ofNat 64 (i + k) := by
      rw [BitVec.add_assoc, BitVec.ofNat_add]
    rw [this, write_at _ _ _ _ (by omega) hl]

theorem write_out (m : Mem) (a : Addr) (bs : List Byte) (x : Addr) (hl : bs.length ≤ 12) (hx : ¬ Within a x) :
    write m a bs x = m x := by
  unfold write
  simp only [Within] at hx
  simp only [List.getD]
  rw [List.getElem?_eq_none (by omega)]; rfl

theorem read_congr {m m' : Mem} {a : Addr} (h : ∀ x, Within a x → m x = m' x) : read m a 12 = read m' a 12 := by
  unfold read
  apply List.map_congr_left
  intro i hi
  apply h
  simp at hi
  rw [Within, sub_add_toNat _ _ (by omega)]; exact hi

theorem write_read (m m' : Mem) (a x : Addr) (hx : Within a x) : write m a (read m' a 12) x = m' x := by
  unfold write
  have hx' : (x - a).toNat < 12 := hx
  simp only [List.getD]
  rw [List.getElem?_eq_getElem (by simpa [length_read] using hx')]
  simp only [read, List.getElem_map, List.getElem_range, Option.getD_some]
  congr 1
  rw [BitVec.ofNat_toNat, BitVec.setWidth_eq, BitVec.add_comm, BitVec.sub_add_cancel]

theorem length_jumpCode (src dst : Addr) : (jumpCode src dst).length ≤ 12 := by
  unfold jumpCode
  simp only
  split <;> simp [length_leBytes]

end H2.Stub
