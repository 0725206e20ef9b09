import Verif.Follow.Lemmas
import Verif.Stub.Props
/-
C83: a function is found behind the jumps that lead to it, and the pages of its first bytes are opened for patching.
-/
namespace H2.Follow
open H2.Stub

/-! ### x86-64 -/

theorem leads_test {m : Mem} {a b : Addr} (h : Leads m a b) :
    m a = 0xE9 ∨ m a = 0xEB ∨ (m a = 0xFF ∧ m (a + 1) = 0x25) ∨ (m a = 0x48 ∧ m (a + 1) = 0xFF ∧ m (a + 2) = 0x25) := by
  cases h with
  | rel32 h _ => exact .inl h
  | rel8 h _ => exact .inr (.inl h)
  | mem h h' _ => exact .inr (.inr (.inl ⟨h, h'⟩))
  | memRex h h' h'' _ => exact .inr (.inr (.inr ⟨h, h', h''⟩))

theorem field4_lt (m : Mem) (a : Addr) : field m a 4 < 2 ^ 32 := by
  rw [field_eq]
  have := le_lt (read m a 4)
  rw [length_read] at this
  exact this

theorem field1_lt (m : Mem) (a : Addr) : field m a 1 < 2 ^ 8 := by
  rw [field_eq]
  have := le_lt (read m a 1)
  rw [length_read] at this
  exact this

theorem leads_of_test {m : Mem} {a : Addr}
    (h : m a = 0xE9 ∨ m a = 0xEB ∨ (m a = 0xFF ∧ m (a + 1) = 0x25) ∨ (m a = 0x48 ∧ m (a + 1) = 0xFF ∧ m (a + 2) = 0x25)) :
    Leads m a (followJmp m a) := by
  unfold followJmp
  by_cases h1 : m a = 0xE9
  · rw [if_pos h1, ← field_eq, signed_eq 32 _ (.inr rfl) (field4_lt m _)]
    exact .rel32 h1 rfl
  rw [if_neg h1]
  by_cases h2 : m a = 0xEB
  · rw [if_pos h2, ← field_eq, signed_eq 8 _ (.inl rfl) (field1_lt m _)]
    exact .rel8 h2 rfl
  rw [if_neg h2]
  by_cases h3 : m a = 0xFF ∧ m (a + 1) = 0x25
  · rw [if_pos h3, ← field_eq, ← field_eq, signed_eq 32 _ (.inr rfl) (field4_lt m _)]
    refine .mem h3.1 h3.2 ?_
    rw [BitVec.add_assoc, BitVec.add_comm _ 6, ← BitVec.add_assoc]
  rw [if_neg h3]
  have h4 : m a = 0x48 ∧ m (a + 1) = 0xFF ∧ m (a + 2) = 0x25 := by
    rcases h with h | h | h | h
    · exact absurd h h1
    · exact absurd h h2
    · exact absurd h h3
    · exact h
  rw [if_pos h4, ← field_eq, ← field_eq, signed_eq 32 _ (.inr rfl) (field4_lt m _), plus3, plus7]
  exact .memRex h4.1 h4.2.1 h4.2.2 rfl

theorem leads_unique {m : Mem} {a b c : Addr} (h : Leads m a b) (h' : Leads m a c) : b = c := by
  cases h <;> cases h' <;> simp_all

theorem follow_step {m : Mem} {a b : Addr} (h : Leads m a b) (k : Nat) : follow m (k + 1) a = follow m k b := by
  rw [follow, if_pos (leads_test h), leads_unique (leads_of_test (leads_test h)) h]

theorem follow_stop {m : Mem} {a : Addr} (h : ∀ b, ¬ Leads m a b) (k : Nat) : follow m k a = a := by
  cases k with
  | zero => rfl
  | succ k =>
    rw [follow, if_neg]
    exact fun ht => h _ (leads_of_test ht)

/-- C83.  What jumps lead to is found: if `n` jumps lead from `a` to `b`, where no jump is, then `b` is found from `a` in `n` rounds
or more. -/
theorem C83_found {m : Mem} {n : Nat} {a b : Addr} (h : Chain m n a b) (hb : ∀ c, ¬ Leads m b c) (k : Nat) (hk : n ≤ k) :
    follow m k a = b := by
  induction h generalizing k with
  | here => exact follow_stop hb k
  | jump h _ ih =>
    cases k with
    | zero => omega
    | succ k => rw [follow_step h]; exact ih hb k (by omega)

/-- C83.  Nothing else is found: what is found is reached by jumps, and it is no jump itself unless all rounds were used. -/
theorem C83_reached (m : Mem) (k : Nat) (a : Addr) :
    ∃ n ≤ k, Chain m n a (follow m k a) ∧ (n = k ∨ ∀ c, ¬ Leads m (follow m k a) c) := by
  induction k generalizing a with
  | zero => exact ⟨0, Nat.le_refl _, .here, .inl rfl⟩
  | succ k ih =>
    rw [follow]
    split
    · rename_i h
      obtain ⟨n, hn, hc, hl⟩ := ih (followJmp m a)
      exact ⟨n + 1, by omega, .jump (leads_of_test h) hc, hl.imp (by omega) id⟩
    · rename_i h
      exact ⟨0, by omega, .here, .inr fun c hc => h (leads_test hc)⟩

/-- C83.  A function that is exempted by the address of a jump is exempted itself, with up to 32 jumps before it. -/
theorem C83_exempted {m : Mem} {n : Nat} {a b : Addr} (h : Chain m n a b) (hb : ∀ c, ¬ Leads m b c) (hn : n ≤ 32) : exempted m a = b :=
  C83_found h hb 32 hn

/-! ### arm64 -/

/-- C83.  On arm64, the entry `adrp x16, page; ldr x17, [x16, #8*imm]; br x17` of a linkage table is followed to where the processor
goes, if the table of pointers is behind the code. -/
theorem C83_plt_partial (m : Mem) (a : Addr) (page imm : Nat) (hp : page < 2 ^ 20) (hi : imm < 2 ^ 11)
    (h0 : word m a = 0x90000000 + page % 4 * 2 ^ 29 + page / 4 * 2 ^ 5 + 16)
    (h1 : word m (a + 4) = 0xF9400000 + imm * 2 ^ 10 + 16 * 2 ^ 5 + 17)
    (h2 : word m (a + 8) = 0xD61F0000 + 17 * 2 ^ 5) (x : Regs) : ∃ x', Goes m 3 (a, x) (followArm1 m a, x') := by
  have hf : followArm1 m a = wide m (a - BitVec.ofNat 64 (a.toNat % 4096) + BitVec.ofNat 64 (page * 4096) + BitVec.ofNat 64 (8 * imm)) := by
    have e0 := is_adrp (x := fetch m a 0) (p := page % 4) (q := page / 4) (by omega) (by omega) (by rw [fetch0, h0])
    have e1 := is_ldr (x := fetch m a 1) hi (by rw [fetch1, h1])
    have e2 := is_br (x := fetch m a 2) (n := 17) (by omega) (by rw [fetch2, h2])
    rw [followArm1, if_pos e0.1, if_pos e1.1, if_pos (.inl e2), pltTarget_eq hp hi h0 h1]
  rw [hf]
  have b1 : a + 4 + 4 = a + 8 := by rw [BitVec.add_assoc]; rfl
  have s1 := Arm.adrp (m := m) (pc := a) (x := x) 16 page (by omega) (by omega) (by omega) (by rw [h0]; omega)
  have s2 := Arm.ldr (m := m) (pc := a + 4) (x := x.set 16 (a - BitVec.ofNat 64 (a.toNat % 4096) + BitVec.ofInt 64 ((page : Int) * 4096))) 17 16 imm
    (by omega) (by omega) (by omega) (by rw [h1])
  rw [b1] at s2
  have s3 := fun y => Arm.br (m := m) (pc := a + 8) (x := y) 17 (by omega) (by rw [h2])
  have e : BitVec.ofInt 64 ((page : Int) * 4096) = BitVec.ofNat 64 (page * 4096) := by
    rw [← BitVec.ofInt_natCast]; rfl
  rw [e] at s1 s2
  exact ⟨_, .step s1 (.step s2 (.step (s3 _) .stay))⟩

/-- C83.  The same with `add x16, x16, #n` before the jump, as linkers write it. -/
theorem C83_plt_add_partial (m : Mem) (a : Addr) (page imm n : Nat) (hp : page < 2 ^ 20) (hi : imm < 2 ^ 11) (hn : n < 2 ^ 12)
    (h0 : word m a = 0x90000000 + page % 4 * 2 ^ 29 + page / 4 * 2 ^ 5 + 16)
    (h1 : word m (a + 4) = 0xF9400000 + imm * 2 ^ 10 + 16 * 2 ^ 5 + 17)
    (h2 : word m (a + 8) = 0x91000000 + n * 2 ^ 10 + 16 * 2 ^ 5 + 16)
    (h3 : word m (a + 12) = 0xD61F0000 + 17 * 2 ^ 5) (x : Regs) : ∃ x', Goes m 4 (a, x) (followArm1 m a, x') := by
  have hf : followArm1 m a = wide m (a - BitVec.ofNat 64 (a.toNat % 4096) + BitVec.ofNat 64 (page * 4096) + BitVec.ofNat 64 (8 * imm)) := by
    have e0 := is_adrp (x := fetch m a 0) (p := page % 4) (q := page / 4) (by omega) (by omega) (by rw [fetch0, h0])
    have e1 := is_ldr (x := fetch m a 1) hi (by rw [fetch1, h1])
    have e2 := is_br (x := fetch m a 3) (n := 17) (by omega) (by rw [fetch3, h3])
    rw [followArm1, if_pos e0.1, if_pos e1.1, if_pos (.inr e2), pltTarget_eq hp hi h0 h1]
  rw [hf]
  have b1 : a + 4 + 4 = a + 8 := by rw [BitVec.add_assoc]; rfl
  have b2 : a + 8 + 4 = a + 12 := by rw [BitVec.add_assoc]; rfl
  have s1 := Arm.adrp (m := m) (pc := a) (x := x) 16 page (by omega) (by omega) (by omega) (by rw [h0]; omega)
  have s2 := Arm.ldr (m := m) (pc := a + 4) (x := x.set 16 (a - BitVec.ofNat 64 (a.toNat % 4096) + BitVec.ofInt 64 ((page : Int) * 4096))) 17 16 imm
    (by omega) (by omega) (by omega) (by rw [h1])
  rw [b1] at s2
  have s3 := fun y => Arm.add (m := m) (pc := a + 8) (x := y) 16 16 n (by omega) (by omega) hn (by rw [h2])
  rw [b2] at s3
  have s4 := fun y => Arm.br (m := m) (pc := a + 12) (x := y) 17 (by omega) (by rw [h3])
  have e : BitVec.ofInt 64 ((page : Int) * 4096) = BitVec.ofNat 64 (page * 4096) := by
    rw [← BitVec.ofInt_natCast]; rfl
  rw [e] at s1 s2
  exact ⟨_, .step s1 (.step s2 (.step (s3 _) (.step (s4 _) .stay)))⟩

theorem literal_eq {m : Mem} {a : Addr} {r imm : Nat} (hr : r < 31) (hi : imm < 2 ^ 18)
    (h0 : word m a = 0x58000000 + imm * 2 ^ 5 + r) (h1 : word m (a + 4) = 0xD61F0000 + r * 2 ^ 5) :
    followArm1 m a = wide m (a + BitVec.ofNat 64 (4 * imm)) := by
  have hx := fetch0 m a
  rw [h0] at hx
  have e0 : ¬ fetch m a 0 &&& 0x9f00001f = 0x90000010 := by
    rw [mask_adrp]
    have : fetch m a 0 / 2 ^ 31 % 2 = 0 := by omega
    rw [this]
    intro h
    have h2 : (fetch m a 0 % 32 ||| (fetch m a 0 / 2 ^ 24 % 32) <<< 24 ||| 0 <<< 31) < 2 ^ 31 := by
      refine Nat.or_lt_two_pow (Nat.or_lt_two_pow (by omega) ?_) (by decide)
      rw [Nat.shiftLeft_eq]; omega
    rw [h] at h2
    omega
  have e1 : fetch m a 0 &&& 0xf8000000 = 0x58000000 := by
    rw [mask_literal]
    have : fetch m a 0 / 2 ^ 27 % 2 ^ 5 = 11 := by omega
    rw [this]; decide
  have e2 := is_br (x := fetch m a 1) hr (by rw [fetch1, h1])
  have e3 : (fetch m a 0 &&& 0x07ffffe0) >>> 3 = 4 * imm := by
    rw [mask_offset, Nat.shiftLeft_eq, Nat.shiftRight_eq_div_pow]
    have : fetch m a 0 / 2 ^ 5 % 2 ^ 22 = imm := by omega
    rw [this]; omega
  rw [followArm1, if_neg e0, if_pos e1, if_pos e2, e3, pointer_eq]

/-- C83.  So is `ldr xr, [pc + 4*imm]; br xr`, if the pointer is behind the code. -/
theorem C83_literal_partial (m : Mem) (a : Addr) (r imm : Nat) (hr : r < 31) (hi : imm < 2 ^ 18)
    (h0 : word m a = 0x58000000 + imm * 2 ^ 5 + r) (h1 : word m (a + 4) = 0xD61F0000 + r * 2 ^ 5) (x : Regs) :
    ∃ x', Goes m 2 (a, x) (followArm1 m a, x') := by
  rw [literal_eq hr hi h0 h1]
  have s1 := Arm.literal (m := m) (pc := a) (x := x) r imm hr (by omega) (by omega) (by rw [h0]; omega)
  have s2 := fun y => Arm.br (m := m) (pc := a + 4) (x := y) r hr (by rw [h1])
  have e : BitVec.ofInt 64 (4 * (imm : Int)) = BitVec.ofNat 64 (4 * imm) := by
    rw [← BitVec.ofInt_natCast]; rfl
  rw [e] at s1
  have := s2 (x.set r (wide m (a + BitVec.ofNat 64 (4 * imm))))
  have hset : (x.set r (wide m (a + BitVec.ofNat 64 (4 * imm)))) r = wide m (a + BitVec.ofNat 64 (4 * imm)) := by simp [Regs.set]
  rw [hset] at this
  exact ⟨_, .step s1 (.step this .stay)⟩

/-- C83.  So a function that is stubbed is followed to its fake. -/
theorem C83_stub_arm (m : Mem) (src dst : Addr) : followArm1 (write m src (jumpCodeArm dst)) src = dst := by
  obtain ⟨r, imm, hr, hi, h0, h1, ht⟩ : ∃ r imm, r < 31 ∧ imm < 2 ^ 18 ∧
      word (write m src (jumpCodeArm dst)) src = 0x58000000 + imm * 2 ^ 5 + r ∧
      word (write m src (jumpCodeArm dst)) (src + 4) = 0xD61F0000 + r * 2 ^ 5 ∧
      dst = wide (write m src (jumpCodeArm dst)) (src + BitVec.ofNat 64 (4 * imm)) := by
    have := C31_jump_arm m src dst
    generalize write m src (jumpCodeArm dst) = w at this
    cases this with
    | literal r imm hr hi h0 h1 ht => exact ⟨r, imm, hr, hi, h0, h1, ht⟩
  rw [literal_eq hr hi h0 h1, ← ht]

/-- C83.  Rounds follow each other. -/
theorem C83_rounds_arm (m : Mem) (n : Nat) (a : Addr) : followArm m (n + 1) a = followArm1 m (followArm m n a) := by
  induction n generalizing a with
  | zero => rfl
  | succ n ih => rw [followArm, ih]; rfl

/-! ### Pages -/

theorem pageStart_toNat (k : Nat) (hk : k < 64) (src : Addr) : (pageStart (BitVec.ofNat 64 (2 ^ k)) src).toNat = src.toNat / 2 ^ k * 2 ^ k := by
  have hpos : 0 < 2 ^ k := Nat.two_pow_pos k
  have hlt : 2 ^ k < 2 ^ 64 := Nat.pow_lt_pow_right (by omega) hk
  have hm : (BitVec.ofNat 64 (2 ^ k) - 1).toNat = 2 ^ k - 1 := by
    rw [BitVec.toNat_sub, BitVec.toNat_ofNat, Nat.mod_eq_of_lt hlt]
    show (2 ^ 64 - 1 + 2 ^ k) % 2 ^ 64 = 2 ^ k - 1
    omega
  unfold pageStart
  rw [BitVec.toNat_and, BitVec.toNat_not, hm]
  have e : 2 ^ 64 - 1 - (2 ^ k - 1) = (2 ^ (64 - k) - 1) <<< k := by
    rw [Nat.shiftLeft_eq, Nat.sub_mul, ← Nat.pow_add, show 64 - k + k = 64 by omega]
    omega
  rw [e, and_mask, Nat.shiftLeft_eq, Nat.mod_eq_of_lt]
  rw [Nat.div_lt_iff_lt_mul hpos, ← Nat.pow_add, show 64 - k + k = 64 by omega]
  exact src.isLt

/-- C83.  The pages that are opened before a function is patched begin at the beginning of a page, all bytes that are patched are in
them, and in every one of them is such a byte: for every page size and every place of the function. -/
theorem C83_pages (k : Nat) (hk : k < 63) (src : Addr) (size : Nat) (h0 : 0 < size) (h1 : size < 2 ^ 62) :
    (pageStart (BitVec.ofNat 64 (2 ^ k)) src).toNat % 2 ^ k = 0 ∧
    (∀ i, i < size → (src + BitVec.ofNat 64 i - pageStart (BitVec.ofNat 64 (2 ^ k)) src).toNat < pageCount (BitVec.ofNat 64 (2 ^ k)) src size * 2 ^ k) ∧
    ∀ j, j < pageCount (BitVec.ofNat 64 (2 ^ k)) src size →
      ∃ i, i < size ∧ (src + BitVec.ofNat 64 i - pageStart (BitVec.ofNat 64 (2 ^ k)) src).toNat / 2 ^ k = j := by
  have hpos : 0 < 2 ^ k := Nat.two_pow_pos k
  have hlt : 2 ^ k ≤ 2 ^ 62 := Nat.pow_le_pow_right (by omega) (by omega)
  have hs := pageStart_toNat k (by omega) src
  have hdm := Nat.div_add_mod src.toNat (2 ^ k)
  have hr := Nat.mod_lt src.toNat hpos
  have hoff : ∀ i, i ≤ size → (src + BitVec.ofNat 64 i - pageStart (BitVec.ofNat 64 (2 ^ k)) src).toNat = src.toNat % 2 ^ k + i := by
    intro i hi
    rw [BitVec.toNat_sub, hs, BitVec.toNat_add, BitVec.toNat_ofNat]
    have := src.isLt
    rw [Nat.mul_comm] at hdm
    generalize src.toNat / 2 ^ k * 2 ^ k = b at *
    generalize 2 ^ k = P at *
    omega
  have hp : (BitVec.ofNat 64 (2 ^ k)).toNat = 2 ^ k := by rw [BitVec.toNat_ofNat, Nat.mod_eq_of_lt (by omega)]
  have hc : pageCount (BitVec.ofNat 64 (2 ^ k)) src size = (src.toNat % 2 ^ k + size + (2 ^ k - 1)) / 2 ^ k := by
    rw [pageCount, hp, hoff size (Nat.le_refl _)]
  rw [hs, hc]
  refine ⟨Nat.mul_mod_left .., ?_, ?_⟩
  · intro i hi
    rw [hoff i (by omega)]
    have h2 := Nat.div_add_mod (src.toNat % 2 ^ k + size + (2 ^ k - 1)) (2 ^ k)
    have h3 := Nat.mod_lt (src.toNat % 2 ^ k + size + (2 ^ k - 1)) hpos
    rw [Nat.mul_comm] at h2
    generalize (src.toNat % 2 ^ k + size + (2 ^ k - 1)) / 2 ^ k * 2 ^ k = c at *
    generalize (src.toNat % 2 ^ k + size + (2 ^ k - 1)) % 2 ^ k = d at *
    omega
  · intro j hj
    generalize src.toNat % 2 ^ k = r at *
    generalize 2 ^ k = P at *
    have hj' : j * P + P ≤ r + size + (P - 1) := by
      have := (Nat.le_div_iff_mul_le hpos).1 (show j + 1 ≤ _ from hj)
      rw [Nat.add_mul] at this; omega
    by_cases hz : j * P ≤ r
    · have hj0 : j = 0 := by
        rcases Nat.eq_zero_or_pos j with h | h
        · exact h
        · have : P ≤ j * P := Nat.le_mul_of_pos_left P h
          omega
      refine ⟨0, h0, ?_⟩
      rw [hoff 0 (by omega), hj0]
      exact Nat.div_eq_of_lt (by omega)
    · refine ⟨j * P - r, by omega, ?_⟩
      rw [hoff _ (by omega)]
      have : r + (j * P - r) = j * P := by omega
      rw [this, Nat.mul_div_cancel _ hpos]

/-! ### Concrete cases -/

section
/-- `jmp +3` at 16, `jmp *(%rip)` behind it with a pointer to 64 in the next eight bytes. -/
private def x86 : Mem := write (fun _ => 0) 16 [0xEB, 3, 0, 0, 0, 0xFF, 0x25, 0, 0, 0, 0, 64]

private theorem x86_stop : ∀ c, ¬ Leads x86 64 c := by
  intro c h
  rcases leads_test h with h | h | h | h <;> revert h <;> decide +kernel

/-- Two jumps lead from 16 to 64, where no jump is. -/
example : exempted x86 16 = 64 :=
  C83_exempted (n := 2) (.jump (b := 21) (.rel8 (by decide +kernel) (by decide +kernel))
    (.jump (.mem (by decide +kernel) (by decide +kernel) (by decide +kernel)) .here)) x86_stop (by omega)

/-- `adrp x16, +1 page; ldr x17, [x16, #8]; add x16, x16, #8; br x17` at 0x10000, and a pointer at 0x11008. -/
private def plt : Mem := write (write (write (fun _ => 0) 0x10000 [0x10, 0, 0, 0xB0, 0x11, 0x06, 0x40, 0xF9, 0x10, 0x22, 0, 0x91]) 0x1000C [0x20, 0x02, 0x1F, 0xD6])
  0x11008 [0x34, 0x12]

example (x : Regs) : ∃ x', Goes plt 4 (0x10000, x) (followArm1 plt 0x10000, x') :=
  C83_plt_add_partial plt 0x10000 1 1 8 (by omega) (by omega) (by omega) (by decide +kernel) (by decide +kernel) (by decide +kernel) (by decide +kernel) x

example : followArm1 plt 0x10000 = 0x1234 := by decide +kernel

/-- `ldr x17, [pc + 8]; br x17` -/
private def literal : Mem := write (fun _ => 0) 0x10000 [0x51, 0, 0, 0x58, 0x20, 0x02, 0x1F, 0xD6, 0x34, 0x12]

example (x : Regs) : ∃ x', Goes literal 2 (0x10000, x) (followArm1 literal 0x10000, x') :=
  C83_literal_partial literal 0x10000 17 2 (by omega) (by omega) (by decide +kernel) (by decide +kernel) x

/-- A function at the end of a page of 4096 bytes needs two. -/
example : pageCount 4096 0x10FF8 12 = 2 ∧ pageCount 4096 0x10FF4 12 = 1 := by decide +kernel
end

/-! ### What is false of the code -/

/-- C83 (fails).  On arm64, an entry of a linkage table whose pointer is before the code, `adrp x16, -1 page`, is not followed to where
the processor goes: the sign is extended to the wrong bits. -/
theorem C83_negative_false : ∃ (m : Mem) (a t : Addr), (∀ x, ∃ x', Goes m 3 (a, x) (t, x')) ∧ followArm1 m a ≠ t := by
  let m : Mem := write (write (fun _ => 0) 0x10000 [0xF0, 0xFF, 0xFF, 0xF0, 0x11, 0x02, 0x40, 0xF9, 0x20, 0x02, 0x1F, 0xD6]) 0xF000 [0x34, 0x12]
  refine ⟨m, 0x10000, 0x1234, fun x => ?_, by decide +kernel⟩
  have s1 := Arm.adrp (m := m) (pc := 0x10000) (x := x) 16 (-1) (by omega) (by omega) (by omega) (by decide +kernel)
  have s2 := fun y => Arm.ldr (m := m) (pc := 0x10004) (x := y) 17 16 0 (by omega) (by omega) (by omega) (by decide +kernel)
  have s3 := fun y => Arm.br (m := m) (pc := 0x10008) (x := y) 17 (by omega) (by decide +kernel)
  have := s3 ((x.set 16 0xF000).set 17 0x1234)
  have e : ((x.set 16 0xF000).set 17 0x1234) 17 = 0x1234 := by simp [Regs.set]
  rw [e] at this
  have e2 : (0x10000 : Addr) - BitVec.ofNat 64 ((0x10000 : Addr).toNat % 4096) + BitVec.ofInt 64 (-1 * 4096) = 0xF000 := by decide +kernel
  rw [e2] at s1
  have t2 := s2 (x.set 16 0xF000)
  have e3 : (x.set 16 0xF000) 16 = 0xF000 := by simp [Regs.set]
  have e4 : wide m (0xF000 + BitVec.ofNat 64 (8 * 0)) = 0x1234 := by decide +kernel
  rw [e3, e4] at t2
  exact ⟨_, .step s1 (.step t2 (.step this .stay))⟩

/-- C83 (fails).  Nor is `ldr x17, [pc - 8]; br x17`: the number is taken without its sign. -/
theorem C83_literal_false : ∃ (m : Mem) (a t : Addr), (∀ x, ∃ x', Goes m 2 (a, x) (t, x')) ∧ followArm1 m a ≠ t := by
  let m : Mem := write (fun _ => 0) 0xFFF8 [0x34, 0x12, 0, 0, 0, 0, 0, 0, 0xD1, 0xFF, 0xFF, 0x58, 0x20, 0x02, 0x1F, 0xD6]
  refine ⟨m, 0x10000, 0x1234, fun x => ?_, by decide +kernel⟩
  have s1 := Arm.literal (m := m) (pc := 0x10000) (x := x) 17 (-2) (by omega) (by omega) (by omega) (by decide +kernel)
  have s2 := Arm.br (m := m) (pc := 0x10004) (x := x.set 17 0x1234) 17 (by omega) (by decide +kernel)
  have e : (x.set 17 0x1234) 17 = 0x1234 := by simp [Regs.set]
  rw [e] at s2
  have e4 : wide m (0x10000 + BitVec.ofInt 64 (4 * -2)) = 0x1234 := by decide +kernel
  rw [e4] at s1
  exact ⟨_, .step s1 (.step s2 .stay)⟩

/-- C83 (fails).  And code that is no such jump is taken for one: `ldr d17, [pc + 8]; br x17` goes to wherever `x17` says, but is followed. -/
theorem C83_vector_false : ∃ (m : Mem) (a : Addr), (∀ x : Regs, Goes m 2 (a, x) (x 17, x)) ∧ followArm1 m a ≠ a := by
  let m : Mem := write (fun _ => 0) 0x10000 [0x51, 0, 0, 0x5C, 0x20, 0x02, 0x1F, 0xD6]
  refine ⟨m, 0x10000, fun x => ?_, by decide +kernel⟩
  exact .step (Arm.literalD (m := m) (pc := 0x10000) (x := x) 17 2 (by omega) (by omega) (by omega) (by decide +kernel))
    (.step (Arm.br (m := m) (pc := 0x10004) (x := x) 17 (by omega) (by decide +kernel)) .stay)

end H2.Follow
