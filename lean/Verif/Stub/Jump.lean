import Verif.Stub.Lemmas
namespace H2.Stub

theorem at_zero (m : Mem) (a : Addr) (bs : List Byte) (hl : bs.length ≤ 12) (h0 : 0 < bs.length) : write m a bs a = bs[0] := by
  have := write_at m a bs 0 h0 hl
  simpa using this

theorem plus3 (a : Addr) : a + 1 + 2 = a + 3 := by
  have : (3 : Addr) = 1 + 2 := by decide
  rw [this, BitVec.add_assoc]

theorem plus7 (a d : Addr) : a + 1 + d + 6 = a + 7 + d := by
  have : (7 : Addr) = 1 + 6 := by decide
  rw [this, BitVec.add_assoc, BitVec.add_assoc, BitVec.add_comm d 6, BitVec.add_assoc, BitVec.add_assoc]

theorem back (a b : Addr) : b = a + 5 + (b - a - 5) := by
  rw [BitVec.add_comm, BitVec.add_comm a 5, ← BitVec.add_assoc, BitVec.sub_add_cancel, BitVec.sub_add_cancel]

/-- `followJmp` is the jump of the processor, unless the code does not start with one it knows. -/
theorem followJmp_spec (m : Mem) (a : Addr) : followJmp m a = a ∨ Jumps m a (followJmp m a) := by
  unfold followJmp
  have h4 : ∀ b, le (read m b 4) < 2 ^ 32 := fun b => by have := le_lt (read m b 4); simpa [length_read] using this
  have h1 : ∀ b, le (read m b 1) < 2 ^ 8 := fun b => by have := le_lt (read m b 1); simpa [length_read] using this
  split
  · rename_i h
    exact .inr (.rel32 h (by rw [signed_eq _ _ (.inr rfl) (h4 _), field_eq]))
  · split
    · rename_i h
      exact .inr (.rel8 h (by rw [signed_eq _ _ (.inl rfl) (h1 _), field_eq]))
    · split
      · rename_i h
        refine .inr (.mem h.1 h.2 ?_)
        rw [signed_eq _ _ (.inr rfl) (h4 _), field_eq, field_eq]
        congr 3
        rw [BitVec.add_assoc, BitVec.add_comm _ 6, BitVec.add_assoc]
      · split
        · rename_i h
          refine .inr (.memRex h.1 h.2.1 h.2.2 ?_)
          rw [signed_eq _ _ (.inr rfl) (h4 _), field_eq, field_eq]
          rw [plus3]
          generalize BitVec.ofInt 64 _ = d
          rw [plus7]
        · exact .inl rfl

theorem jump_spec (m : Mem) (src dst : Addr) : Jumps (write m src (jumpCode src dst)) src dst := by
  have hl := length_jumpCode src dst
  obtain ⟨C, hC⟩ : ∃ C, jumpCode src dst = C := ⟨_, rfl⟩
  rw [hC] at hl ⊢
  have hC' := hC
  unfold jumpCode at hC
  simp only at hC
  split at hC
  · have hlen : C.length = 12 := by rw [← hC]; simp [length_leBytes]
    have g : ∀ i (h : i < 12), write m src C (src + BitVec.ofNat 64 i) = C[i]'(by omega) := fun i h => write_at m src C i (by omega) hl
    refine .rax ?_ ?_ ?_ ?_ ?_
    · rw [at_zero _ _ _ hl (by omega)]; subst hC; rfl
    · exact (g 1 (by omega)).trans (by subst hC; rfl)
    · rw [field_eq]
      have := read_write m src C 2 8 hl (by omega)
      have e : read (write m src C) (src + 2) 8 = (C.drop 2).take 8 := this
      rw [e]
      have : (C.drop 2).take 8 = leBytes dst.toNat 8 := by
        rw [← hC]; simp [length_leBytes]
      rw [this, le_leBytes]
      apply BitVec.eq_of_toNat_eq
      have := dst.isLt
      rw [BitVec.toNat_ofNat]; omega
    · exact (g 10 (by omega)).trans (by subst hC; rfl)
    · exact (g 11 (by omega)).trans (by subst hC; rfl)
  · rename_i hd
    have hlen : C.length = 5 := by rw [← hC]; simp [length_leBytes]
    refine .rel32 ?_ ?_
    · rw [at_zero _ _ _ hl (by omega)]; subst hC; rfl
    · rw [field_eq]
      have e : read (write m src C) (src + 1) 4 = (C.drop 1).take 4 := read_write m src C 1 4 hl (by omega)
      rw [e]
      have : (C.drop 1).take 4 = leBytes (dst - src - 5).toNat 4 := by
        rw [← hC]
        generalize (dst - src - 5).toNat = d
        rw [List.drop_one, List.tail_cons, List.take_of_length_le (by rw [length_leBytes]; exact Nat.le_refl _)]
      rw [this, le_leBytes]
      have key : BitVec.ofInt 64 (BitVec.ofNat 32 ((dst - src - 5).toNat % 256 ^ 4)).toInt = dst - src - 5 := by
        generalize dst - src - 5 = d at hd
        apply BitVec.eq_of_toInt_eq
        have hlt := d.isLt
        rw [BitVec.toInt_ofInt, BitVec.toInt_ofNat', BitVec.toInt_eq_toNat_cond]
        rw [BitVec.toInt_eq_toNat_cond] at hd
        simp only [Int.bmod_def]
        split at hd <;> rename_i hd' <;> simp only [hd', if_true, if_false] <;> omega
      rw [key]; exact back src dst

end H2.Stub
