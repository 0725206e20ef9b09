import Verif.Stub.Spec
/-
What the processor does: chains of jumps on x86-64, and the instructions of arm64 that jumps to functions are made of.
-/
namespace H2.Follow
open H2.Stub

/-! ### x86-64 -/

/-- The jumps that lead to functions in other places: relative ones, and those through a pointer (`Jumps` without the
one through a register). -/
inductive Leads (m : Mem) (a : Addr) : Addr → Prop where
  | rel32 {t : Addr} : m a = 0xE9 → t = a + 5 + BitVec.ofInt 64 ((BitVec.ofNat 32 (field m (a + 1) 4)).toInt) → Leads m a t
  | rel8 {t : Addr} : m a = 0xEB → t = a + 2 + BitVec.ofInt 64 ((BitVec.ofNat 8 (field m (a + 1) 1)).toInt) → Leads m a t
  | mem {t : Addr} : m a = 0xFF → m (a + 1) = 0x25 →
      t = BitVec.ofNat 64 (field m (a + 6 + BitVec.ofInt 64 ((BitVec.ofNat 32 (field m (a + 2) 4)).toInt)) 8) → Leads m a t
  | memRex {t : Addr} : m a = 0x48 → m (a + 1) = 0xFF → m (a + 2) = 0x25 →
      t = BitVec.ofNat 64 (field m (a + 7 + BitVec.ofInt 64 ((BitVec.ofNat 32 (field m (a + 3) 4)).toInt)) 8) → Leads m a t

/-- `Chain m n a b`: `n` jumps lead from `a` to `b`. -/
inductive Chain (m : Mem) : Nat → Addr → Addr → Prop where
  | here {a} : Chain m 0 a a
  | jump {n a b c} : Leads m a b → Chain m n b c → Chain m (n + 1) a c

/-! ### arm64 -/

/-- Registers `x0` to `x30`. -/
abbrev Regs := Nat → Addr

def Regs.set (g : Regs) (r : Nat) (v : Addr) : Regs := fun s => if s = r then v else g s

/-- The instruction at an address. -/
def word (m : Mem) (a : Addr) : Nat := field m a 4

/-- The eight bytes at an address. -/
def wide (m : Mem) (a : Addr) : Addr := BitVec.ofNat 64 (field m a 8)

/-- `Arm m (pc, x) (pc', x')`: one instruction (Arm ARM C6.2: `ADRP`, `LDR (immediate)`, `ADD (immediate)`, `LDR (literal)`, `BR`; C7.2
`LDR (literal, SIMD&FP)`). -/
inductive Arm (m : Mem) : Addr × Regs → Addr × Regs → Prop where
  | adrp {pc x} (d : Nat) (page : Int) : d < 31 → -2 ^ 20 ≤ page → page < 2 ^ 20 →
      (word m pc : Int) = 0x90000000 + page % 4 * 2 ^ 29 + page / 4 % 2 ^ 19 * 2 ^ 5 + d →
      Arm m (pc, x) (pc + 4, x.set d (pc - BitVec.ofNat 64 (pc.toNat % 4096) + BitVec.ofInt 64 (page * 4096)))
  | ldr {pc x} (t n imm : Nat) : t < 31 → n < 31 → imm < 2 ^ 12 →
      word m pc = 0xF9400000 + imm * 2 ^ 10 + n * 2 ^ 5 + t → Arm m (pc, x) (pc + 4, x.set t (wide m (x n + BitVec.ofNat 64 (8 * imm))))
  | add {pc x} (d n imm : Nat) : d < 31 → n < 31 → imm < 2 ^ 12 →
      word m pc = 0x91000000 + imm * 2 ^ 10 + n * 2 ^ 5 + d → Arm m (pc, x) (pc + 4, x.set d (x n + BitVec.ofNat 64 imm))
  | literal {pc x} (t : Nat) (imm : Int) : t < 31 → -2 ^ 18 ≤ imm → imm < 2 ^ 18 →
      (word m pc : Int) = 0x58000000 + imm % 2 ^ 19 * 2 ^ 5 + t →
      Arm m (pc, x) (pc + 4, x.set t (wide m (pc + BitVec.ofInt 64 (4 * imm))))
  /-- loads a vector register, which is none of these -/
  | literalD {pc x} (t : Nat) (imm : Int) : t < 32 → -2 ^ 18 ≤ imm → imm < 2 ^ 18 →
      (word m pc : Int) = 0x5C000000 + imm % 2 ^ 19 * 2 ^ 5 + t → Arm m (pc, x) (pc + 4, x)
  | br {pc x} (n : Nat) : n < 31 → word m pc = 0xD61F0000 + n * 2 ^ 5 → Arm m (pc, x) (x n, x)

/-- `Goes m k (pc, x) (pc', x')`: `k` instructions. -/
inductive Goes (m : Mem) : Nat → Addr × Regs → Addr × Regs → Prop where
  | stay {s} : Goes m 0 s s
  | step {n s t u} : Arm m s t → Goes m n t u → Goes m (n + 1) s u

end H2.Follow
