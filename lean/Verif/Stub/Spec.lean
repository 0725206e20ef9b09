import Verif.Stub.Model
/-
What the processor does with jump instructions, and what a session of stubbing is.
-/
namespace H2.Stub

/-- The value of a little-endian field of `n` bytes at `a`. -/
def field (m : Mem) (a : Addr) : Nat → Nat
  | 0 => 0
  | n + 1 => (m a).toNat + 256 * field m (a + 1) n

/-- The target of the jump instruction at `a` on x86-64 (Intel SDM, `JMP`): `E9` with a 32-bit and
`EB` with an 8-bit displacement relative to the next instruction, `FF 25` through a pointer at a
displacement from the next instruction (also with a REX.W prefix), and `48 B8 imm64; FF E0`
(`movabs rax, imm64; jmp rax`). -/
inductive Jumps (m : Mem) (a : Addr) : Addr → Prop where
  | rel32 {t : Addr} : m a = 0xE9 → t = a + 5 + BitVec.ofInt 64 ((BitVec.ofNat 32 (field m (a + 1) 4)).toInt) → Jumps m a t
  | rel8 {t : Addr} : m a = 0xEB → t = a + 2 + BitVec.ofInt 64 ((BitVec.ofNat 8 (field m (a + 1) 1)).toInt) → Jumps m a t
  | mem {t : Addr} : m a = 0xFF → m (a + 1) = 0x25 →
      t = BitVec.ofNat 64 (field m (a + 6 + BitVec.ofInt 64 ((BitVec.ofNat 32 (field m (a + 2) 4)).toInt)) 8) → Jumps m a t
  | memRex {t : Addr} : m a = 0x48 → m (a + 1) = 0xFF → m (a + 2) = 0x25 →
      t = BitVec.ofNat 64 (field m (a + 7 + BitVec.ofInt 64 ((BitVec.ofNat 32 (field m (a + 3) 4)).toInt)) 8) → Jumps m a t
  | rax {t : Addr} : m a = 0x48 → m (a + 1) = 0xB8 → t = BitVec.ofNat 64 (field m (a + 2) 8) →
      m (a + 10) = 0xFF → m (a + 11) = 0xE0 → Jumps m a t

/-- The same for arm64 (Arm ARM, `LDR (literal)` and `BR`): `ldr xr, [pc + 4*imm19]; br xr`. -/
inductive JumpsArm (m : Mem) (a : Addr) : Addr → Prop where
  | literal {t : Addr} (r imm19 : Nat) : r < 31 → imm19 < 2 ^ 18 →
      field m a 4 = 0x58 * 2 ^ 24 + imm19 * 2 ^ 5 + r →
      field m (a + 4) 4 = 0xD61F * 2 ^ 16 + r * 2 ^ 5 →
      t = BitVec.ofNat 64 (field m (a + BitVec.ofNat 64 (4 * imm19)) 8) → JumpsArm m a t

/-- A call to `a` arrives at `b`: after one jump, or after two. -/
inductive Arrives (m : Mem) (a : Addr) : Addr → Prop where
  | one {b} : Jumps m a b → Arrives m a b
  | two {b c} : Jumps m a b → Jumps m b c → Arrives m a c

/-- `x` is one of the twelve bytes from `a` on. -/
def Within (a x : Addr) : Prop := (x - a).toNat < 12

/-- Two patched areas have no byte in common. -/
def Apart (a b : Addr) : Prop := ∀ x, Within a x → ¬ Within b x

/-- `a` is being patched in `s`. -/
def Patched (s : State) (a : Addr) : Prop := ∃ q ∈ s.sources, q.addr = a

/-- The function patched for `fp` either is patched already, or is apart from all that are. -/
def Clear (s : State) (fp : Addr) : Prop :=
  Patched s (s.resolve fp) ∨ ∀ q ∈ s.sources, Apart (s.resolve fp) q.addr

/-- What can be reached by stubbing, from code without stubs: any operations on any lists, as long as
the functions patched at the same time do not overlap. -/
inductive Reach : State → Prop where
  | start (m : Mem) : Reach ⟨m, [], []⟩
  | stub {s s' c fp dst} : Reach s → Clear s fp → s.stub c fp dst = some s' → Reach s'
  | unstub {s s' c fp} : Reach s → s.unstub c fp = some s' → Reach s'
  | clear {s s' c} : Reach s → s.clear c = some s' → Reach s'

/-- Removing the stub of `fp` from list `c` is in order: if its function was already patched in
`s₀`, no newer stub of the same function is left behind. -/
def InOrder (s₀ s : State) (c : Nat) (fp : Addr) : Prop :=
  ∀ l t r, s.stubs = l ++ t :: r → t.scope = c → t.name = fp → Patched s₀ t.source → ∀ u ∈ l, u.source ≠ t.source

/-- The same for clearing the whole list `c`: newer stubs of the same function are on the list, too. -/
def InOrderAll (s₀ s : State) (c : Nat) : Prop :=
  ∀ l t r, s.stubs = l ++ t :: r → t.scope = c → Patched s₀ t.source → ∀ u ∈ l, u.source = t.source → u.scope = c

/-- A session: stubbing and unstubbing on the lists in `C`, which were empty in `s₀`.  Functions that
were already patched in `s₀` are unstubbed in order; all others in any order. -/
inductive Session (C : Nat → Prop) (s₀ : State) : State → Prop where
  | start : Session C s₀ s₀
  | stub {s s' c fp dst} : Session C s₀ s → C c → Clear s fp → s.stub c fp dst = some s' → Session C s₀ s'
  | unstub {s s' c fp} : Session C s₀ s → C c → InOrder s₀ s c fp → s.unstub c fp = some s' → Session C s₀ s'
  | clear {s s' c} : Session C s₀ s → C c → InOrderAll s₀ s c → s.clear c = some s' → Session C s₀ s'

end H2.Stub
