import Verif.Stub.Model
/-
Model of following jumps to a function, `/repo/source/symbol/h2_cxa.cpp`, on x86-64 and arm64, and of the pages
that are opened for patching, `/repo/source/stub/h2_e9.cpp`.
-/
namespace H2.Follow
open H2.Stub

/-- `follow_jmp(fp, n)` on x86-64, `/repo/source/symbol/h2_cxa.cpp:39-56`: `break` when there is no jump.  (A jump to
itself goes on; that is the same.) -/
def follow (m : Mem) : Nat → Addr → Addr
  | 0, p => p
  | n + 1, p =>
    if m p = 0xE9 ∨ m p = 0xEB ∨ (m p = 0xFF ∧ m (p + 1) = 0x25) ∨ (m p = 0x48 ∧ m (p + 1) = 0xFF ∧ m (p + 2) = 0x25) then
      follow m n (followJmp m p)
    else p

/-- `h2_exempt::add_by_fp`, `/repo/source/memory/h2_exempt.cpp:79-82`, with the default of `/repo/source/symbol/h2_cxa.hpp:3`. -/
def exempted (m : Mem) (fp : Addr) : Addr := follow m 32 fp

/-! ### arm64 -/

/-- `fetch_opcode`, `/repo/source/symbol/h2_cxa.cpp:69-72`: `unsigned long` has eight bytes. -/
def fetch (m : Mem) (p : Addr) (i : Nat) : Nat := le (read m (p + BitVec.ofNat 64 (i * 4)) 8)

/-- `sign_extend`, `/repo/source/symbol/h2_cxa.cpp:60-67`. -/
def signExtend (value : Addr) (bits : Nat) : Addr :=
  let left := 64 - bits
  let wide := value <<< left
  let sign := if wide.toInt < 0 then BitVec.allOnes 64 <<< left else 0
  value ||| sign

/-- A pointer in memory. -/
def pointer (m : Mem) (p : Addr) : Addr := BitVec.ofNat 64 (le (read m p 8))

/-- Where the first form leads, `/repo/source/symbol/h2_cxa.cpp:85-90`. -/
def pltTarget (m : Mem) (p : Addr) : Addr :=
  let low2 := (fetch m p 0 >>> 29) &&& 3
  let high19 := (fetch m p 0 >>> 5) &&& (2 ^ 19 - 1)
  let page := signExtend (BitVec.ofNat 64 ((high19 <<< 2) ||| low2)) 21 <<< 12
  let offset := BitVec.ofNat 64 (((fetch m p 1 >>> 10) &&& (2 ^ 12 - 1)) <<< 3)
  pointer m ((p &&& 0xfffffffffffff000) + page + offset)

/-- One round, `/repo/source/symbol/h2_cxa.cpp:82-98`. -/
def followArm1 (m : Mem) (p : Addr) : Addr :=
  if fetch m p 0 &&& 0x9f00001f = 0x90000010 then
    if fetch m p 1 &&& 0xffe003ff = 0xf9400211 then
      if fetch m p 2 &&& 0xfffffc1f = 0xd61f0000 ∨ fetch m p 3 &&& 0xfffffc1f = 0xd61f0000 then pltTarget m p else p
    else p
  else if fetch m p 0 &&& 0xf8000000 = 0x58000000 then
    if fetch m p 1 &&& 0xfffffc1f = 0xd61f0000 then pointer m (p + BitVec.ofNat 64 ((fetch m p 0 &&& 0x07ffffe0) >>> 3)) else p
  else p

/-- `follow_jmp(fp, n)` on arm64, `/repo/source/symbol/h2_cxa.cpp:74-101`. -/
def followArm (m : Mem) : Nat → Addr → Addr
  | 0, p => p
  | n + 1, p => followArm m n (followArm1 m p)

/-! ### Pages -/

/-- `page_start`, `/repo/source/stub/h2_e9.cpp:18`. -/
def pageStart (pageSize src : Addr) : Addr := src &&& ~~~(pageSize - 1)

/-- `page_count`, `/repo/source/stub/h2_e9.cpp:19`: the quotient of the two doubles is exact, as the page size is a power of two
and the dividend is less than twice that. -/
def pageCount (pageSize src : Addr) (size : Nat) : Nat :=
  ((src + BitVec.ofNat 64 size - pageStart pageSize src).toNat + (pageSize.toNat - 1)) / pageSize.toNat

end H2.Follow
