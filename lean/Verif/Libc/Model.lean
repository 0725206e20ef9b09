/-
Model of the internal allocator, `/repo/source/utils/h2_libc.cpp`.

A `buddy` is a chunk of memory starting at its header; the free chunks of a block are the sequence on
its list (`Verif.Link` proves the intrusive lists behave like sequences).  The header of a chunk in
use holds its size; it is kept in `live` with the chunk (callers that write outside their area could
change it).  Addresses and sizes are 64 bits; `mmap` gives any fresh area and is assumed to succeed.
-/
namespace H2.Libc

abbrev W : Nat := 2 ^ 64

/-- A chunk: `buddy` with its address, `/repo/source/utils/h2_libc.cpp:4-10`. -/
structure Chunk where
  addr : Nat
  size : Nat
deriving DecidableEq, Repr

/-- `block`, `/repo/source/utils/h2_libc.cpp:12-15`. -/
structure Block where
  addr : Nat
  bytes : Nat
  buddies : List Chunk
deriving DecidableEq, Repr

/-- The constructor of `block`, `/repo/source/utils/h2_libc.cpp:17-21`; `sizeof(block)` is 32. -/
def Block.new (addr bytes : Nat) : Block := { addr, bytes, buddies := [⟨addr + 32, bytes - 32⟩] }

/-- The loop of `block::malloc`, `/repo/source/utils/h2_libc.cpp:23-39`; `sizeof(p->size)` is 8 and
`sizeof(buddy)` is 24. -/
def mallocIn (size : Nat) : List Chunk → Option (List Chunk × Chunk)
  | [] => none
  | p :: ps =>
    if (size + 8) % W ≤ p.size then
      let left := p.size - (size + 8) % W
      if 24 + 64 ≤ left then some ({ p with size := left } :: ps, ⟨p.addr + left, (size + 8) % W⟩)
      else some (ps, p)
    else (mallocIn size ps).map fun r => (p :: r.1, r.2)

/-- The loop of `block::free`, `/repo/source/utils/h2_libc.cpp:44-60`. -/
def freeIn (b : Chunk) : List Chunk → List Chunk
  | [] => [b]
  | p :: ps =>
    if p.addr + p.size = b.addr then { p with size := p.size + b.size } :: ps
    else if b.addr + b.size = p.addr then { b with size := b.size + p.size } :: ps
    else if b.addr + b.size < p.addr then b :: p :: ps
    else p :: freeIn b ps

/-- `block::free`, `/repo/source/utils/h2_libc.cpp:41-62`: `none` is `return false`. -/
def Block.free (k : Block) (b : Chunk) : Option Block :=
  if b.addr < k.addr ∧ k.addr + k.bytes ≤ b.addr then none
  else some { k with buddies := freeIn b k.buddies }

/-- The allocator; `live` are the chunks in use with the size asked for. -/
structure State where
  blocks : List Block
  live : List (Chunk × Nat)
deriving DecidableEq, Repr

/-- `alloc`, `/repo/source/utils/h2_libc.cpp:85-92`. -/
def alloc (size : Nat) : List Block → Option (List Block × Chunk)
  | [] => none
  | k :: ks =>
    match mallocIn size k.buddies with
    | some r => some ({ k with buddies := r.1 } :: ks, r.2)
    | none => (alloc size ks).map fun r => (k :: r.1, r.2)

/-- Bytes `batch` maps, `/repo/source/utils/h2_libc.cpp:69-76`.  Simplification: `ceil` of the
quotient in exact arithmetic (the code divides `double`s, exact up to 2^53). -/
def batchBytes (size : Nat) : Nat := (size + (4 * 1024 * 1024 - 1)) / (4 * 1024 * 1024) * (4 * 1024 * 1024)

/-- `(size + 7) / 8 * 8`, `/repo/source/utils/h2_libc.cpp:96`. -/
def roundUp (size : Nat) : Nat := (size + 7) % W / 8 * 8

/-- `h2_libc::malloc`, `/repo/source/utils/h2_libc.cpp:116-120`, with `h2_libc_malloc::malloc`,
94-104; `map` is the address `mmap` returns if it is called.  The result is the pointer, or `none`
for null. -/
def State.malloc (s : State) (size map : Nat) : State × Option Nat :=
  let n := roundUp ((size + 10) % W)
  match alloc n s.blocks with
  | some r => ({ blocks := r.1, live := (r.2, size) :: s.live }, some (r.2.addr + 8))
  | none =>
    let ks := Block.new map (batchBytes n) :: s.blocks
    match alloc n ks with
    | some r => ({ blocks := r.1, live := (r.2, size) :: s.live }, some (r.2.addr + 8))
    | none => ({ s with blocks := ks }, none)

/-- The loop of `h2_libc_malloc::free`, `/repo/source/utils/h2_libc.cpp:110-111`. -/
def freeBlocks (b : Chunk) : List Block → List Block
  | [] => []
  | k :: ks =>
    match k.free b with
    | some k => k :: ks
    | none => k :: freeBlocks b ks

/-- `h2_libc::free`, `/repo/source/utils/h2_libc.cpp:122-126` and 106-113; `none`: the pointer was not
handed out (undefined behaviour). -/
def State.free (s : State) (ptr : Nat) : Option State :=
  if ptr = 0 then some s
  else
    match s.live.find? (fun c => c.1.addr + 8 == ptr) with
    | none => none
    | some c => some { blocks := freeBlocks c.1 s.blocks, live := s.live.eraseP (fun c => c.1.addr + 8 == ptr) }

end H2.Libc
