import Verif.Misc.Model
/-
Model of the checked heap: `/repo/source/memory/h2_piece.cpp`, `h2_block.cpp`, `h2_stack.cpp`,
`h2_leaky.cpp`, `h2_override.cpp` and the POSIX fault handler of `/repo/source/except/h2_crash.cpp`.

Addresses are natural numbers.  The page addresses `mmap` returns are inputs (the kernel is not
modelled); what is assumed of them is stated where it is used.  A backtrace is an opaque number
(with a flag telling whether it lies in the exempt functions), since only equality of backtraces
matters.  The options that turn failures into warnings are left out.
-/
namespace H2.Memory

/-- The allocation functions, `/repo/source/memory/h2_override.cpp:11-60`. -/
inductive Alloc where
  | malloc | calloc | realloc | posixMemalign | alignedAlloc
  | new | newNothrow | newArr | newArrNothrow
deriving DecidableEq, Repr

/-- The release functions, `/repo/source/memory/h2_override.cpp:7-10,61-76`. -/
inductive Rel where
  | free | delete | deleteNothrow | deleteArr | deleteArrNothrow
deriving DecidableEq, Repr

/-- A call site: an identity and whether it is in the exempt functions (`bt.in(exempt)`). -/
structure Site where
  id : Nat
  exempt : Bool
deriving DecidableEq, Repr

/-- Page permissions. -/
inductive Perm where
  | none | read | rw
deriving DecidableEq, Repr

/-- "read" / "write" of a violation. -/
inductive Action where
  | read | write
deriving DecidableEq, Repr

/-- Failures of the checked heap (`h2_fail::new_...` of `/repo/source/report/h2_failure.cpp`). -/
inductive Fail where
  | leak (ptr total : Nat) (sizes : List (Nat × Nat)) (site : Site)
  | doubleFree (ptr : Nat)
  | asymmetric (ptr : Nat) (a : Alloc) (r : Rel)
  | overflow (ptr size addr : Nat) (action : Action) (spot : List UInt8)
  | useAfterFree (ptr addr : Nat) (action : Action)
deriving DecidableEq, Repr

/-! ### Geometry -/

/-- `alignment_2n`, `/repo/source/memory/h2_piece.cpp:23-25` (alignments below 2^31, where the cast
to `unsigned` changes nothing). -/
def alignment2n (alignment : Nat) : Nat :=
  let a := H2.Misc.align2n alignment
  if a < 8 then 8 else a

/-- `user_size_plus`, `/repo/source/memory/h2_piece.cpp:27`; `~(a - 1)` on 64 bits is `2^64 - a`. -/
def userSizePlus (size a : Nat) : Nat := (size + a - 1 + a) % 2 ^ 64 &&& (2 ^ 64 - a)

/-- `page_count`, `/repo/source/memory/h2_piece.cpp:28` (the division in `double` is modelled
exactly). -/
def pageCount (plus page : Nat) : Nat := (plus + page - 1) / page

/-- `user_ptr`, `/repo/source/memory/h2_piece.cpp:38`. -/
def userPtr (pagePtr page count plus alignment : Nat) : Nat := pagePtr + page * count - plus + alignment

/-! ### Pieces -/

/-- `h2_piece`, `/repo/source/memory/h2_piece.cpp:1-19`. -/
structure Piece where
  userPtr : Nat
  pagePtr : Nat
  userSize : Nat
  page : Nat
  count : Nat
  who : Alloc
  site : Site
  freeTimes : Nat := 0
  flower : UInt8
  fbPage : Nat
  fbSize : Nat
  perm : Perm
  violateTimes : Nat := 0
  violatePtr : Nat := 0
  violateAction : Action := .read
  violateAfterFree : Bool := false
  violateSite : Nat := 0
deriving Repr

/-- End of the writable pages, where the guard page begins. -/
def Piece.pageEnd (p : Piece) : Nat := p.pagePtr + p.page * p.count

/-- `in_page_range`, `/repo/source/memory/h2_piece.cpp:180-183`. -/
def Piece.inRange (p : Piece) (addr : Nat) : Bool :=
  p.pagePtr ≤ addr && addr < p.pagePtr + p.page * (p.count + 1)

/-- The constructor with `mark_snowfield`'s permission, `/repo/source/memory/h2_piece.cpp:21-41,109-116`:
the guard page is made read-only. -/
def mkPiece (page pagePtr size alignment : Nat) (who : Alloc) (site : Site) (flower : UInt8) : Piece :=
  let a := alignment2n alignment
  let plus := userSizePlus size a
  let count := pageCount plus page
  { userPtr := userPtr pagePtr page count plus alignment, pagePtr := pagePtr, userSize := size, page := page,
    count := count, who := who, site := site, flower := flower,
    fbPage := pagePtr + page * count, fbSize := page, perm := .read }

/-- Memory contents. -/
abbrev Mem := Nat → UInt8

/-- `memset(start, byte, end - start)`. -/
def Mem.fillRange (m : Mem) (start stop : Nat) (b : UInt8) : Mem :=
  fun a => if start ≤ a ∧ a < stop then b else m a

/-- `mark_snowfield`, `/repo/source/memory/h2_piece.cpp:113-114`. -/
def Piece.markSnow (p : Piece) (m : Mem) : Mem :=
  (m.fillRange p.pagePtr p.userPtr p.flower).fillRange (p.userPtr + p.userSize) p.pageEnd p.flower

/-- The bytes reported, `/repo/source/memory/h2_piece.cpp:122-125`: up to 8 bytes from the first
changed one, trimmed to the last changed one. -/
def spotLen (m : Mem) (flower : UInt8) (addr : Nat) : Nat → Nat
  | 0 => 0
  | n + 1 => if m (addr + n) ≠ flower then n + 1 else spotLen m flower addr n

/-- The loop of `check_snowfield`, `/repo/source/memory/h2_piece.cpp:118-129`, over `n` bytes. -/
def snowLoop (p : Piece) (m : Mem) : Nat → Nat → Option Fail
  | _, 0 => none
  | addr, n + 1 =>
    if m addr = p.flower then snowLoop p m (addr + 1) n
    else
      let k := spotLen m p.flower addr (min (n + 1) 8)
      some (.overflow p.userPtr p.userSize addr .write ((List.range k).map (fun i => m (addr + i))))

/-- `check_snowfield`, `/repo/source/memory/h2_piece.cpp:131-138`: behind first, then in front. -/
def Piece.checkSnow (p : Piece) (m : Mem) : Option Fail :=
  match snowLoop p m (p.userPtr + p.userSize) (p.pageEnd - (p.userPtr + p.userSize)) with
  | some f => some f
  | none => snowLoop p m p.pagePtr (p.userPtr - p.pagePtr)

/-- The two families, `/repo/source/memory/h2_piece.cpp:148,152`. -/
def Alloc.isC : Alloc → Bool
  | .malloc | .calloc | .realloc | .posixMemalign | .alignedAlloc => true
  | _ => false

def Rel.isC : Rel → Bool
  | .free => true
  | _ => false

/-- `check_asymmetric_free`, `/repo/source/memory/h2_piece.cpp:146-158`. -/
def Piece.checkAsymmetric (p : Piece) (r : Rel) : Option Fail :=
  if p.who.isC && r.isC then none
  else if !p.who.isC && !r.isC then none
  else if p.site.exempt then none
  else some (.asymmetric p.userPtr p.who r)

/-- The result of `free`, `/repo/source/memory/h2_piece.cpp:160-178`. -/
def Piece.freeFail (p : Piece) (m : Mem) (r : Option Rel) : Option Fail :=
  if p.freeTimes ≠ 0 then some (.doubleFree p.userPtr)
  else
    match r.bind p.checkAsymmetric with
    | some f => some f
    | none => p.checkSnow m

/-- The piece after `free`, `/repo/source/memory/h2_piece.cpp:160-178`: counted, and without access
rights when nothing was wrong. -/
def Piece.freed (p : Piece) (m : Mem) (r : Option Rel) : Piece :=
  if (p.freeFail m r).isNone then
    { p with freeTimes := p.freeTimes + 1, fbPage := p.pagePtr, fbSize := p.page * (p.count + 1), perm := .none }
  else { p with freeTimes := p.freeTimes + 1 }

/-- `violate_forbidden` (POSIX), `/repo/source/memory/h2_piece.cpp:83-106`. -/
def Piece.violate (p : Piece) (addr site : Nat) : Piece :=
  if p.violateTimes = 0 then
    { p with violateTimes := 1, perm := .read, violateSite := site, violatePtr := addr, violateAction := .read,
             violateAfterFree := decide (0 < p.freeTimes) }
  else
    { p with violateTimes := p.violateTimes + 1, perm := .rw,
             violateAction := if site = p.violateSite then .write else p.violateAction }

/-- `violate_fail`, `/repo/source/memory/h2_piece.cpp:140-144`. -/
def Piece.violateFail (p : Piece) : Fail :=
  if p.violateAfterFree then .useAfterFree p.userPtr p.violatePtr p.violateAction
  else .overflow p.userPtr p.userSize p.violatePtr p.violateAction []

/-! ### Leaks -/

/-- `leak::add`, `/repo/source/memory/h2_leaky.cpp:17-21`. -/
def addSize (size : Nat) : List (Nat × Nat) → List (Nat × Nat)
  | [] => [(size, 1)]
  | (s, n) :: l => if s = size then (s, n + 1) :: l else (s, n) :: addSize size l

/-- `h2_leaky::add`, `/repo/source/memory/h2_leaky.cpp:41-45`: one entry per call site (`bt == bt`). -/
def addLeak (ptr size : Nat) (site : Site) :
    List (Nat × Site × List (Nat × Nat)) → List (Nat × Site × List (Nat × Nat))
  | [] => [(ptr, site, [(size, 1)])]
  | (q, s, l) :: ls => if s = site then (q, s, addSize size l) :: ls else (q, s, l) :: addLeak ptr size site ls

/-- `leak::check`, `/repo/source/memory/h2_leaky.cpp:23-28`. -/
def leakFail (e : Nat × Site × List (Nat × Nat)) : Fail :=
  .leak e.1 ((e.2.2.map (fun p => p.1 * p.2)).sum) e.2.2 e.2.1

/-! ### Blocks -/

/-- `h2_block_attributes`, `/repo/source/memory/h2_block.cpp:1-29`. -/
structure Attrs where
  limit : Nat := 0xffffffffffff
  alignment : Nat := 8
  fill : List UInt8 := []
  noleak : Bool := false
deriving Repr

/-- `h2_block`, `/repo/source/memory/h2_block.cpp:31-38`; `allocated` is an unsigned 64-bit count. -/
structure Block where
  pieces : List Piece := []
  attrs : Attrs := {}
  footprint : Nat := 0
  allocated : Nat := 0
deriving Repr

/-- `check`, `/repo/source/memory/h2_block.cpp:42-70` (the failures, siblings of one another). -/
def Block.check (b : Block) : List Fail :=
  let violations := (b.pieces.filter (fun p => p.violateTimes ≠ 0)).map Piece.violateFail
  if violations ≠ [] then violations
  else
    let leaks := b.pieces.foldl (fun ls p =>
      if !b.attrs.noleak && p.freeTimes == 0 then addLeak p.userPtr p.userSize p.site ls else ls) []
    leaks.map leakFail

/-- Fill a fresh area, `/repo/source/memory/h2_block.cpp:84-92`. -/
def fillArea (m : Mem) (start size : Nat) (pattern : List UInt8) : Mem :=
  if pattern = [] then m
  else fun a => if start ≤ a ∧ a < start + size then pattern.getD ((a - start) % pattern.length) 0 else m a

/-- `get_piece`, `/repo/source/memory/h2_block.cpp:104-109`. -/
def Block.getPiece (b : Block) (ptr : Nat) : Option Piece := b.pieces.find? (fun p => p.userPtr == ptr)

/-- `host_piece`, `/repo/source/memory/h2_block.cpp:111-116`. -/
def Block.hostPiece (b : Block) (addr : Nat) : Option Piece := b.pieces.find? (fun p => p.inRange addr)

/-- Change the first element satisfying `q`. -/
def updFirst {α : Type} (q : α → Bool) (f : α → α) : List α → List α
  | [] => []
  | x :: xs => if q x then f x :: xs else x :: updFirst q f xs

/-- Change the last element. -/
def updLast {α : Type} (f : α → α) : List α → List α
  | [] => []
  | [x] => [f x]
  | x :: y :: xs => x :: updLast f (y :: xs)

/-! ### The stack of blocks -/

/-- `h2_stack` with the memory and the static snow counter: the top block comes first. -/
structure Heap where
  blocks : List Block
  mem : Mem
  flower : UInt8

/-- `push`, `/repo/source/memory/h2_stack.cpp:6-10`. -/
def Heap.push (h : Heap) (a : Attrs) : Heap := { h with blocks := { attrs := a } :: h.blocks }

/-- `pop`, `/repo/source/memory/h2_stack.cpp:12-18`. -/
def Heap.pop (h : Heap) : Heap × List Fail :=
  match h.blocks with
  | [] => (h, [])
  | b :: bs => ({ h with blocks := bs }, b.check)

/-- The block an allocation goes to, `/repo/source/memory/h2_stack.cpp:28`. -/
def Heap.target (h : Heap) (site : Site) : Option Block :=
  if site.exempt then h.blocks.getLast? else h.blocks.head?

/-- Change the first element. -/
def updHead {α : Type} (f : α → α) : List α → List α
  | [] => []
  | x :: xs => f x :: xs

/-- The pattern a fresh area is filled with, `/repo/source/memory/h2_block.cpp:84-90`: the one asked
for (`calloc`), else the one of the block. -/
def fillPattern (fill : Option UInt8) (a : Attrs) : List UInt8 :=
  match fill with
  | some c => [c]
  | none => a.fill

/-- `new_piece`, `/repo/source/memory/h2_block.cpp:72-96` and `/repo/source/memory/h2_stack.cpp:25-30`,
with the page address `mmap` returned; the result is the piece, or none (null). -/
def Heap.newPiece (h : Heap) (page pagePtr : Nat) (who : Alloc) (size alignment : Nat) (fill : Option UInt8)
    (site : Site) : Heap × Option Piece :=
  match h.target site with
  | none => (h, none)
  | some b =>
    if b.attrs.limit < (b.allocated + size) % 2 ^ 64 then (h, none)
    else
      let allocated := (b.allocated + size) % 2 ^ 64
      let footprint := if b.footprint < allocated then allocated else b.footprint
      let alignment := if alignment = 0 then b.attrs.alignment else alignment
      let flower := h.flower + 1
      let p := mkPiece page pagePtr size alignment who site flower
      let mem := fillArea (p.markSnow h.mem) p.userPtr size (fillPattern fill b.attrs)
      let upd := fun b : Block => { b with allocated := allocated, footprint := footprint, pieces := b.pieces ++ [p] }
      let blocks := if site.exempt then updLast upd h.blocks else updHead upd h.blocks
      ({ h with blocks := blocks, mem := mem, flower := flower }, some p)

/-- `rel_piece`, `/repo/source/memory/h2_stack.cpp:32-42` and `/repo/source/memory/h2_block.cpp:98-102`.
An unknown pointer is only warned about. -/
def Heap.relPiece (h : Heap) (r : Rel) (ptr : Nat) : Heap × Option Fail :=
  match h.blocks.find? (fun b => (b.getPiece ptr).isSome) with
  | none => (h, none)
  | some b =>
    match b.getPiece ptr with
    | none => (h, none)
    | some p =>
      let upd := fun b : Block =>
        { b with
          allocated := (b.allocated + 2 ^ 64 - p.userSize) % 2 ^ 64
          pieces := updFirst (fun p => p.userPtr == ptr) (fun p => p.freed h.mem (some r)) b.pieces }
      ({ h with blocks := updFirst (fun b => (b.getPiece ptr).isSome) upd h.blocks }, p.freeFail h.mem (some r))

/-- `get_piece`, `/repo/source/memory/h2_stack.cpp:44-51`. -/
def Heap.getPiece (h : Heap) (ptr : Nat) : Option Piece := h.blocks.findSome? (fun b => b.getPiece ptr)

/-- `host_piece`, `/repo/source/memory/h2_stack.cpp:53-60`. -/
def Heap.hostPiece (h : Heap) (addr : Nat) : Option Piece := h.blocks.findSome? (fun b => b.hostPiece addr)

/-- The access right of an address of a piece. -/
def Piece.permAt (p : Piece) (addr : Nat) : Perm :=
  if p.fbPage ≤ addr ∧ addr < p.fbPage + p.fbSize then p.perm else .rw

/-- The fault handler, `/repo/source/except/h2_crash.cpp:23-33`. -/
def Heap.fault (h : Heap) (addr site : Nat) : Heap :=
  let upd := fun b : Block =>
    { b with pieces := updFirst (fun p => p.inRange addr) (fun p => p.violate addr site) b.pieces }
  { h with blocks := updFirst (fun b => (b.hostPiece addr).isSome) upd h.blocks }

/-- A load by the user program: it faults, is handled and retried when the page is not readable.
Addresses outside of every piece are not modelled (no value). -/
def Heap.load (h : Heap) (addr site : Nat) : Heap × Option UInt8 :=
  match h.hostPiece addr with
  | none => (h, none)
  | some p => if p.permAt addr = .none then (h.fault addr site, some (h.mem addr)) else (h, some (h.mem addr))

/-- A store by the user program: up to two faults before the page is writable. -/
def Heap.store (h : Heap) (addr site : Nat) (v : UInt8) : Heap :=
  match h.hostPiece addr with
  | none => h
  | some p =>
    let h1 := if p.permAt addr = .rw then h else h.fault addr site
    let h2 := match h1.hostPiece addr with
      | none => h1
      | some p => if p.permAt addr = Perm.rw then h1 else h1.fault addr site
    { h2 with mem := fun a => if a = addr then v else h2.mem a }

/-- `memcpy`, byte by byte, through the accesses above. -/
def Heap.copy (h : Heap) (dst src site : Nat) : Nat → Heap
  | 0 => h
  | n + 1 =>
    let h := h.copy dst src site n
    match h.load (src + n) site with
    | (h, some v) => h.store (dst + n) site v
    | (h, none) => h

/-- `realloc` on Linux, `/repo/source/memory/h2_override.cpp:21-30` (a null pointer is 0).  The
result is the new pointer (or null) and the failure raised by releasing the old area. -/
def Heap.realloc (h : Heap) (page pagePtr ptr size : Nat) (site : Site) : Heap × Option Piece × Option Fail :=
  let old := if ptr = 0 then none else h.getPiece ptr
  let (h1, new) := if size = 0 then (h, none) else h.newPiece page pagePtr .realloc size 0 none site
  let h2 := match old, new with
    | some o, some n => h1.copy n.userPtr ptr site.id (min o.userSize size)
    | _, _ => h1
  if ptr = 0 then (h2, new, none)
  else
    let (h3, f) := h2.relPiece .free ptr
    (h3, new, f)

/-- `calloc`, `/repo/source/memory/h2_override.cpp:16-20`: the product is a `size_t`. -/
def Heap.calloc (h : Heap) (page pagePtr count size : Nat) (site : Site) : Heap × Option Piece :=
  h.newPiece page pagePtr .calloc (size * count % 2 ^ 64) 0 (some 0) site

/-- `parse_fill` of a decimal value, `/repo/source/memory/h2_block.cpp:13-17` (little endian). -/
def leBytes : Nat → Nat → List UInt8
  | 0, _ => []
  | n + 1, v => UInt8.ofNat (v % 256) :: leBytes n (v / 256)

def parseFill (v : Nat) : List UInt8 :=
  if v ≤ 0xFF then leBytes 1 v
  else if v ≤ 0xFFFF then leBytes 2 v
  else if v ≤ 0xFFFFFFFF then leBytes 4 v
  else leBytes 8 v

end H2.Memory
