import Verif.Memory.Model
/-
What a user sees of the checked heap: a history of events, and for every open block the areas handed
out in it.  Nothing here mentions pieces, pages' permissions, counters or fill values of the padding.
-/
namespace H2.Memory

/-- Where an area was placed: user pointer, its writable pages `[lo, hi)` (the guard page begins at
`hi`), and the memory contents right after the allocation. -/
structure Area where
  ptr : Nat
  lo : Nat
  hi : Nat
  mem : Mem

/-- An observable event.  `alloc` and `free` carry what the call returned or reported. -/
inductive Event where
  | push (a : Attrs)
  | pop
  | alloc (who : Alloc) (size : Nat) (site : Site) (result : Option Area)
  | free (r : Rel) (ptr : Nat) (result : Option Fail)
  | read (addr : Nat)
  | write (addr : Nat)

/-- An area handed out: released or not, released without complaint, and the first forbidden access
(address, and whether the area was released at that time). -/
structure Entry where
  area : Area
  who : Alloc
  size : Nat
  site : Site
  freed : Bool := false
  clean : Bool := false
  bad : Option (Nat × Bool) := none

/-- A byte that belongs to the mapping of the area but not to the user. -/
def Entry.padding (e : Entry) (a : Nat) : Prop :=
  (e.area.lo ≤ a ∧ a < e.area.ptr) ∨ (e.area.ptr + e.size ≤ a ∧ a < e.area.hi)

/-- Any address of the mapping, the guard page (of `page` bytes) included. -/
def Entry.covers (page : Nat) (e : Entry) (a : Nat) : Bool := e.area.lo ≤ a && a < e.area.hi + page

/-- The areas of a block, oldest first, with its attributes. -/
abbrev Hist := List (Attrs × List Entry)

/-- Apply a function to all entries. -/
def Hist.map (f : Entry → Entry) (s : Hist) : Hist := List.map (fun b => (b.1, b.2.map f)) s

/-- Release: the areas at `ptr`. -/
def Entry.release (ptr : Nat) (ok : Bool) (e : Entry) : Entry :=
  if e.area.ptr = ptr then { e with freed := true, clean := e.clean || ok } else e

/-- An access: forbidden are any access to an area released cleanly, and a write to the guard page. -/
def Entry.touch (page addr : Nat) (isWrite : Bool) (e : Entry) : Entry :=
  if e.covers page addr && (e.clean || (isWrite && decide (e.area.hi ≤ addr))) && e.bad.isNone then
    { e with bad := some (addr, e.freed) }
  else e

/-- Add an entry to the block: the innermost, or the outermost for exempt call sites. -/
def addEntry (e : Entry) : Hist → Hist
  | [] => []
  | b :: bs => if e.site.exempt then updLast (fun b : Attrs × List Entry => (b.1, b.2 ++ [e])) (b :: bs)
               else (b.1, b.2 ++ [e]) :: bs

/-- The blocks after one more event. -/
def Hist.step (page : Nat) (s : Hist) : Event → Hist
  | .push a => (a, []) :: s
  | .pop => s.tail
  | .alloc _ _ _ none => s
  | .alloc who size site (some a) => addEntry { area := a, who := who, size := size, site := site } s
  | .free _ ptr result => s.map (Entry.release ptr result.isNone)
  | .read a => s.map (Entry.touch page a false)
  | .write a => s.map (Entry.touch page a true)

/-- The blocks after a history (latest event first), starting with the root block only. -/
def history (page : Nat) : List Event → Hist
  | [] => [({}, [])]
  | e :: es => (history page es).step page e

/-- The areas of a block not released yet. -/
def live (l : List Entry) : List Entry := l.filter (fun e => !e.freed)

/-- The mapping of piece `p` shares no byte with that of `q`. -/
def Apart (p q : Piece) : Prop :=
  p.pagePtr + p.page * (p.count + 1) ≤ q.pagePtr ∨ q.pagePtr + q.page * (q.count + 1) ≤ p.pagePtr

/-- What is assumed of an allocation: a size below 2^63, an alignment below 2^31, and that the kernel
maps fresh, page-aligned pages. -/
def Fresh (h : Heap) (page pagePtr size alignment : Nat) (site : Site) : Prop :=
  size < 2 ^ 63 ∧ pagePtr % page = 0 ∧
  ∀ b, h.target site = some b →
    let al := if alignment = 0 then b.attrs.alignment else alignment
    al < 2 ^ 31 ∧ ∀ c ∈ h.blocks, ∀ q ∈ c.pieces, ∀ who s f, Apart (mkPiece page pagePtr size al who s f) q

/-- The area of a piece, with the memory right after its allocation. -/
def Piece.area (p : Piece) (m : Mem) : Area := ⟨p.userPtr, p.pagePtr, p.pageEnd, m⟩

/-- Executions: the heap `h` reached by a history of calls and memory accesses. -/
inductive Reach (page : Nat) : List Event → Heap → Prop
  | start (m : Mem) (f : UInt8) : Reach page [] ⟨[{}], m, f⟩
  | push {es h} (a : Attrs) (hr : Reach page es h) : Reach page (.push a :: es) (h.push a)
  | pop {es h} (hr : Reach page es h) : Reach page (.pop :: es) h.pop.1
  | alloc {es h} (pagePtr : Nat) (who : Alloc) (size alignment : Nat) (fill : Option UInt8) (site : Site)
      (hr : Reach page es h) (hf : Fresh h page pagePtr size alignment site) :
      Reach page
        (.alloc who size site ((h.newPiece page pagePtr who size alignment fill site).2.map
          (fun p => p.area (h.newPiece page pagePtr who size alignment fill site).1.mem)) :: es)
        (h.newPiece page pagePtr who size alignment fill site).1
  | free {es h} (r : Rel) (ptr : Nat) (hr : Reach page es h) :
      Reach page (.free r ptr (h.relPiece r ptr).2 :: es) (h.relPiece r ptr).1
  | read {es h} (addr site : Nat) (hr : Reach page es h) : Reach page (.read addr :: es) (h.load addr site).1
  | write {es h} (addr site : Nat) (v : UInt8) (hr : Reach page es h) :
      Reach page (.write addr :: es) (h.store addr site v)

end H2.Memory

namespace H2.Memory

/-- Which release functions belong to an allocation function (the C ones take `free`, any `new` any
`delete`). -/
def matching : Alloc → Rel → Bool
  | .malloc, .free => true
  | .calloc, .free => true
  | .realloc, .free => true
  | .posixMemalign, .free => true
  | .alignedAlloc, .free => true
  | .new, .delete | .new, .deleteNothrow | .new, .deleteArr | .new, .deleteArrNothrow => true
  | .newNothrow, .delete | .newNothrow, .deleteNothrow | .newNothrow, .deleteArr | .newNothrow, .deleteArrNothrow => true
  | .newArr, .delete | .newArr, .deleteNothrow | .newArr, .deleteArr | .newArr, .deleteArrNothrow => true
  | .newArrNothrow, .delete | .newArrNothrow, .deleteNothrow | .newArrNothrow, .deleteArr
  | .newArrNothrow, .deleteArrNothrow => true
  | _, _ => false

/-- The bytes handed out and not released. -/
def liveBytes (l : List Entry) : Nat := ((live l).map (fun e => e.size)).sum

/-- No double free was reported. -/
def NoDouble (es : List Event) : Prop := ∀ r ptr q, Event.free r ptr (some (.doubleFree q)) ∉ es

/-- The limits of all blocks are at most 2^63. -/
def Limits (es : List Event) : Prop := ∀ a, Event.push a ∈ es → a.limit ≤ 2 ^ 63

/-- How many areas of `n` bytes a list of (size, count) accounts for. -/
def amount (n : Nat) (sizes : List (Nat × Nat)) : Nat := ((sizes.filter (fun p => p.1 == n)).map (fun p => p.2)).sum

/-- The leak failure of one call site: the first area leaked there, the bytes leaked there, and how
many areas of each size. -/
def IsLeakOf (xs : List Entry) : Fail → Prop
  | .leak ptr total sizes site =>
    ∃ e ys, xs.filter (fun e => e.site == site) = e :: ys ∧ e.area.ptr = ptr ∧
      total = ((e :: ys).map (fun e => e.size)).sum ∧
      ∀ n, amount n sizes = ((e :: ys).filter (fun e => e.size == n)).length
  | _ => False

/-- A leak failure of that call site. -/
def isLeakAt (s : Site) : Fail → Bool
  | .leak _ _ _ site => site == s
  | _ => false

end H2.Memory
