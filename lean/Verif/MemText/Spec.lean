import Verif.Memory.Spec
import Verif.Layout.Spec
/-
What a user is told about memory failures, as plain text, in terms of the history of allocations (`Verif.Memory.Spec`).  `text` is that
of `Verif.Layout.Spec`: what is seen of a line.
-/
namespace H2.MemText
open H2.Memory (Entry Alloc Rel Action)

abbrev Text := List Char

/-- Every value once, in the order of the first occurrences. -/
def distinct {α : Type} [DecidableEq α] : List α → List α
  | [] => []
  | x :: xs => x :: (distinct xs).filter (fun y => y ≠ x)

/-- An address, in hexadecimal. -/
def address (p : Nat) : Text := "0x".toList ++ Nat.toDigits 16 p

/-- A number, in decimal. -/
def dec (n : Nat) : Text := Nat.toDigits 10 n

/-- A distance with its sign. -/
def ahead (k : Nat) : Text := '+' :: dec k
def behind (k : Nat) : Text := '-' :: dec k

/-- A size, and how many areas have it unless there is only one. -/
def sizeItem (ns : List Nat) (n : Nat) : Text := if ns.count n = 1 then dec n else dec n ++ 'x' :: dec (ns.count n)

/-- The sizes told of the areas with sizes `ns`: all different ones, or, below verbosity 4, three of them and the number of others. -/
def sizesTold (verbose : Int) (ns : List Nat) : List Text :=
  let all := (distinct ns).map (sizeItem ns)
  if 4 ≤ verbose ∨ all.length ≤ 3 then all else all.take 3 ++ ["...".toList ++ dec (all.length - 3)]

/-- Where something is. -/
def at_ : Option Text → Text
  | none => []
  | some p => " at ".toList ++ p

/-- The line about the leak of areas with sizes `ns`, the first of them at `ptr`. -/
def leakText (verbose : Int) (ptr : Nat) (ns : List Nat) (where_ : Text) (place : Option Text) : Text :=
  " ".toList ++ address ptr ++ " memory leak ".toList ++ dec ns.sum ++ " ".toList ++
  (if ns.length ≤ 1 then [] else "[".toList ++ List.intercalate ", ".toList (sizesTold verbose ns) ++ "] ".toList) ++
  "bytes in ".toList ++ where_ ++ " totally".toList ++ at_ place

/-- The frames of a backtrace, numbered from 0, `pad` columns to the right. -/
def traceText (pad : Nat) (frames : List Text) : List Text :=
  (List.range frames.length).map fun i => List.replicate pad ' ' ++ dec i ++ ". ".toList ++ frames.getD i []

def digits : List Char := "0123456789ABCDEF".toList

/-- A byte as two digits. -/
def byteText (b : UInt8) : Text := [digits.getD (b.toNat / 16) ' ', digits.getD (b.toNat % 16) ' ']

/-- The function an area came from, as written in a program. -/
def allocator : Alloc → String
  | .malloc => "malloc" | .calloc => "calloc" | .realloc => "realloc" | .posixMemalign => "posix_memalign" | .alignedAlloc => "aligned_alloc"
  | .new => "new" | .newNothrow => "new nothrow" | .newArr => "new[]" | .newArrNothrow => "new[] nothrow"

def releaser : Rel → String
  | .free => "free" | .delete => "delete" | .deleteNothrow => "delete nothrow" | .deleteArr => "delete[]" | .deleteArrNothrow => "delete[] nothrow"

def deed : Action → String
  | .read => "read" | .write => "write"

/-- The line about an access at `addr` behind the area `[ptr, ptr + size)` or before it. -/
def outsideText (ptr size addr : Nat) (action : Action) (bytes : List UInt8) : Text :=
  " ".toList ++ address ptr ++ " ".toList ++ (if ptr ≤ addr then ahead (addr - (ptr + size)) else behind (ptr - addr)) ++
  " (".toList ++ address addr ++ ") ".toList ++ (deed action).toList ++
  (if ptr ≤ addr then " overflow ".toList else " underflow ".toList) ++ (bytes.map fun b => byteText b ++ " ".toList).flatten

/-- The line about an access at `addr` to the released area at `ptr`. -/
def afterText (ptr addr : Nat) (action : Action) : Text :=
  " ".toList ++ address ptr ++ " ".toList ++ (if ptr ≤ addr then ahead (addr - ptr) else behind (ptr - addr)) ++ " (".toList ++ address addr ++
  ") ".toList ++ (deed action).toList ++ " after free at backtrace:".toList

/-- The areas of a call site. -/
def ofSite (s : H2.Memory.Site) (xs : List Entry) : List Entry := xs.filter fun e => e.site == s

/-- All that is printed about the leak at a call site: one line, and where the areas were allocated. -/
def leakReport (verbose : Int) (xs : List Entry) (where_ : Text) (place : Option Text) (frames : List Text) : List Text :=
  leakText verbose ((xs.map fun e => e.area.ptr).headD 0) (xs.map fun e => e.size) where_ place :: "  which allocate at backtrace:".toList ::
    traceText 3 frames

end H2.MemText
