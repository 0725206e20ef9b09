import Verif.Memory.Model
import Verif.Message.Model
import Verif.MemDiff.Model
/-
Model of the text of memory failures: `h2_fail_memory_leak`, `h2_fail_double_free`, `h2_fail_asymmetric_free`, `h2_fail_overflow` and
`h2_fail_use_after_free` of `/repo/source/report/h2_failure.cpp:294-382`, and `h2_backtrace::print` of
`/repo/source/symbol/h2_backtrace.cpp:150-158`.

The failures are those of `Verif.Memory.Model`.  Lines are lists of words, as in `Verif.Layout.Model`; texts printed one after another
without an end of line are one line here.  The names of the frames of a backtrace (`backtrace_symbols`, `addr2line`) are inputs.
-/
namespace H2.MemText
open H2.Layout (Word Line brush indent)
open H2.Message (gray decimal)
open H2.Memory (Fail Alloc Rel Action)

/-- `VerboseCompactPassed`, `/repo/source/option/h2_option.hpp:2`. -/
abbrev compactPassed : Int := 3

/-- `h2_stringify(ptr)`, `/repo/source/utils/h2_stringify.hpp:42-51`, and `%p`, of a pointer other than null. -/
def pointer (p : Nat) : Word := "0x".toList ++ Nat.toDigits 16 p

/-- `h2_stringify(n)`, `/repo/source/utils/h2_stringify.hpp:53-70`, for a `size_t`. -/
def number (n : Nat) : Word := (toString n).toList

/-- Conversion to a signed integer of so many bits. -/
def wrap (bits : Nat) (n : Int) : Int := (n + 2 ^ (bits - 1)) % 2 ^ bits - 2 ^ (bits - 1)

/-- `%+d` -/
def signed (n : Int) : Word := if 0 ≤ n then '+' :: decimal n else decimal n

/-- One round of the loop over the sizes, `/repo/source/report/h2_failure.cpp:310-319`, from `i`; `total` is `sizes.size()`.
The result is what is added to `sl` and to `c`. -/
def sizeLoop (verbose : Int) (total n : Nat) : Nat → List (Nat × Nat) → Line × Nat
  | _, [] => ([], 0)
  | i, (first, second) :: ps =>
    let comma := gray (H2.Message.commaIf (i ≠ 0) ", ".toList [])
    if verbose ≤ compactPassed ∧ n < i + 1 then (comma ++ brush ["...".toList, number (total - n)] "dark gray".toList, 0)
    else
      let rest := sizeLoop verbose total n (i + 1) ps
      (comma ++ [number first] ++ (if 1 < second then gray "x".toList ++ [number second] else []) ++ rest.1, second + rest.2)

/-- The line of `h2_fail_memory_leak::print`, `/repo/source/report/h2_failure.cpp:307-321`. -/
def leakLine (verbose : Int) (ptr size : Nat) (sizes : List (Nat × Nat)) (where_ : Word) (place : Option Word) : Line :=
  let head := [pointer ptr] ++ brush [" memory leak ".toList] "bold,red".toList ++ brush [number size] "red".toList ++ [" ".toList]
  let s := sizeLoop verbose sizes.length 3 0 sizes
  [" ".toList] ++ (head ++ (if 1 < s.2 then gray "[".toList ++ s.1 ++ gray "] ".toList else [])) ++ ["bytes in ".toList] ++ [where_] ++
    [" totally".toList] ++ H2.Message.locate { filine := place }

/-- The sub-text test of `/repo/source/utils/h2_string.hpp` (`contains`). -/
def contains (s t : Word) : Bool :=
  match s with
  | [] => t.isEmpty
  | _ :: s' => t.isPrefixOf s || contains s' t

/-- `h2_lines::sequence`, `/repo/source/utils/h2_line.cpp:186-192`, from number `i`. -/
def sequence (pad : Nat) : Nat → List Line → List Line
  | _, [] => []
  | i, l :: ls =>
    indent (["\x1b{+dark gray}".toList, number i ++ ". ".toList, "\x1b{-dark gray}".toList] ++ l) pad :: sequence pad (i + 1) ls

/-- `h2_backtrace::print`, `/repo/source/symbol/h2_backtrace.cpp:150-158`, of the names of the frames. -/
def backtrace (pad : Nat) (stacks : List Word) : List Line :=
  sequence pad 0 (stacks.map fun c =>
    if "h2::".toList.isPrefixOf c || contains c ": h2::".toList then brush [c] "dark gray".toList else [c])

/-- The names passed to `new_piece`, `/repo/source/memory/h2_override.cpp:11-60`. -/
def allocName : Alloc → Word
  | .malloc => "malloc".toList
  | .calloc => "calloc".toList
  | .realloc => "realloc".toList
  | .posixMemalign => "posix_memalign".toList
  | .alignedAlloc => "aligned_alloc".toList
  | .new => "new".toList
  | .newNothrow => "new nothrow".toList
  | .newArr => "new[]".toList
  | .newArrNothrow => "new[] nothrow".toList

/-- The names passed to `rel_piece`, `/repo/source/memory/h2_override.cpp:7-10,61-76`. -/
def relName : Rel → Word
  | .free => "free".toList
  | .delete => "delete".toList
  | .deleteNothrow => "delete nothrow".toList
  | .deleteArr => "delete[]".toList
  | .deleteArrNothrow => "delete[] nothrow".toList

/-- `violate_action`, `/repo/source/memory/h2_piece.cpp:98,104`. -/
def actionName : Action → Word
  | .read => "read".toList
  | .write => "write".toList

/-- `offset` of `h2_fail_overflow::print`, `/repo/source/report/h2_failure.cpp:361`: 64-bit arithmetic. -/
def overOffset (ptr size violate : Nat) : Int :=
  wrap 64 (if ptr < violate then (violate : Int) - ((ptr : Int) + size) else (violate : Int) - ptr)

/-- `t.printf("bold,red", "%02X ", b)` -/
def spotByte (b : UInt8) : Line :=
  ["\x1b{bold,red}".toList, [H2.MemDiff.upperDigit (b.toNat / 16), H2.MemDiff.upperDigit (b.toNat % 16), ' '], "\x1b{reset}".toList]

/-- The line of `h2_fail_overflow::print`, `/repo/source/report/h2_failure.cpp:359-364`; these failures have no place. -/
def overLine (ptr size violate : Nat) (action : Action) (spot : List UInt8) (traced : Bool) : Line :=
  let offset := overOffset ptr size violate
  [" ".toList] ++ ([pointer ptr] ++ [" ".toList] ++ brush [signed (wrap 32 offset)] "bold,red".toList ++ [" ".toList] ++ gray "(".toList ++
    [pointer violate] ++ gray ")".toList ++ [" ".toList] ++ brush [actionName action] "bold,red".toList ++ [" ".toList] ++
    [if offset ≥ 0 then "overflow".toList else "underflow".toList] ++ [" ".toList] ++ (spot.map spotByte).flatten) ++
    [if traced then " at backtrace:".toList else []]

/-- The line of `h2_fail_use_after_free::print`, `/repo/source/report/h2_failure.cpp:377-378`: `%+d` takes the low 32 bits of the
`long long` it is given. -/
def afterLine (ptr violate : Nat) (action : Action) : Line :=
  [" ".toList] ++ ([pointer ptr] ++ [" ".toList] ++ brush [signed (wrap 32 ((violate : Int) - ptr))] "bold,red".toList ++ [" ".toList] ++
    gray "(".toList ++ [pointer violate] ++ gray ")".toList ++ [" ".toList] ++ brush [actionName action] "bold,red".toList ++
    brush [" after free".toList] "bold,red".toList) ++ [" at backtrace:".toList]

/-- The backtraces of a failure: where the area was allocated, where it was released, and where it was used or released wrongly; the
last is missing (`count` is 0) for an overflow found on release. -/
structure Traces where
  allocate : List Word
  release : List Word
  access : Option (List Word)

/-- `print` of the memory failures, `/repo/source/report/h2_failure.cpp:305-381`. -/
def print (verbose : Int) (where_ : Word) (place : Option Word) (t : Traces) : Fail → List Line
  | .leak ptr total sizes _ =>
    leakLine verbose ptr total sizes where_ place :: ["  which allocate at backtrace:".toList] :: backtrace 3 t.allocate
  | .doubleFree ptr =>
    ([" ".toList ++ pointer ptr] ++ brush [" double free".toList] "bold,red".toList ++ [" at backtrace:".toList]) ::
      (backtrace 2 (t.access.getD []) ++ ["  which allocate at backtrace:".toList] :: (backtrace 3 t.allocate ++
        ["  already free at backtrace:".toList] :: backtrace 3 t.release))
  | .asymmetric ptr a r =>
    ([" ".toList ++ pointer ptr ++ " allocate with ".toList] ++ brush [allocName a] "bold,red".toList ++ [", release by ".toList] ++
      brush [relName r] "bold,red".toList ++ [" asymmetrically at backtrace:".toList]) ::
      (backtrace 2 t.release ++ ["  which allocate at backtrace:".toList] :: backtrace 3 t.allocate)
  | .overflow ptr size addr action spot =>
    overLine ptr size addr action spot t.access.isSome ::
      (backtrace 3 (t.access.getD []) ++ ["  which allocate at backtrace:".toList] :: backtrace 3 t.allocate)
  | .useAfterFree ptr addr action =>
    afterLine ptr addr action ::
      (backtrace 2 (t.access.getD []) ++ ["  which allocate at backtrace:".toList] :: (backtrace 3 t.allocate ++
        ["  and free at backtrace:".toList] :: backtrace 3 t.release))

end H2.MemText
