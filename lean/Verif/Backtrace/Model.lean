import Verif.Lookup.Model
import Verif.Memory.Model
/-
Model of call stacks, `/repo/source/symbol/h2_backtrace.cpp` (Linux), and of the functions whose allocations are not charged,
`/repo/source/memory/h2_exempt.cpp`.

What the system gives is an input: the frames (`backtrace`), their descriptions (`backtrace_symbols`), the output of `addr2line` and of
`__cxa_demangle`.
-/
namespace H2.Backtrace
open H2.Stub (Addr Mem followJmp)

abbrev Text := List Char

/-- `%*[…]` of `sscanf`, without its result: at least one character of the set. -/
def skipSet (p : Char → Bool) (s : Text) : Option Text := if s.takeWhile p = [] then none else some (s.dropWhile p)

/-- `%w[…]` of `sscanf`: at least one and at most `w` characters of the set; what is read and what is left. -/
def takeSet (p : Char → Bool) (w : Nat) (s : Text) : Option (Text × Text) :=
  if (s.takeWhile p).take w = [] then none else some ((s.takeWhile p).take w, s.drop ((s.takeWhile p).take w).length)

/-- Characters of a format of `sscanf` that stand for themselves. -/
def literal (l s : Text) : Option Text := if s.take l.length = l then some (s.drop l.length) else none

/-- White space of the C locale. -/
def isspace (c : Char) : Bool := c = ' ' || c = '\t' || c = '\n' || c = '\x0b' || c = '\x0c' || c = '\r'

def isxdigit (c : Char) : Bool := c.isDigit || ('a' ≤ c && c ≤ 'f') || ('A' ≤ c && c ≤ 'F')

def hexValue (c : Char) : Nat :=
  if c.isDigit then c.toNat - '0'.toNat else if 'a' ≤ c && c ≤ 'f' then c.toNat - 'a'.toNat + 10 else c.toNat - 'A'.toNat + 10

/-- `%llx` of `sscanf`, as the last of a format: white space, a sign, `0x`, digits; too large a number is the largest. -/
def scanHex (s : Text) : Option Addr :=
  let s := s.dropWhile isspace
  let neg := s.head? = some '-'
  let s := if s.head? = some '-' ∨ s.head? = some '+' then s.drop 1 else s
  let s := if (s.take 2 = ['0', 'x'] ∨ s.take 2 = ['0', 'X']) ∧ ((s.drop 2).head?.any isxdigit) then s.drop 2 else s
  let ds := s.takeWhile isxdigit
  if ds = [] then none
  else
    let v : Addr := BitVec.ofNat 64 (min (ds.foldl (fun v c => 16 * v + hexValue c) 0) (2 ^ 64 - 1))
    some (if neg then -v else v)

/-- The set `[_a-zA-Z]`. -/
def nameStart (c : Char) : Bool := c = '_' || c.isAlpha

/-- `sscanf(line, "%*[^(]%*[^_a-zA-Z]%1023[^)+]+0x%llx", mangle_name, displacement) == 2`, `/repo/source/symbol/h2_backtrace.cpp:35`. -/
def named (line : Text) : Option (Text × Addr) :=
  (skipSet (· ≠ '(') line).bind fun s =>
  (skipSet (fun c => !nameStart c) s).bind fun s =>
  (takeSet (fun c => c ≠ ')' && c ≠ '+') 1023 s).bind fun r =>
  (literal "+0x".toList r.2).bind fun s =>
  (scanHex s).map fun d => (r.1, d)

/-- `sscanf(line, "%*[^(]%*[^+]+0x%llx", displacement) == 1`, `/repo/source/symbol/h2_backtrace.cpp:38`. -/
def unnamed (line : Text) : Option Addr :=
  (skipSet (· ≠ '(') line).bind fun s =>
  (skipSet (· ≠ '+') s).bind fun s =>
  (literal "+0x".toList s).bind fun s => scanHex s

/-- `backtrace_extract`, `/repo/source/symbol/h2_backtrace.cpp:27-42`: the name (empty without one) and the displacement, or none (`false`). -/
def extract (line : Text) : Option (Text × Addr) :=
  match named line with
  | some r => some r
  | none => (unnamed line).map fun d => ([], d)

/-- What is left in `mangle_name` by `backtrace_extract`, also if it fails. -/
def mangled (line : Text) : Text := ((extract line).map (·.1)).getD []

/-- `h2_backtrace`, `/repo/source/symbol/h2_backtrace.hpp:1-3`; the count is the number of frames. -/
structure Trace where
  shift : Nat
  frames : List Addr

/-- The loop of `operator==`, `/repo/source/symbol/h2_backtrace.cpp:48-50`. -/
def sameFrames : List Addr → List Addr → Bool
  | a :: as, b :: bs => if a ≠ b then false else sameFrames as bs
  | _, _ => true

/-- `operator==`, `/repo/source/symbol/h2_backtrace.cpp:45-52`. -/
def Trace.eq (a b : Trace) : Bool := if a.frames.length ≠ b.frames.length then false else sameFrames a.frames b.frames

/-- `dump`, `/repo/source/symbol/h2_backtrace.cpp:54-66`: `backtrace` gives the innermost 100 frames of the stack. -/
def dump (shift : Nat) (stack : List Addr) : Trace := ⟨shift, stack.take 100⟩

/-- The inner loop of `in`, `/repo/source/symbol/h2_backtrace.cpp:92-94`; `fps` is an array ended by null. -/
def listed (a : Addr) : List Addr → Bool
  | [] => false
  | f :: fs => if f = 0 then false else if a = f then true else listed a fs

/-- The outer loop of `in`, `/repo/source/symbol/h2_backtrace.cpp:88-95`, over the frames with their descriptions. -/
def anyIn (fps : List Addr) : List (Addr × Text) → Bool
  | [] => false
  | (a, line) :: rest =>
    match extract line with
    | some (_, d) => if listed (a - d) fps then true else anyIn fps rest
    | none => anyIn fps rest

/-- `in`, `/repo/source/symbol/h2_backtrace.cpp:68-99`; `symbols` is what `backtrace_symbols` gives. -/
def Trace.isIn (t : Trace) (symbols : List Text) (fps : List Addr) : Bool := anyIn fps ((t.frames.zip symbols).drop t.shift)

/-- What `print` takes of a frame, `/repo/source/symbol/h2_backtrace.cpp:133-139`: `a2l` is what `addr2line` finds, `dem` is the name
demangled (or as it is). -/
def shownAs (line : Text) (a2l : Option Text) (dem : Text → Text) : Text :=
  match a2l with
  | some p => if p = [] then line else p
  | none => if dem (mangled line) = [] then line else dem (mangled line)

/-- The loop of `print`, `/repo/source/symbol/h2_backtrace.cpp:132-142`.  Simplification: the advice on compiler options is left out. -/
def printLoop (dem : Text → Text) : List (Text × Option Text) → List Text
  | [] => []
  | (line, a2l) :: rest =>
    if mangled line = "main".toList || mangled line = "__libc_start_main".toList then [shownAs line a2l dem]
    else shownAs line a2l dem :: printLoop dem rest

/-- `print`, `/repo/source/symbol/h2_backtrace.cpp:101-148`. -/
def Trace.print (t : Trace) (dem : Text → Text) (symbols : List (Text × Option Text)) : List Text :=
  printLoop dem ((symbols.take t.frames.length).drop t.shift)

/-- `h2_array_append`, `/repo/source/utils/h2_misc.hpp:25`: the first free place, never the last one. -/
def append : List Addr → Addr → List Addr
  | x :: y :: xs, a => if x = 0 then a :: y :: xs else x :: append (y :: xs) a
  | l, _ => l

/-- `follow_jmp`, `/repo/source/symbol/h2_cxa.cpp:38-56`: at most `n` jumps; one that is not a jump leads to itself. -/
def followJmps (m : Mem) : Nat → Addr → Addr
  | 0, p => p
  | n + 1, p => followJmps m n (followJmp m p)

/-- `h2_exempt`, `/repo/source/memory/h2_exempt.hpp:1-3`, with what is remembered about symbols. -/
structure Exempts where
  fps : List Addr
  st : H2.Lookup.St := {}

/-- `h2_exempt` at the start: an array of 4096 null pointers. -/
def noExempts : Exempts := { fps := List.replicate 4096 0 }

/-- `add_by_fp`, `/repo/source/memory/h2_exempt.cpp:79-82`; `m` is the code. -/
def Exempts.addByFp (e : Exempts) (m : Mem) (fp : Addr) : Exempts := { e with fps := append e.fps (followJmps m 32 fp) }

/-- The loop of `add_by_name`, `/repo/source/memory/h2_exempt.cpp:76`. -/
def addEach (P : H2.Lookup.Program) (m : Mem) : List H2.Nm.Symbol → Exempts → Exempts
  | [], e => e
  | p :: ps, e =>
    addEach P m ps (Exempts.addByFp { e with st := (H2.Lookup.addrToPtr P e.st p.addr).2 } m (H2.Lookup.addrToPtr P e.st p.addr).1)

/-- `add_by_name`, `/repo/source/memory/h2_exempt.cpp:72-77`. -/
def Exempts.addByName (e : Exempts) (P : H2.Lookup.Program) (m : Mem) (fn : Text) : Exempts :=
  addEach P m (H2.Nm.getByName P.before P.dl (some fn) 16 e.st.nm).1
    { e with st := { e.st with nm := (H2.Nm.getByName P.before P.dl (some fn) 16 e.st.nm).2 } }

/-- What can happen to the list: `UNMEM(f)` with a function or a name, `/repo/source/memory/h2_memory.hpp:21-23`, with the code at that
time; any other lookup of a function.  The functions exempted from the start, `/repo/source/memory/h2_exempt.cpp:49-69`, are added like the
first. -/
inductive Op where
  | fp (m : Mem) (a : Addr)
  | name (m : Mem) (fn : Text)
  | lookup (o : H2.Lookup.Op)

def Exempts.step (P : H2.Lookup.Program) (e : Exempts) : Op → Exempts
  | .fp m a => e.addByFp m a
  | .name m fn => e.addByName P m fn
  | .lookup o => { e with st := H2.Lookup.step P e.st o }

/-- A history, oldest first. -/
def run (P : H2.Lookup.Program) (ops : List Op) : Exempts := ops.foldl (Exempts.step P) noExempts

/-- The call site of an allocation, `/repo/source/memory/h2_stack.cpp:27-28`: `shift` is 2 there; `id` stands for the trace. -/
def site (e : Exempts) (id : Nat) (stack : List (Addr × Text)) : H2.Memory.Site :=
  ⟨id, (dump 2 (stack.map (·.1))).isIn ((stack.take 100).map (·.2)) e.fps⟩

end H2.Backtrace
