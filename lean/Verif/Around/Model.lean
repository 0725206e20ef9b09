/-
Model of the functions that the library replaces for itself: time, output, names of hosts, exceptions and memory
from the beginning of the run, sockets inside of `SOCK`, and how this meets the stubs of the tests.

Functions have addresses of their own (another name for a replaced function is C30_alias_false), so what is known
about one does not touch another: the lists of stubs are kept here function by function.  Stubs made in the setup
of a suite or before the run are left out (C77), as are the hooks of the C library for `malloc` and what functions
call inside.
-/
namespace H2.Around

/-- The functions of a program. -/
inductive Fn where
  | gmtime | ctime | asctime | localtime | mktime | gmtime_r | ctime_r | asctime_r | localtime_r
  | printf | vprintf | putchar | puts | fprintf | fputc | putc | fputs | fwrite | write | syslog | vsyslog
  | getaddrinfo | freeaddrinfo | gethostbyname
  | cxaThrow
  | free | malloc | realloc | calloc | posixMemalign | alignedAlloc
  | new | newNothrow | newArray | newArrayNothrow | delete | deleteNothrow | deleteArray | deleteArrayNothrow
  | sendto | recvfrom | sendmsg | recvmsg | send | recv | accept | connect
  /-- any other function -/
  | plain (n : Nat)
  deriving DecidableEq

/-- What a call of a function runs. -/
inductive Code where
  /-- the function itself -/
  | own
  /-- the function of the library in its place -/
  | lib
  /-- the fake `k` of `STUB` -/
  | fake (k : Nat)
  deriving DecidableEq

/-- The lists of stubs. -/
inductive Owner where
  /-- the `static h2_list stubs` of `h2_exempt::setup`, `h2_exception::initialize`, `h2_stdio::initialize`, and the
  list of `h2_resolver`; no function is in two of them -/
  | always
  /-- `h2_override_stdlib` -/
  | memory
  /-- `h2_socket` -/
  | sock
  /-- the case that runs -/
  | case_
  deriving DecidableEq

/-- What is known about a function: its first bytes, its `h2_source` (`origin_opcode`, `reference_count`), and the
stubs for it (`saved_opcode`). -/
structure Cell where
  code : Code
  source : Option (Code × Nat)
  stubs : List (Owner × Code)
  deriving DecidableEq

def Cell.fresh : Cell := { code := .own, source := none, stubs := [] }

/-- `h2_stubs_get`, `/repo/source/stub/h2_stubs.cpp:25-31`. -/
def Cell.find (o : Owner) (c : Cell) : Option (Owner × Code) := c.stubs.find? (fun e => e.1 = o)

/-- `h2_sources::add`, `/repo/source/stub/h2_source.cpp:49-59`. -/
def Cell.addSource (c : Cell) : Option (Code × Nat) :=
  match c.source with
  | some (origin, n) => some (origin, n + 1)
  | none => some (c.code, 1)

/-- `h2_stubs::add`, `/repo/source/stub/h2_stubs.cpp:33-42`, with the constructor of `h2_stub`, 7-11. -/
def Cell.add (o : Owner) (code : Code) (c : Cell) : Cell :=
  match c.find o with
  | some _ => { c with code := code }
  | none => { code := code, source := c.addSource, stubs := (o, c.code) :: c.stubs }

/-- `h2_sources::del`, `/repo/source/stub/h2_source.cpp:61-67`, with the destructor of `h2_source`, 14. -/
def Cell.delSource (c : Cell) : Cell :=
  match c.source with
  | some (origin, n) => if n - 1 = 0 then { c with code := origin, source := none } else { c with source := some (origin, n - 1) }
  | none => c

/-- `h2_stubs::clear` of one function, `/repo/source/stub/h2_stubs.cpp:44-51`, with the destructor of `h2_stub`,
12-18; and what `h2_stubs::clear` of a list, 53-59, does to one function. -/
def Cell.del (o : Owner) (c : Cell) : Cell :=
  match c.find o with
  | some e => Cell.delSource { c with code := e.2, stubs := c.stubs.filter (fun x => x.1 ≠ o) }
  | none => c

/-- All functions, and `s_overrides` of `h2_memory::hook`, `/repo/source/memory/h2_memory.cpp:30`. -/
structure St where
  cell : Fn → Cell
  on : Bool

/-- `h2_stubs::add` for some functions. -/
def St.add (o : Owner) (fs : List Fn) (s : St) : St :=
  { s with cell := fun f => if f ∈ fs then (s.cell f).add o .lib else s.cell f }

/-- `h2_stubs::clear` of a list. -/
def St.clear (o : Owner) (s : St) : St := { s with cell := fun f => (s.cell f).del o }

/-- Change one function. -/
def St.at (f : Fn) (g : Cell → Cell) (s : St) : St := { s with cell := fun x => if x = f then g (s.cell x) else s.cell x }

/-- `h2_exempt::setup`, `/repo/source/memory/h2_exempt.cpp:23-48`, on Linux. -/
def clockFns : List Fn := [.gmtime, .ctime, .asctime, .localtime, .mktime, .gmtime_r, .ctime_r, .asctime_r, .localtime_r]

/-- `h2_exception::initialize`, `/repo/source/except/h2_exception.cpp:25-34`. -/
def throwFns : List Fn := [.cxaThrow]

/-- `h2_stdio::initialize`, `/repo/source/stdio/h2_stdio.cpp:106-131`. -/
def outputFns : List Fn := [.printf, .vprintf, .putchar, .puts, .fprintf, .fputc, .putc, .fputs, .fwrite, .write, .syslog, .vsyslog]

/-- `h2_resolver::h2_resolver`, `/repo/source/net/h2_dns.cpp:90-95`. -/
def hostFns : List Fn := [.getaddrinfo, .freeaddrinfo, .gethostbyname]

/-- `h2_override_stdlib::set`, `/repo/source/memory/h2_override.cpp:90-112`. -/
def memoryFns : List Fn := [.free, .malloc, .realloc, .calloc, .posixMemalign, .alignedAlloc, .new, .newNothrow, .newArray,
  .newArrayNothrow, .delete, .deleteNothrow, .deleteArray, .deleteArrayNothrow]

/-- `h2_socket::start`, `/repo/source/net/h2_socket.cpp:213-228`. -/
def sockFns : List Fn := [.sendto, .recvfrom, .sendmsg, .recvmsg, .send, .recv, .accept, .connect]

/-- `h2_memory::hook`, `/repo/source/memory/h2_memory.cpp:28-39`; `check` is `O.memory_check`. -/
def St.hook (check overrides : Bool) (s : St) : St :=
  if check then
    { (if overrides then (if s.on then s else s.add .memory memoryFns) else (if s.on then s.clear .memory else s)) with on := overrides }
  else s

/-- The lookups of call stacks, symbols and regular expressions, `/repo/source/symbol/h2_backtrace.cpp:59-61` and
others: what they do to the functions. -/
def St.lookup (check : Bool) (s : St) : St := (s.hook check false).hook check true

/-- Functions whose replacements look up the call stack: `h2_stack::new_piece`, `/repo/source/memory/h2_stack.cpp:24-31`, and
`__cxa_throw`, `/repo/source/except/h2_exception.cpp:15`. -/
def looks : Fn → Bool
  | .malloc | .realloc | .calloc | .posixMemalign | .alignedAlloc | .new | .newNothrow | .newArray | .newArrayNothrow | .cxaThrow => true
  | _ => false

/-- What a test does. -/
inductive Prog where
  | skip
  | seq (p q : Prog)
  | call (f : Fn)
  /-- `STUB(f, fake)` -/
  | stub (f : Fn) (k : Nat)
  /-- `UNSTUB(f)` -/
  | unstub (f : Fn)
  /-- something that looks up symbols, a call stack or a regular expression -/
  | lookup
  /-- `SOCK() { … }` -/
  | sock (p : Prog)
  /-- `BLOCK(unmem) { … }`, `UNMEM() { … }` -/
  | unmem (p : Prog)
  /-- an assertion that fails -/
  | fail

/-- How a part of a test ends. -/
inductive Exit where
  | done
  /-- `longjmp` out of the case -/
  | jump
  deriving DecidableEq

/-- The functions called, and what ran. -/
abbrev Trace := List (Fn × Code)

/-- A call: the replacements of the memory functions and of `throw` look up the call stack. -/
def St.call (check : Bool) (f : Fn) (s : St) : St := if looks f && decide ((s.cell f).code = .lib) then s.lookup check else s

/-- A part of a test.  `h2_sock`, `/repo/source/net/h2_socket.cpp:270-278`; `block`,
`/repo/source/memory/h2_memory.cpp:63-73`; `STUB` and `UNSTUB`, `/repo/source/core/h2_runner.cpp:180-194`.  `longjmp` does not
run the destructors. -/
def run (check : Bool) : Prog → St → Trace × St × Exit
  | .skip, s => ([], s, .done)
  | .seq p q, s =>
    match run check p s with
    | (t, s1, .jump) => (t, s1, .jump)
    | (t, s1, .done) => let r := run check q s1; (t ++ r.1, r.2)
  | .call f, s => ([(f, (s.cell f).code)], s.call check f, .done)
  | .stub f k, s => ([], s.at f (Cell.add .case_ (.fake k)), .done)
  | .unstub f, s => ([], s.at f (Cell.del .case_), .done)
  | .lookup, s => ([], s.lookup check, .done)
  | .sock p, s =>
    match run check p (s.add .sock sockFns) with
    | (t, s1, .jump) => (t, s1, .jump)
    | (t, s1, .done) => (t, s1.clear .sock, .done)
  | .unmem p, s =>
    match run check p (s.hook check false) with
    | (t, s1, .jump) => (t, s1, .jump)
    | (t, s1, .done) => (t, s1.hook check true, .done)
  | .fail, s => ([], s, .jump)

/-- The end of a case: `h2_stubs::clear` in `post_cleanup`, `/repo/source/core/h2_case.cpp:19-27`, then
`h2_case::clear`, 1-7. -/
def endCase (check : Bool) (s : St) : St := ((s.clear .case_).clear .sock).hook check true

/-- Cases one after the other; what each of them called. -/
def runCases (check : Bool) : List Prog → St → List Trace × St
  | [], s => ([], s)
  | p :: ps, s =>
    let r := run check p s
    let q := runCases check ps (endCase check r.2.1)
    (r.1 :: q.1, q.2)

/-- The beginning of `h2_runner::main`, `/repo/source/core/h2_runner.cpp:123-128`, and `h2_memory::initialize`,
`/repo/source/memory/h2_memory.cpp:18-23`. -/
def start (check : Bool) : St :=
  let s0 : St := { cell := fun _ => .fresh, on := false }
  let s1 := if check then s0.add .always clockFns else s0
  let s2 := s1.hook check true
  ((s2.add .always throwFns).add .always outputFns).add .always hostFns

/-- A whole run. -/
def main (check : Bool) (cases : List Prog) : List Trace × St := runCases check cases (start check)

/-! ### The replacements of the time functions -/

/-- `struct tm` without the zone. -/
structure Tm where
  sec : Int
  min : Int
  hour : Int
  mday : Int
  mon : Int
  year : Int
  wday : Int
  yday : Int
  isdst : Int
  deriving DecidableEq

/-- `h2_exempt_stub::gmtime_r`, `/repo/source/memory/h2_exempt.cpp:11-20`; so `gmtime`, `localtime` and `localtime_r`, 7-9. -/
def libGmtime (_clock : Int) : Tm :=
  { sec := 0, min := 0, hour := 0, mday := 1, mon := 0, year := 2012 - 1900, wday := 0, yday := 0, isdst := 0 }

/-- `h2_exempt_stub::mktime`, `/repo/source/memory/h2_exempt.cpp:2`. -/
def libMktime (_t : Tm) : Int := 1325347200

/-- `h2_exempt_stub::asctime`, `/repo/source/memory/h2_exempt.cpp:3`. -/
def libAsctime (_t : Tm) : String := "SUN JAN 1 00:00:00 2012\n"

/-- `h2_exempt_stub::ctime`, `/repo/source/memory/h2_exempt.cpp:5`. -/
def libCtime (_clock : Int) : String := "SUN JAN 1 00:00:00 2012\n"

end H2.Around
