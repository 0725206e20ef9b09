/-
Model of when memory is tracked and which block it is charged to: `h2_memory::hook` and the blocks of
`/repo/source/memory/h2_memory.cpp:28-73`, `h2_stack` (`/repo/source/memory/h2_stack.cpp:1-42`), the jumps of failing assertions
(`/repo/source/core/h2_case.cpp:26-35`) and the case around (`/repo/source/core/h2_suite.cpp:31-44`, `/repo/source/core/h2_case.cpp:1-24`).

Sizes, limits and contents are in the area Memory, exempted callers in Backtrace; here no caller is exempted and no limit is reached.
A block is identified by its height in the stack of blocks.
-/
namespace H2.Scope

/-- User code, as far as the memory check can tell. -/
inductive Prog where
  | skip
  | seq (p q : Prog)
  /-- `malloc`, `new` …; `x` is a label for the result -/
  | alloc (x : Nat)
  /-- `free`, `delete` … of the latest area with this label -/
  | free (x : Nat)
  /-- anything in which h2unit looks at a call stack or at symbols or matches a regular expression: `Re`, a stub by name, `CHECK(…, "…")` … -/
  | lookup
  /-- an assertion that does not hold -/
  | fail (m : Nat)
  /-- `BLOCK(...)`, or `UNMEM()` (`unmem` and nothing else) -/
  | block (unmem noleak : Bool) (p : Prog)

/-- Where an area of memory comes from. -/
inductive Owner where
  /-- charged to the block of this height -/
  | block (height : Nat)
  /-- from the C library, without the memory check -/
  | libc
  /-- from a block that has ended -/
  | gone
deriving DecidableEq

structure Area where
  label : Nat
  owner : Owner
deriving DecidableEq

/-- What is reported. -/
inductive Msg where
  | assert (m : Nat)
  | leak (labels : List Nat)
deriving DecidableEq

/-- `O.memory_check` (`-m`), `O.continue_assert` (`-c`). -/
structure Opts where
  memoryCheck : Bool := true
  continueAssert : Bool := false

/-- `s_overrides`, the stack of blocks (whether each is `noleak`; the top first), the areas that are not freed (the latest first), what has
been reported. -/
structure St where
  on : Bool
  stack : List Bool
  areas : List Area := []
  msgs : List Msg := []
deriving DecidableEq

inductive Exit where
  | done
  /-- `longjmp(fail_hole)` -/
  | jump
  /-- an area of h2unit is given to `free` of the C library -/
  | undefined
deriving DecidableEq

/-- `h2_memory::hook`, `/repo/source/memory/h2_memory.cpp:28-39`. -/
def hook (o : Opts) (overrides : Bool) (s : St) : St := if o.memoryCheck then { s with on := overrides } else s

/-- A look at the call stack: `/repo/source/symbol/h2_backtrace.cpp:59-61,86-97,129-146`, `/repo/source/symbol/h2_nm.cpp:4,16`,
`/repo/source/utils/h2_pattern.cpp:5,11`. -/
def lookup (o : Opts) (s : St) : St := hook o true (hook o false s)

/-- `malloc` and others: of the C library, or `h2_stack::new_piece`, `/repo/source/memory/h2_stack.cpp:25-30`, which looks at the call stack
twice (`dump`, `in`) and takes the top block. -/
def alloc (o : Opts) (x : Nat) (s : St) : St :=
  if s.on then
    let s := lookup o (lookup o s)
    { s with areas := ⟨x, .block s.stack.length⟩ :: s.areas }
  else { s with areas := ⟨x, .libc⟩ :: s.areas }

/-- Removes the latest area with a label; its owner. -/
def take (x : Nat) : List Area → Option (Owner × List Area)
  | [] => none
  | a :: as => if a.label = x then some (a.owner, as) else (take x as).map fun r => (r.1, a :: r.2)

/-- `free` and others: of the C library, or `h2_stack::rel_piece`, `/repo/source/memory/h2_stack.cpp:32-42`, for which an area that is in no
block is unknown: it is not freed (and the call stack is looked at).  Freeing what is not there is not considered here (see C19): nothing
happens. -/
def free (o : Opts) (x : Nat) (s : St) : St × Exit :=
  match take x s.areas with
  | none => (s, .done)
  | some (.block _, as) => if s.on then ({ s with areas := as }, .done) else (s, .undefined)
  | some (.libc, as) => if s.on then (lookup o { s with areas := as }, .done) else ({ s with areas := as }, .done)
  | some (.gone, as) => if s.on then (lookup o { s with areas := as }, .done) else (s, .undefined)

/-- `h2_runner::failing`, `/repo/source/core/h2_runner.cpp:203-208`, `/repo/source/core/h2_case.cpp:26-35`. -/
def failing (o : Opts) (m : Msg) (s : St) : St × Exit :=
  ({ s with msgs := s.msgs ++ [m] }, if o.continueAssert then .done else .jump)

/-- What a block of this height still holds. -/
def held (height : Nat) (as : List Area) : List Nat := (as.filter (fun a => a.owner = .block height)).map (·.label)

/-- An area of a block that ends. -/
def disown (height : Nat) (a : Area) : Area := if a.owner = .block height then { a with owner := .gone } else a

/-- `h2_stack::pop`, `/repo/source/memory/h2_stack.cpp:12-18`, with `h2_block::check`, `/repo/source/memory/h2_block.cpp:42-70`: the leaks. -/
def pop (s : St) : St × List Nat :=
  match s.stack with
  | [] => (s, [])
  | noleak :: rest =>
    ({ s with stack := rest, areas := s.areas.map (disown s.stack.length) }, if noleak then [] else held s.stack.length s.areas)

/-- The end of a block, `/repo/source/memory/h2_memory.cpp:69-73`: the jump of `failing` leaves the destructor before its last line. -/
def endBlock (o : Opts) (unmem : Bool) (s : St) : St × Exit :=
  match pop s with
  | (s, []) => (if unmem then hook o true s else s, .done)
  | (s, x :: xs) =>
    match failing o (.leak (x :: xs)) s with
    | (s, .done) => (if unmem then hook o true s else s, .done)
    | e => e

/-- User code.  A jump or undefined behaviour leaves everything; destructors are not run by `longjmp`. -/
def run (o : Opts) : Prog → St → St × Exit
  | .skip, s => (s, .done)
  | .seq p q, s =>
    match run o p s with
    | (s, .done) => run o q s
    | e => e
  | .alloc x, s => (alloc o x s, .done)
  | .free x, s => free o x s
  | .lookup, s => (lookup o s, .done)
  | .fail m, s => failing o (.assert m) s
  | .block unmem noleak p, s =>
    let s := if unmem then hook o false s else s
    match run o p { s with stack := noleak :: s.stack } with
    | (s, .done) => endBlock o unmem s
    | e => e

/-- The cleanup of a case, `/repo/source/core/h2_case.cpp:16-24`: what `pop` finds is reported, if nothing is yet or with `-c`; then `clear`,
`/repo/source/core/h2_case.cpp:1-7`, which comes after the report. -/
def endCase (o : Opts) (s : St) : St :=
  match pop s with
  | (s, []) => hook o true s
  | (s, x :: xs) => hook o true (if !s.msgs.isEmpty && !o.continueAssert then s else { s with msgs := s.msgs ++ [.leak (x :: xs)] })

/-- A case: `Setup`, the case, `Cleanup`; a jump out of the case leads to `Cleanup`.  Jumps out of `Setup` and `Cleanup` are in CaseRun
(C37) and left out (`none`) here, as is undefined behaviour. -/
def runCase (o : Opts) (setup body cleanup : Prog) (s : St) : Option St :=
  match run o setup { s with stack := false :: s.stack, msgs := [] } with
  | (s, .done) =>
    match run o body s with
    | (_, .undefined) => none
    | (s, _) =>
      match run o cleanup s with
      | (s, .done) => some (endCase o s)
      | _ => none
  | _ => none

/-- `h2_memory::initialize`, `/repo/source/memory/h2_memory.cpp:18-23`: the hook and the root block. -/
def start (o : Opts) : St := hook o true { on := false, stack := [false] }

end H2.Scope
