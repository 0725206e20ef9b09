/-
Model of the run of one case: `/repo/source/core/h2_case.cpp`, `h2_suite.cpp`, the macros `H2Setup`,
`H2Cleanup`, `H2Case` and `H2CASE` of `/repo/source/core/h2_core.hpp`, and the surrounding lines of
`h2_runner::main`.

The code under test is a sequence of steps; the `n`-th execution of a block during the run of one case
may behave differently from the first, so that a block is a function from its attempt number to a step
sequence.  A step is what happens, as far as the framework can tell.  `setjmp`/`longjmp` are modelled by
the control flow they bring about; the parameter `case_` of the test function, which is changed between
`setjmp` and `longjmp`, is taken to keep its value (it is not `volatile`, so C leaves it open).  The
order of the blocks in the suite is `Setup`, `Cleanup`, `Case`, as in the manual.
-/
namespace H2.CaseRun

/-- One step of a block of user code. -/
inductive Step where
  /-- anything the framework is not concerned with, including assertions that hold -/
  | act (n : Nat)
  /-- an assertion that does not hold (`h2_assert::failing`), or any other call of `h2_runner::failing`
  with a failure that is no warning: an unexpected mock call, a wrong free … -/
  | fail (m : Nat)
  /-- an assertion preceded by `Warning` that does not hold -/
  | warn (m : Nat)
  /-- an exception that is thrown and caught inside the block -/
  | caught (m : Nat)
  /-- an exception that leaves the block -/
  | throw (m : Nat)
deriving DecidableEq

/-- The blocks of user code that are executed for a case. -/
inductive Block where
  | globalSetup | setup | body | cleanup | globalCleanup
deriving DecidableEq

/-- What is observed, in time order. -/
inductive Event where
  | enter (b : Block)
  | step (b : Block) (s : Step)
  | dnsCleared | stubsCleared | mocksChecked | memoryChecked
deriving DecidableEq

/-- A failure message: what it is about. -/
inductive Msg where
  | assert (m : Nat)
  | exception (m : Nat)
  | mock (m : Nat)
  | memory (m : Nat)
deriving DecidableEq

/-- `-c`, `-W exception`, `-W uncaught`: `/repo/source/option/h2_option.hpp`. -/
structure Opts where
  continueAssert : Bool := false
  warnException : Bool := false
  warnUncaught : Bool := false

/-- `h2_case`, `/repo/source/core/h2_case.hpp:2-5`, and what has been observed. -/
structure State where
  failed : Bool := false
  warning : Bool := false
  fails : List Msg := []
  trace : List Event := []
deriving DecidableEq

/-- A block of user code: the steps of its `n`-th execution. -/
abbrev Code := Nat → List Step

/-- A case with its surroundings: `global_case_setups`, `Setup`, the case, `Cleanup` (if the suite has
one), `global_case_cleanups`, and what the end-of-case checks find (`h2_mocks::clear(mocks, true)` and
`h2_memory::stack::pop()`, lists of failures, none of them a warning), which may depend on everything that
has happened. -/
structure Test where
  globalSetup : List Step := []
  setup : List Step := []
  body : Code
  cleanup : Option Code := none
  globalCleanup : List Step := []
  mocks : List Event → List Nat := fun _ => []
  memory : List Event → List Nat := fun _ => []

/-- `h2_case::failing`, `/repo/source/core/h2_case.cpp:26-35`, without the jump: `msgs` is the failure
with its siblings, `warn` the warning mark of the first. -/
def failing (st : State) (msgs : List Msg) (warn append : Bool) : State :=
  if msgs.isEmpty then st
  else
    let st := if warn then { st with warning := true } else { st with failed := true }
    if !st.fails.isEmpty && !append then st else { st with fails := st.fails ++ msgs }

/-- How a block is left. -/
inductive Exit where
  | done
  /-- `longjmp(fail_hole)` -/
  | jump
  | thrown (m : Nat)
deriving DecidableEq

/-- One step: `h2_runner::failing` (`/repo/source/core/h2_runner.cpp:203-208`) passes
`defer = O.continue_assert` and `append = true`; the jump is `/repo/source/core/h2_case.cpp:33`.
A throw goes through `h2_exception_handler::__cxa_throw` (`/repo/source/except/h2_exception.cpp:11-21`),
outside a `Catch`. -/
def step (o : Opts) (b : Block) (s : Step) (st : State) : State × Exit :=
  let st := { st with trace := st.trace ++ [.step b s] }
  match s with
  | .act _ => (st, .done)
  | .fail m => (failing st [.assert m] false true, if o.continueAssert then .done else .jump)
  | .warn m => (failing st [.assert m] true true, .done)
  | .caught m => (if o.warnException then failing st [.exception m] true true else st, .done)
  | .throw m => (if o.warnException then failing st [.exception m] true true else st, .thrown m)

/-- The steps of a block, until it is left. -/
def steps (o : Opts) (b : Block) : List Step → State → State × Exit
  | [], st => (st, .done)
  | s :: r, st =>
    match step o b s st with
    | (st, .done) => steps o b r st
    | e => e

/-- A block. -/
def block (o : Opts) (b : Block) (l : List Step) (st : State) : State × Exit :=
  steps o b l { st with trace := st.trace ++ [.enter b] }

/-- How a run, or a part of it, comes out. -/
inductive Result (α : Type) where
  /-- not ended within the fuel -/
  | running
  /-- `longjmp` to a buffer that is not set or belongs to a left frame, or an exception nobody catches -/
  | undefined
  | ended (a : α)
deriving DecidableEq

/-- The `Cleanup` block, reached by `longjmp(cleanup_hole)` from the destructor of `suite_cleaner`
(`/repo/source/core/h2_core.hpp:9`, `/repo/source/core/h2_suite.cpp:53-58`).  A failing assertion jumps to
`fail_hole`, which leads out of the loops of `H2Case` and to the destructor once more, with `case_` set
to null.  The result tells the exit, and whether `case_` has become null meanwhile. -/
def cleanup (o : Opts) (k : Code) : Nat → Nat → Bool → State → Result (State × Option Nat × Bool)
  | 0, _, _, _ => .running
  | f + 1, n, nulled, st =>
    match block o .cleanup (k n) st with
    | (st, .done) => .ended (st, none, nulled)
    | (st, .thrown m) => .ended (st, some m, nulled)
    | (st, .jump) => cleanup o k f (n + 1) true st

/-- Whether `case_` is null when the loops of `H2Case` have been left, and the exception on its way:
`/repo/source/core/h2_core.hpp:17`. -/
def afterBody : Exit → Bool × Option Nat
  | .done => (true, none)
  | .jump => (true, none)
  | .thrown m => (false, some m)

/-- `H2Case` and what follows it: `/repo/source/core/h2_core.hpp:13-19`.  The body ends regularly or by
`longjmp(fail_hole)`: the increment of the outer loop sets `case_` to null.  It is left by an exception:
`suite_cleaner` is destroyed by the unwinding, with `case_` unchanged.  Without a `Cleanup` block
`cleanup_hole` is all zero and nothing is jumped to.  After the `Cleanup` block control runs into
`H2Case` again, whose body is entered if `case_` is still the case.  The result is the exception that
leaves the test function, if any. -/
def case_ (o : Opts) (t : Test) : Nat → Nat → Nat → State → Result (State × Option Nat)
  | 0, _, _, _ => .running
  | f + 1, n, kn, st =>
    let r := block o .body (t.body n) st
    match t.cleanup with
    | none => .ended (r.1, (afterBody r.2).2)
    | some k =>
      match cleanup o k (f + 1) kn (afterBody r.2).1 r.1 with
      | .running => .running
      | .undefined => .undefined
      | .ended (st, some m, _) => .ended (st, some m)
      | .ended (st, none, true) => .ended (st, none)
      | .ended (st, none, false) => case_ o t f (n + 1) (kn + 1) st

/-- The test function of a suite for one of its cases: `Setup`, then the rest.  A failing assertion in
`Setup` jumps to `fail_hole`, which nobody has set. -/
def testFp (o : Opts) (t : Test) (f : Nat) (st : State) : Result (State × Option Nat) :=
  match block o .setup t.setup st with
  | (st, .done) => case_ o t f 0 0 st
  | (st, .thrown m) => .ended (st, some m)
  | (_, .jump) => .undefined

/-- `h2_case::post_cleanup`, `/repo/source/core/h2_case.cpp:16-24`. -/
def postCleanup (o : Opts) (t : Test) (st : State) : State :=
  let st := { st with trace := st.trace ++ [.dnsCleared, .stubsCleared] }
  let st := failing st ((t.mocks st.trace).map .mock) false o.continueAssert
  let st := { st with trace := st.trace ++ [.mocksChecked] }
  let st := failing st ((t.memory st.trace).map .memory) false o.continueAssert
  { st with trace := st.trace ++ [.memoryChecked] }

/-- The failure for an uncaught exception: `/repo/source/core/h2_suite.cpp:42`. -/
def uncaught (o : Opts) (exc : Option Nat) (st : State) : State :=
  match exc with
  | some m => failing st [.exception m] o.warnUncaught o.continueAssert
  | none => st

/-- `h2_suite::test`, `/repo/source/core/h2_suite.cpp:32-44`; `h2_case::prev_setup` is
`/repo/source/core/h2_case.cpp:9-14`. -/
def test (o : Opts) (t : Test) (f : Nat) (st : State) : Result State :=
  match testFp o t f { st with failed := false, warning := false } with
  | .running => .running
  | .undefined => .undefined
  | .ended (st, exc) =>
    .ended (postCleanup o t (uncaught o exc st))

/-- The run of a case in `h2_runner::main`, `/repo/source/core/h2_runner.cpp:152-154`: the case comes with
no messages (`h2_case::clear` after every run).  An exception or a jump out of the global functions is
beyond the framework. -/
def run (o : Opts) (t : Test) (f : Nat) : Result State :=
  match block o .globalSetup t.globalSetup {} with
  | (st, .done) =>
    match test o t f st with
    | .running => .running
    | .undefined => .undefined
    | .ended st =>
      match block o .globalCleanup t.globalCleanup st with
      | (st, .done) => .ended st
      | _ => .undefined
  | _ => .undefined

end H2.CaseRun
