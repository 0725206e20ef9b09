/-
Model of the global functions, `GlobalSetup` … `GlobalCaseCleanup`: how they are kept
(`/repo/source/core/h2_runner.hpp:13-45`, `h2_array_append` of `/repo/source/utils/h2_misc.hpp:25`), when they are called
(`/repo/source/core/h2_runner.cpp:46-60,117-177`), and what becomes of a check that fails in one of them
(`/repo/source/core/h2_runner.cpp:203-208`, `/repo/source/core/h2_case.cpp:26-35`).

What happens inside a case is `Verif.CaseRun`; here a case is one event.  Which cases are executed, and in which order suites
and cases come in a round, is arbitrary (it is `Verif.Runner` and `Verif.Filter`).
-/
namespace H2.Hooks

/-- What is executed, in time order.  A global function is a number: its address. -/
inductive Event where
  | setup (f : Nat)
  | cleanup (f : Nat)
  | suiteSetup (f : Nat)
  | suiteCleanup (f : Nat)
  | caseSetup (f : Nat)
  | caseCleanup (f : Nat)
  /-- the suite function, called to find the cases -/
  | collect (s : Nat)
  /-- the suite function, called to execute a case -/
  | test (s c : Nat)
deriving DecidableEq

/-- `h2_array_append`, `/repo/source/utils/h2_misc.hpp:25`: the first null that is not the last element is replaced. -/
def append : List (Option Nat) → Nat → List (Option Nat)
  | none :: x :: r, f => some f :: x :: r
  | some g :: r, f => some g :: append r f
  | l, _ => l

/-- An array of 1024 functions, `/repo/source/core/h2_runner.hpp:13-15`. -/
def empty : List (Option Nat) := List.replicate 1024 none

/-- The functions of one kind, in the order in which their objects are initialised: `/repo/source/core/h2_runner.hpp:28-36`. -/
def register (fs : List Nat) : List (Option Nat) := fs.foldl append empty

/-- `for (int i = 0; a[i]; ++i) a[i]();` -/
def called : List (Option Nat) → List Nat
  | some f :: r => f :: called r
  | _ => []

/-- The arrays of `h2_runner`, `/repo/source/core/h2_runner.hpp:13-15`. -/
structure Arrays where
  setups : List (Option Nat)
  cleanups : List (Option Nat)
  suiteSetups : List (Option Nat)
  suiteCleanups : List (Option Nat)
  caseSetups : List (Option Nat)
  caseCleanups : List (Option Nat)

/-- What the code of the user does, as far as it is seen here: whether a check that is no warning fails in a global function, given
all that was executed, this function last.  `continueAssert` is `-c`. -/
structure World where
  continueAssert : Bool := false
  fails : List Event → Bool := fun _ => false

/-- `current_case`, what was executed, and for every check that failed in a global function the case it was reported for. -/
structure State where
  current : Option (Nat × Nat) := none
  trace : List Event := []
  charged : List (Event × Nat × Nat) := []

/-- A jump to a buffer that is not set, or that belongs to a frame that has been left, is undefined. -/
inductive Outcome where
  | undefined (st : State)
  | going (st : State)

def Outcome.bind : Outcome → (State → Outcome) → Outcome
  | .undefined st, _ => .undefined st
  | .going st, k => k st

/-- A check that fails: `h2_runner::failing`, `/repo/source/core/h2_runner.cpp:203-208`, with `h2_case::failing`,
`/repo/source/core/h2_case.cpp:26-35`.  The jump to `fail_hole`, outside of a case: the buffer is not set or its frame is gone. -/
def failing (w : World) (e : Event) (st : State) : Outcome :=
  match st.current with
  | none => .going st
  | some c =>
    if w.continueAssert then .going { st with charged := st.charged ++ [(e, c)] } else .undefined { st with charged := st.charged ++ [(e, c)] }

/-- One call of a global function. -/
def call (w : World) (e : Event) (st : State) : Outcome :=
  let st := { st with trace := st.trace ++ [e] }
  if w.fails st.trace then failing w e st else .going st

/-- The functions of one array. -/
def calls (w : World) (kind : Nat → Event) : List Nat → State → Outcome
  | [], st => .going st
  | f :: fs, st => (call w (kind f) st).bind (calls w kind fs)

/-- The suite function is called. -/
def State.note (st : State) (e : Event) : State := { st with trace := st.trace ++ [e] }

/-- One suite of `h2_runner::enumerate`, `/repo/source/core/h2_runner.cpp:54-58`. -/
def collect (a : Arrays) (w : World) (s : Nat) (st : State) : Outcome :=
  (calls w .suiteSetup (called a.suiteSetups) st).bind fun st =>
    calls w .suiteCleanup (called a.suiteCleanups) (st.note (.collect s))

/-- One case of a round, `/repo/source/core/h2_runner.cpp:143-163`; `c.2` tells whether it is executed. -/
def runCase (a : Arrays) (w : World) (s : Nat) (c : Nat × Bool) (st : State) : Outcome :=
  let st := { st with current := some (s, c.1) }
  if c.2 then
    (calls w .caseSetup (called a.caseSetups) st).bind fun st =>
      calls w .caseCleanup (called a.caseCleanups) (st.note (.test s c.1))
  else .going st

def runCases (a : Arrays) (w : World) (s : Nat) : List (Nat × Bool) → State → Outcome
  | [], st => .going st
  | c :: cs, st => (runCase a w s c st).bind (runCases a w s cs)

/-- One suite of a round, `/repo/source/core/h2_runner.cpp:138-168`. -/
def runSuite (a : Arrays) (w : World) (s : Nat × List (Nat × Bool)) (st : State) : Outcome :=
  (calls w .suiteSetup (called a.suiteSetups) st).bind fun st =>
    (runCases a w s.1 s.2 st).bind fun st => calls w .suiteCleanup (called a.suiteCleanups) st

/-- A loop. -/
def each {α : Type} (f : α → State → Outcome) : List α → State → Outcome
  | [], st => .going st
  | x :: xs, st => (f x st).bind (each f xs)

/-- `h2_runner::main`, `/repo/source/core/h2_runner.cpp:130-177`: `suites` are collected, `rounds` are the suites with their cases
in the order of every round. -/
def main (a : Arrays) (w : World) (suites : List Nat) (rounds : List (List (Nat × List (Nat × Bool)))) : Outcome :=
  (calls w .setup (called a.setups) {}).bind fun st =>
    (each (collect a w) suites st).bind fun st =>
      (each (each (runSuite a w)) rounds st).bind fun st =>
        calls w .cleanup (called a.cleanups) st

end H2.Hooks
