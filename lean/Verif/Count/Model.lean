/-
Model of counting assertions: `h2_runner::asserts` (`/repo/source/core/h2_runner.cpp:210-215`), what calls it, and when the counts are told
to the report and cleared (`/repo/source/core/h2_runner.cpp:117-175`).

What the code of the user does is given as the checks it makes.  Left out: that a failing assertion outside of a case jumps into a case that
is over (`Verif.Hooks`); the checks are those that are made.
-/
namespace H2.Count

/-- What is told: with a case, a suite or the run that is over, the number of assertions. -/
inductive Told where
  | case (round id n : Nat)
  | suite (round id n : Nat)
  | run (n : Nat)
deriving DecidableEq, Repr

/-- `h2_stats::asserts` of the cases, the suites and the runner, `/repo/source/core/h2_test.hpp:1-7`; `current_case` and `current_suite`,
`/repo/source/core/h2_runner.hpp`. -/
structure St where
  cases : Nat → Nat := fun _ => 0
  suites : Nat → Nat := fun _ => 0
  total : Nat := 0
  curCase : Option Nat := none
  curSuite : Option Nat := none
  told : List Told := []

/-- `++` at one place. -/
def bump (f : Nat → Nat) : Option Nat → Nat → Nat
  | none => f
  | some i => fun j => if j = i then f j + 1 else f j

/-- `h2_runner::asserts`, `/repo/source/core/h2_runner.cpp:210-215`. -/
def St.asserts (s : St) : St :=
  { s with cases := bump s.cases s.curCase, suites := bump s.suites s.curSuite, total := s.total + 1 }

/-- What a user can write that is counted. -/
inductive Check where
  /-- `OK`, `KO`, `JE` -/
  | assertion
  /-- the end of a `PF` -/
  | timed
  /-- the end of a `COUT` -/
  | output
  /-- `Ptx` -/
  | packet
  /-- a call of a mock with so many arguments, compared with so many expectations one after the other -/
  | call (tries args : Nat)
  /-- a mock at the end of its case, with so many expectations -/
  | mock (expectations : Nat)

/-- `__tuple_matches`, `/repo/source/mock/h2_tuple.hpp:1-12`. -/
def tupleMatches : Nat → St → St
  | 0, s => s
  | i + 1, s => (tupleMatches i s).asserts

/-- The loop of `h2_mocker::matches`, `/repo/source/mock/h2_mocker.hpp:55-74`; how many expectations it tries is in `Verif.Mock`. -/
def callMatches (args : Nat) : Nat → St → St
  | 0, s => s
  | i + 1, s => callMatches args i (tupleMatches args s)

/-- The loop of `h2_mocker_base::check`, `/repo/source/mock/h2_mocker.cpp:21-36`; `i` expectations are left. -/
def mockCheck : Nat → St → St
  | 0, s => s
  | i + 1, s => mockCheck i s.asserts

/-- `h2_assert::stash`, `/repo/source/assert/h2_assert.cpp:36-55`; `~h2_timer`, `/repo/source/assert/h2_timer.cpp:6-16`; `~h2_cout`,
`/repo/source/stdio/h2_stdio.cpp:157-169`; `h2_sock::failing`, `/repo/source/net/h2_socket.cpp:280-284`. -/
def check (s : St) : Check → St
  | .assertion | .timed | .output | .packet => s.asserts
  | .call k n => callMatches n k s
  | .mock n => mockCheck n s

def checks (s : St) (l : List Check) : St := l.foldl check s

/-- A test program: the checks made in each place.  The checks of a case include those of its Setup and Cleanup, and of its mocks. -/
structure Prog where
  /-- in global setups, and while suites are collected -/
  start : List Check
  suiteSetup : Nat → Nat → List Check
  suiteCleanup : Nat → Nat → List Check
  caseSetup : Nat → Nat → List Check
  body : Nat → Nat → List Check
  caseCleanup : Nat → Nat → List Check
  /-- whether a case runs in a round: it is not filtered, ignored or left to do, and nothing is only listed -/
  runs : Nat → Nat → Bool

/-- One case, `/repo/source/core/h2_runner.cpp:146-162`: `on_case_endup` reads the count, `h2_case::clear` (`/repo/source/core/h2_case.cpp:1-7`)
clears it. -/
def runCase (p : Prog) (r c : Nat) (s : St) : St :=
  let s := { s with curCase := some c }
  let s := if p.runs r c then checks (checks (checks s (p.caseSetup r c)) (p.body r c)) (p.caseCleanup r c) else s
  { s with told := s.told ++ [.case r c (s.cases c)], cases := fun j => if j = c then 0 else s.cases j }

def runCases (p : Prog) (r : Nat) : List Nat → St → St
  | [], s => s
  | c :: cs, s => runCases p r cs (runCase p r c s)

/-- One suite, `/repo/source/core/h2_runner.cpp:138-168`. -/
def runSuite (p : Prog) (r : Nat) (u : Nat × List Nat) (s : St) : St :=
  let s := { s with curSuite := some u.1 }
  let s := checks s (p.suiteSetup r u.1)
  let s := runCases p r u.2 s
  let s := checks s (p.suiteCleanup r u.1)
  { s with told := s.told ++ [.suite r u.1 (s.suites u.1)], suites := fun j => if j = u.1 then 0 else s.suites j }

def runSuites (p : Prog) (r : Nat) : List (Nat × List Nat) → St → St
  | [], s => s
  | u :: us, s => runSuites p r us (runSuite p r u s)

/-- The rounds, with the suites and cases in the order of each. -/
def runRounds (p : Prog) : Nat → List (List (Nat × List Nat)) → St → St
  | _, [], s => s
  | r, us :: rest, s => runRounds p (r + 1) rest (runSuites p r us s)

/-- `h2_runner::main`, `/repo/source/core/h2_runner.cpp:117-175`, up to `on_runner_endup`. -/
def main (p : Prog) (rounds : List (List (Nat × List Nat))) : List Told :=
  let s := runRounds p 0 rounds (checks {} p.start)
  s.told ++ [.run s.total]

end H2.Count
