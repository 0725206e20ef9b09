import Verif.Runner.Model
/-
Model of the JUnit report: `/repo/source/report/h2_report_junit.cpp`, with the calls `h2_runner::main` makes of it
(`/repo/source/core/h2_runner.cpp:134-171`).  The file can be opened; C strings are lists of characters.
-/
namespace H2.Junit
open H2.Runner

/-- What the report reads of a case besides the fields of `H2.Runner.Case`: `filine`, the failures `foreach` visits (none if `fails`
is null) and the milliseconds it took. -/
structure Info where
  filine : List Char
  fails : List (List Char) := []
  timecost : Nat := 0

/-- `%d` of a number that is not negative. -/
def decimal (n : Nat) : List Char := Nat.toDigits 10 n

/-- `"%.3f"` of milliseconds divided by 1000.0: exact below 2^53. -/
def seconds (t : Nat) : List Char :=
  decimal (t / 1000) ++ ['.'] ++ decimal (t / 100 % 10) ++ decimal (t / 10 % 10) ++ decimal (t % 10)

/-- The word for how a case ended, `/repo/source/report/h2_report_junit.cpp:19`. -/
def status (c : Case) : List Char :=
  (if c.todo then "TODO"
   else if c.filtered then "Filtered"
   else if c.ignored then "Ignored"
   else if c.failed then "Failed"
   else if c.warning then "Warning"
   else "Passed").toList

/-- `h2_fail::print(FILE*)`, `/repo/source/report/h2_failure.hpp:27`: virtual, empty, and overridden by no class. -/
def printFile (_fail : List Char) : List Char := []

/-- `on_runner_start`, `/repo/source/report/h2_report_junit.cpp:3-9`. -/
def onRunnerStart : List Char := "<?xml version=\"1.0\" encoding=\"UTF-8\" ?>\n".toList ++ "<testsuites>\n".toList

/-- `on_suite_start`, `/repo/source/report/h2_report_junit.cpp:10-14`. -/
def onSuiteStart (s : Suite) (stats : Stats) : List Char :=
  "<testsuite errors=\"0\" failures=\"".toList ++ decimal stats.failed.toNat ++ "\" hostname=\"localhost\" name=\"".toList ++ s.name ++
    "\" skipped=\"".toList ++ decimal (stats.todo + stats.filtered).toNat ++ "\" tests=\"".toList ++ decimal s.cases.length ++
    "\" time=\"".toList ++ decimal 0 ++ "\" timestamp=\"".toList ++ [] ++ "\">\n".toList

/-- `on_case_endup`, `/repo/source/report/h2_report_junit.cpp:16-27`. -/
def onCaseEndup (s : Suite) (c : Case) (i : Info) : List Char :=
  "<testcase classname=\"".toList ++ s.name ++ "\" name=\"".toList ++ c.name ++ "\" status=\"".toList ++ status c ++ "\" time=\"".toList ++
    seconds i.timecost ++ "\">\n".toList ++
  (if c.failed then
    "<failure message=\"".toList ++ i.filine ++ ":".toList ++ (i.fails.flatMap fun f => "{newline}".toList ++ printFile f) ++
      "\" type=\"AssertionFailedError\"></failure>\n".toList
   else []) ++
  "<system-out></system-out><system-err></system-err>\n".toList ++ "</testcase>\n".toList

/-- `on_suite_endup`, `/repo/source/report/h2_report_junit.cpp:28-32`. -/
def onSuiteEndup : List Char := "</testsuite>\n".toList

/-- `on_runner_endup`, `/repo/source/report/h2_report_junit.cpp:33-38`. -/
def onRunnerEndup : List Char := "</testsuites>\n".toList

/-- What is written about a suite in one round, `/repo/source/core/h2_runner.cpp:138-165`.  The statistics of a suite are all 0
when it starts: `s->clear()` ended its last round (165, `/repo/source/core/h2_suite.cpp:7-10`). -/
def suiteText (info : Case → Info) (s : Suite) : List Char :=
  onSuiteStart s {} ++ (s.cases.flatMap fun c => onCaseEndup s c (info c)) ++ onSuiteEndup

/-- The whole file; the cases of each round are as they were when `on_case_endup` was called. -/
def report (info : Nat → Case → Info) (rounds : List (Nat × List Suite)) : List Char :=
  onRunnerStart ++ (rounds.flatMap fun r => r.2.flatMap (suiteText (info r.1))) ++ onRunnerEndup

/-- The suites of each round as they were visited: `H2.Runner.runSuites` returns them in the order visited, with every case as it
was when it ended (`c->clear()`, `/repo/source/core/h2_runner.cpp:160`, changes none of its flags). -/
def visits (o : Opts) (env : Env) (rnd : Nat → Nat → Int) (st : State) : Nat → List (Nat × List Suite)
  | 0 => []
  | n + 1 => visits o env rnd st n ++ [(n, (st.rounds o env rnd (n + 1)).suites)]

/-- What `h2_runner::main` writes. -/
def written (o : Opts) (env : Env) (rnd : Nat → Nat → Int) (info : Nat → Case → Info) (st : State) : List Char :=
  report info (visits o env rnd st o.rounds)

end H2.Junit
