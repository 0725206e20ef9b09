import Verif.Runner.Model
/-
Model of the report on the console: `/repo/source/report/h2_report_console.cpp`, with the calls `h2_runner::main` makes of it
(`/repo/source/core/h2_runner.cpp:134-171`).

Colours are left out (see `Verif.Color`), as are line ends and the sequences that overwrite the line of the case being tested.
The line about a suite (85-108, only with a verbosity of 9) is in `Verif.Amount`.
-/
namespace H2.Console
open H2.Runner

abbrev Str := List Char

/-- The options used, `/repo/source/option/h2_option.hpp:38-39`. -/
structure Cfg where
  verbose : Int
  progressing : Bool

/-- `VerboseCompactFailed` and so on, `/repo/source/option/h2_option.hpp:2`. -/
abbrev compactFailed : Int := 1
abbrev compactWarning : Int := 2
abbrev compactPassed : Int := 3
abbrev normal : Int := 4
abbrev detail : Int := 5

/-- What the report reads of a case besides the fields of `H2.Runner.Case`: the base of `filine`, whether its suite is absent (a bare
`CASE`), what its failures print, and its statistics. -/
structure Info where
  filine : Str
  absent : Bool := false
  fails : List Str := []
  asserts : Nat := 0
  footprint : Nat := 0
  timecost : Nat := 0

/-- What is printed. -/
inductive Item where
  /-- The line of a case that is being tested; it is overwritten by what comes next. -/
  | testing (text : Str)
  /-- The line of a case that ended: status, case, suite, place, and the text of the line. -/
  | case (status name suite place text : Str)
  /-- What a failure prints. -/
  | fail (text : Str)
  /-- Asserts, footprint and milliseconds of a case that passed. -/
  | detail (asserts footprint timecost : Nat)
  /-- The last line. -/
  | summary (text : Str)
deriving DecidableEq

/-- `%d`, and `h2_stringify` of an `int`, of a number that is not negative. -/
def decimal (n : Nat) : Str := Nat.toDigits 10 n

/-- `format_percentage`, `/repo/source/report/h2_report_console.cpp:27-32`: the number shown. -/
def percentage (index cases : Nat) : Nat := if cases ≠ 0 then index * 100 / cases else 100

/-- `format_percentage`, `/repo/source/report/h2_report_console.cpp:27-32`: `"[%3d%%] "`. -/
def formatPercentage (index cases : Nat) : Str :=
  let n := decimal (percentage index cases)
  "[".toList ++ List.replicate (3 - n.length) ' ' ++ n ++ "%".toList ++ "] ".toList

/-- `format_title`, `/repo/source/report/h2_report_console.cpp:10-26`. -/
def formatTitle (suite name : Str) (place : Option Str) : Str :=
  "┊ ".toList ++ (if name ≠ [] then name ++ " ".toList else "case ".toList) ++
  "┊ ".toList ++ (if suite ≠ [] then suite ++ " ".toList else "suite ".toList) ++
  (match place with
   | some p => "┊ ".toList ++ p ++ " ".toList
   | none => [])

/-- The text `print_bar` puts together for a case, `/repo/source/report/h2_report_console.cpp:63-66`; padding and shortening of the line
of the case being tested are left out. -/
def barText (g : Cfg) (index cases : Nat) (status suite name : Str) (place : Option Str) : Str :=
  (if g.progressing then formatPercentage index cases else []) ++ status ++ formatTitle suite name place

/-- `print_bar(true, ..., false)`, `/repo/source/report/h2_report_console.cpp:54-73`. -/
def printBar (g : Cfg) (index cases : Nat) (status : String) (s : Suite) (c : Case) (i : Info) : Item :=
  .case status.toList c.name s.name i.filine (barText g index cases status.toList s.name c.name (some i.filine))

/-- `on_case_start`, `/repo/source/report/h2_report_console.cpp:110-115`, with `print_bar(true, ..., true)`; `index` is counted already. -/
def onCaseStart (g : Cfg) (index cases : Nat) (s : Suite) (c : Case) : List Item :=
  if c.filtered || c.ignored || c.todo then []
  else if !g.progressing then []
  else [.testing (barText g index cases "Testing".toList s.name c.name none)]

/-- `on_case_endup`, `/repo/source/report/h2_report_console.cpp:116-151`. -/
def onCaseEndup (g : Cfg) (index cases : Nat) (s : Suite) (c : Case) (i : Info) : List Item :=
  if c.filtered || c.ignored then []
  else if c.todo then
    if g.verbose ≥ detail then [printBar g index cases (if i.absent then "TODO   " else "Todo   ") s c i] else []
  else if c.failed then
    if g.verbose ≥ compactFailed then
      printBar g index cases "Failed " s c i :: (if g.verbose ≥ normal then i.fails.map .fail else [])
    else []
  else if c.warning then
    if g.verbose ≥ compactWarning then
      printBar g index cases "Warning" s c i :: (if g.verbose > normal then i.fails.map .fail else [])
    else []
  else
    if g.verbose ≥ detail ∨ g.verbose = compactPassed then
      printBar g index cases "Passed " s c i ::
        (if g.verbose ≥ detail ∧ (0 < i.asserts ∨ 0 < i.footprint ∨ 0 < i.timecost) then [.detail i.asserts i.footprint i.timecost] else [])
    else []

/-- `nonzero_count`, `/repo/source/report/h2_report_console.cpp:6-9`. -/
def nonzeroCount (ns : List Nat) : Nat := ns.countP (· ≠ 0)

/-- `H2_UNITS`, `/repo/source/report/h2_report_console.cpp:1`. -/
def units (count : Nat) (unit : Str) : Str := if count > 1 then unit ++ "s".toList else unit

/-- `format_units`, `/repo/source/report/h2_report_console.cpp:48-53`, with one unit. -/
def formatUnits (count : Nat) (unit : Str) : Str := decimal count ++ unit ++ (if count > 1 then "s".toList else [])

/-- `on_runner_endup`, `/repo/source/report/h2_report_console.cpp:74-93`; `duration` is what `format_duration` gives. -/
def summary (t : Stats) (cases asserts rounds : Nat) (duration : Str) : Str :=
  let n := nonzeroCount [t.failed.toNat, t.warning.toNat, t.todo.toNat, t.filtered.toNat, t.ignored.toNat]
  (if 0 < t.failed then "Failure ".toList else "Success ".toList) ++
  (if 0 < n then "(".toList else []) ++
  (decimal t.passed.toNat ++ " passed".toList) ++
  (if t.failed ≠ 0 then ", ".toList ++ decimal t.failed.toNat ++ " failed".toList else []) ++
  (if t.warning ≠ 0 then ", ".toList ++ decimal t.warning.toNat ++ " warning".toList else []) ++
  (if t.todo ≠ 0 then ", ".toList ++ decimal t.todo.toNat ++ " todo".toList else []) ++
  (if t.filtered ≠ 0 then ", ".toList ++ decimal t.filtered.toNat ++ " filtered".toList else []) ++
  (if t.ignored ≠ 0 then ", ".toList ++ decimal t.ignored.toNat ++ " ignored".toList else []) ++
  (if 0 < n then ") ".toList ++ decimal cases else []) ++
  units cases " case".toList ++ ", ".toList ++ formatUnits asserts " assert".toList ++
  (if 1 < rounds then ", ".toList ++ formatUnits rounds " round".toList else []) ++
  ", ".toList ++ duration

/-- The two calls for one case, `/repo/source/core/h2_runner.cpp:150-159`: the new index and what is printed. -/
def visitCase (g : Cfg) (cases : Nat) (info : Case → Info) (s : Suite) (index : Nat) (c : Case) : Nat × List Item :=
  (index + 1, onCaseStart g (index + 1) cases s c ++ onCaseEndup g (index + 1) cases s c (info c))

def visitCases (g : Cfg) (cases : Nat) (info : Case → Info) (s : Suite) : Nat → List Case → Nat × List Item
  | index, [] => (index, [])
  | index, c :: cs =>
    let r := visitCase g cases info s index c
    let q := visitCases g cases info s r.1 cs
    (q.1, r.2 ++ q.2)

def visitSuites (g : Cfg) (cases : Nat) (info : Case → Info) : Nat → List Suite → Nat × List Item
  | index, [] => (index, [])
  | index, s :: ss =>
    let r := visitCases g cases info s index s.cases
    let q := visitSuites g cases info r.1 ss
    (q.1, r.2 ++ q.2)

def visitRounds (g : Cfg) (cases : Nat) (info : Nat → Case → Info) : Nat → List (Nat × List Suite) → Nat × List Item
  | index, [] => (index, [])
  | index, r :: rs =>
    let p := visitSuites g cases (info r.1) index r.2
    let q := visitRounds g cases info p.1 rs
    (q.1, p.2 ++ q.2)

/-- The suites of each round as they were visited: `H2.Runner.runSuites` returns them in the order visited, with every case as it
was when it ended. -/
def visits (o : Opts) (env : Env) (rnd : Nat → Nat → Int) (st : State) : Nat → List (Nat × List Suite)
  | 0 => []
  | n + 1 => visits o env rnd st n ++ [(n, (st.rounds o env rnd (n + 1)).suites)]

/-- `on_runner_start`, `/repo/source/report/h2_report_console.cpp:70-74`. -/
def countCases (ss : List Suite) : Nat := (ss.map fun s => s.cases.length).sum

/-- What `h2_runner::main` prints on the console. -/
def console (g : Cfg) (o : Opts) (env : Env) (rnd : Nat → Nat → Int) (info : Nat → Case → Info) (asserts : Nat) (duration : Str) (st : State) : List Item :=
  let cases := countCases st.suites
  (visitRounds g cases info 0 (visits o env rnd st o.rounds)).2 ++
    [.summary (summary (st.main o env rnd).1.stats cases asserts o.rounds duration)]

end H2.Console
