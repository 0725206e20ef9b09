import Verif.Console.Model
import Verif.Abbrev.Model
/-
Model of what goes to the terminal, in order: the line of progress and the sequences that overwrite it
(`/repo/source/report/h2_report_console.cpp:55-72`, which `Verif.Console` leaves out), the dots while suites are collected
(`/repo/source/core/h2_runner.cpp:46-61`), and what the code of the user writes (`/repo/source/stdio/h2_stdio.cpp:7-20`).

Colours are left out: the sequences for them move nothing (see `Verif.Color`).
-/
namespace H2.Screen
open H2.Runner
open H2.Console (Str Cfg Info formatPercentage normal detail compactFailed compactWarning compactPassed)
open H2.Layout (Line isctrl lineWidth padding)
open H2.Abbrev (abbreviate)

/-- What the terminal gets: a character, or `"\33[2K\r"` (empty the row, go to its beginning). -/
inductive Tok where
  | ch (c : Char)
  | clear
deriving DecidableEq

/-- `h2_stdio::capture_length`, `/repo/source/stdio/h2_stdio.cpp:5`; `last_capture_length`,
`/repo/source/report/h2_report_console.cpp:4`; `h2_report::backable`, `/repo/source/report/h2_report.hpp:22`; and all that went to
the terminal. -/
structure St where
  captured : Nat := 0
  last : Nat := 0
  backable : Bool := false
  out : List Tok := []

/-- Write to the terminal: `h2_color::print` without colours, `/repo/source/utils/h2_color.cpp:47-56`. -/
def St.print (s : St) (t : Str) : St := { s with out := s.out ++ t.map .ch }

/-- The words of a line that are no styles: `h2_console::printl(line, false)`, `/repo/source/stdio/h2_console.cpp:36-40`. -/
def plain (l : Line) : Str := l.flatMap fun w => if isctrl w then [] else w

/-- `h2_stdio::write` to `stdout` or `stderr`, `/repo/source/stdio/h2_stdio.cpp:7-20`.  Simplification: characters are counted
instead of bytes (the number is only asked whether it is still the same). -/
def write (g : Cfg) (s : St) (t : Str) : St :=
  if g.verbose ≥ normal then
    let s := if s.backable then { s.print ['\n'] with backable := false } else s
    { s.print t with captured := s.captured + t.length }
  else s

/-- `h2_line::printf`, `/repo/source/utils/h2_line.cpp:24-32`. -/
def styled (style : String) (t : Str) : Line :=
  if style.toList ≠ [] then ["\x1b{".toList ++ style.toList ++ "}".toList, t, "\x1b{reset}".toList] else [t]

/-- `format_title`, `/repo/source/report/h2_report_console.cpp:10-26`. -/
def titleLine (suite name : Str) (place : Option Str) : Line :=
  styled "dark gray" "┊ ".toList ++
  (if name ≠ [] then styled "" (name ++ " ".toList) else styled "dark gray" "case ".toList) ++
  styled "dark gray" "┊ ".toList ++
  (if suite ≠ [] then styled "" (suite ++ " ".toList) else styled "dark gray" "suite ".toList) ++
  (match place with
   | some p => styled "dark gray" "┊ ".toList ++ styled "" (p ++ " ".toList)
   | none => [])

/-- `format_percentage`, `/repo/source/report/h2_report_console.cpp:27-32`. -/
def percentLine (index cases : Nat) : Line :=
  styled "dark gray" "[".toList ++
  styled "" (List.replicate (3 - (H2.Console.decimal (H2.Console.percentage index cases)).length) ' ' ++
    H2.Console.decimal (H2.Console.percentage index cases) ++ "%".toList) ++
  styled "dark gray" "] ".toList

/-- The first part of `print_bar`, `/repo/source/report/h2_report_console.cpp:57-60`. -/
def barStart (g : Cfg) (s : St) (backable : Bool) : St :=
  let s := { s with out := s.out ++ [if s.last = s.captured then Tok.clear else Tok.ch '\n'] }
  { s with last := s.captured, backable := g.progressing && backable }

/-- The bar of a case being tested is filled with blanks or shortened, `/repo/source/report/h2_report_console.cpp:67-70`; `W` is
`h2_console::width()`. -/
def fit (W : Nat) (bar : Line) : Line :=
  if W > lineWidth bar then padding bar (W - lineWidth bar) else abbreviate bar W 0

/-- `print_bar(true, style, status, s, c, backable)`, `/repo/source/report/h2_report_console.cpp:55-72`. -/
def printBar (g : Cfg) (W index cases : Nat) (style status : String) (sname cname : Str) (filine : Str) (backable : Bool) (s : St) : St :=
  let s := barStart g s backable
  if !g.progressing && backable then s
  else
    let bar := (if g.progressing then percentLine index cases else []) ++ styled style status.toList ++
      titleLine sname cname (if backable then none else some filine)
    let bar := if backable then fit W bar else bar
    s.print (plain bar)

/-- What happens, in order.  `index` is the number of the case in the report. -/
inductive Ev where
  /-- code of the user writes to `stdout` or `stderr` -/
  | write (t : Str)
  /-- `on_case_start` -/
  | start (index : Nat) (s : Suite) (c : Case)
  /-- `on_case_endup` -/
  | ended (index : Nat) (s : Suite) (c : Case) (i : Info)
  /-- `on_suite_endup` with a verbosity of at least 9, and neither `-i` nor `-x`; `line` is in `Verif.Amount` -/
  | suite (index : Nat) (line : Str)
  /-- `on_runner_endup`; the text is in `Verif.Console` -/
  | finish (t : Str)

/-- `on_case_start`, `/repo/source/report/h2_report_console.cpp:121-126`. -/
def onStart (g : Cfg) (W cases index : Nat) (su : Suite) (c : Case) (s : St) : St :=
  if c.filtered || c.ignored || c.todo then s
  else printBar g W index cases "light blue" "Testing" su.name c.name [] true s

/-- `fail->print` of all failures, then a line end, `/repo/source/report/h2_report_console.cpp:136-139`.  What a failure prints ends
with a line end (`/repo/source/report/h2_failure.cpp`). -/
def printFails (i : Info) (s : St) : St :=
  if i.fails ≠ [] then (i.fails.foldl (fun s t => (s.print t).print ['\n']) s).print ['\n'] else s

/-- `on_case_endup`, `/repo/source/report/h2_report_console.cpp:127-165`.  `told` is what is printed behind a case that passed (in
`Verif.Amount`; empty if nothing is). -/
def onEnded (g : Cfg) (W cases : Nat) (told : Info → Str) (index : Nat) (su : Suite) (c : Case) (i : Info) (s : St) : St :=
  if c.filtered || c.ignored then s
  else if c.todo then
    if g.verbose ≥ detail then printBar g W index cases "yellow" (if i.absent then "TODO   " else "Todo   ") su.name c.name i.filine false s else s
  else if c.failed then
    if g.verbose ≥ compactFailed then
      let s := (printBar g W index cases "bold,red" "Failed " su.name c.name i.filine false s).print ['\n']
      if g.verbose ≥ normal then printFails i s else s
    else s
  else if c.warning then
    if g.verbose ≥ compactWarning then
      let s := (printBar g W index cases "bold,cyan" "Warning" su.name c.name i.filine false s).print ['\n']
      if g.verbose > normal then printFails i s else s
    else s
  else
    if g.verbose ≥ detail ∨ g.verbose = compactPassed then
      let s := printBar g W index cases "green" "Passed " su.name c.name i.filine false s
      let s := if g.verbose ≥ detail then s.print (told i) else s
      s.print ['\n']
    else s

/-- `on_suite_endup`, `/repo/source/report/h2_report_console.cpp:99-120`: `print_bar(true, nullptr, nullptr, nullptr, nullptr, false)`
and the line. -/
def onSuite (g : Cfg) (cases index : Nat) (line : Str) (s : St) : St :=
  let s := barStart g s false
  let s := if g.progressing then s.print (plain (percentLine index cases)) else s
  (s.print line).print ['\n']

/-- `on_runner_endup`, `/repo/source/report/h2_report_console.cpp:78-97`: `print_bar(false, nullptr, nullptr, nullptr, nullptr, false)`
and the line. -/
def onFinish (g : Cfg) (t : Str) (s : St) : St := ((barStart g s false).print t).print ['\n']

def step (g : Cfg) (W cases : Nat) (told : Info → Str) (s : St) : Ev → St
  | .write t => write g s t
  | .start k su c => onStart g W cases k su c s
  | .ended k su c i => onEnded g W cases told k su c i s
  | .suite k line => onSuite g cases k line s
  | .finish t => onFinish g t s

def run (g : Cfg) (W cases : Nat) (told : Info → Str) (s : St) (evs : List Ev) : St := evs.foldl (step g W cases told) s

/-- How many dots there are when suite `i` of `n` is collected, `/repo/source/core/h2_runner.cpp:48,52`: the loop goes on while
`dots <= i * dps`, `dps` being `(W - 11) / (n + 0.000001)`.  Simplification: exact numbers instead of `double`. -/
def dotsAt (W n i : Nat) : Nat := i * (W - 11) * 1000000 / (n * 1000000 + 1) + 1

/-- The loop of `enumerate`, `/repo/source/core/h2_runner.cpp:50-60`, from suite `i` on, `k` more suites; `ws i` is what the code of
the user writes meanwhile; `dots` have been printed. -/
def collectFrom (g : Cfg) (W n : Nat) (ws : Nat → List Str) : Nat → Nat → Nat → St → St
  | 0, _, _, s => s
  | k + 1, i, dots, s =>
    let s := if g.progressing then s.print (List.replicate (dotsAt W n i - dots) '.') else s
    collectFrom g W n ws k (i + 1) (if g.progressing then dotsAt W n i else dots) ((ws i).foldl (write g) s)

/-- `h2_runner::enumerate`, `/repo/source/core/h2_runner.cpp:46-61`, of `n` suites. -/
def collect (g : Cfg) (W n : Nat) (ws : Nat → List Str) (s : St) : St :=
  let s := if g.progressing then s.print "Collecting ".toList else s
  let s := collectFrom g W n ws n 0 0 s
  if g.progressing then { s with out := s.out ++ [.clear] } else s

/-- `h2_runner::main`: `before` is what global setups write, `/repo/source/core/h2_runner.cpp:131-172`. -/
def session (g : Cfg) (W cases : Nat) (told : Info → Str) (n : Nat) (before : List Str) (ws : Nat → List Str) (evs : List Ev) : List Tok :=
  (run g W cases told (collect g W n ws (before.foldl (write g) {})) evs).out

/-! ### The events of a run -/

/-- The events of one case, `/repo/source/core/h2_runner.cpp:150-159`; `ws` is what its code writes. -/
def caseEvents (info : Case → Info) (ws : Case → List Str) (s : Suite) (index : Nat) (c : Case) : List Ev :=
  .start index s c :: (if !c.todo && !c.filtered && !c.ignored then (ws c).map .write else []) ++ [.ended index s c (info c)]

def casesEvents (info : Case → Info) (ws : Case → List Str) (s : Suite) : Nat → List Case → List Ev
  | _, [] => []
  | index, c :: cs => caseEvents info ws s (index + 1) c ++ casesEvents info ws s (index + 1) cs

def suitesEvents (info : Case → Info) (ws : Case → List Str) : Nat → List Suite → List Ev
  | _, [] => []
  | index, s :: ss => casesEvents info ws s index s.cases ++ suitesEvents info ws (index + s.cases.length) ss

def roundsEvents (info : Nat → Case → Info) (ws : Nat → Case → List Str) : Nat → List (Nat × List Suite) → List Ev
  | _, [] => []
  | index, r :: rs => suitesEvents (info r.1) (ws r.1) index r.2 ++ roundsEvents info ws (index + H2.Console.countCases r.2) rs

/-- The events of a run (with a verbosity below 9), `/repo/source/core/h2_runner.cpp:134-172`. -/
def events (o : Opts) (env : Env) (rnd : Nat → Nat → Int) (info : Nat → Case → Info) (ws : Nat → Case → List Str) (asserts : Nat)
    (duration : Str) (st : State) : List Ev :=
  roundsEvents info ws 0 (H2.Console.visits o env rnd st o.rounds) ++
    [.finish (H2.Console.summary (st.main o env rnd).1.stats (H2.Console.countCases st.suites) asserts o.rounds duration)]

end H2.Screen
