import Verif.Cli.Model
import Verif.Filter.Model
import Verif.CaseRun.Model
import Verif.Console.Model
import Verif.Junit.Model
import Verif.Listing.Model
import Verif.Misc.Model
/-
The parts put together: `h2_runner::main`, `/repo/source/core/h2_runner.cpp:117-178`, from the command line to the exit
status, with the reports `h2_report::initialize` chooses (`/repo/source/report/h2_report.cpp:1-9`).

The command line is `Verif.Cli`, descriptions and patterns are `Verif.Filter`, the loops `Verif.Runner`, the run of one case
`Verif.CaseRun`, the reports `Verif.Console`, `Verif.Junit` and `Verif.Listing`.  `id` stands for the address of a case or suite.
Left out: the debugger (`-d`), and what the functions of the user do that run outside of cases (`global_setups` and so on).
-/
namespace H2.Whole

abbrev Str := List Char

/-- A `CASE` or `TODO` as it is written, `/repo/source/core/h2_core.hpp:13-14`. -/
structure CaseText where
  id : Nat
  /-- `H2_FILINE` -/
  filine : Str
  /-- the base of `__FILE__` -/
  file : Str
  line : Int
  describe : Str
  todo : Bool := false

/-- A `SUITE` as it is written, `/repo/source/core/h2_core.hpp:3-6`; a `CASE` outside of a suite is in one without description,
23-27. -/
structure SuiteText where
  id : Nat
  filine : Str
  file : Str
  line : Int
  describe : Option Str
  cases : List CaseText

/-- A test program. -/
structure Program where
  suites : List SuiteText
  /-- what is run for a case, which may depend on everything that happened before -/
  code : List Runner.Event → Nat → CaseRun.Test
  /-- how many reports are registered with `H2Report` -/
  reports : Nat := 0

/-- What does not depend on the program. -/
structure World where
  /-- `argv[0]` -/
  path : Str
  /-- matching with wildcards, see `Verif.Filter` -/
  wild : Str → Str → Bool
  /-- the random numbers of each round -/
  random : Nat → Nat → Int
  /-- the file `.last_order` -/
  order : Option Str
  /-- what a failure prints -/
  text : CaseRun.Msg → Str
  /-- asserts, footprint and milliseconds of a case in a round -/
  measures : Nat → Nat → Nat × Nat × Nat
  asserts : Nat
  duration : Str
  /-- a bound for the length of each case -/
  fuel : Nat

/-! ### Options -/

/-- The options the runner looks at, `/repo/source/core/h2_runner.cpp:86-177`. -/
def opts (o : Cli.Options) : Runner.Opts where
  lists := o.listSuite || o.listCase || o.listTodo || o.listTags
  rounds := o.runRounds
  breakAfter := o.breakAfterFails
  onlyLast := o.onlyLastFailed
  exitWithFails := o.exitWithFails
  byName := o.shuffleName
  byFile := o.shuffleFile
  reverse := o.shuffleReverse
  random := o.shuffleRandom

/-- The options that matter in a case, `/repo/source/core/h2_case.cpp:16-37`, `/repo/source/core/h2_suite.cpp:42`. -/
def caseOpts (o : Cli.Options) : CaseRun.Opts where
  continueAssert := o.continueAssert
  warnException := o.warnException
  warnUncaught := o.warnUncaught

/-- The patterns, `/repo/source/core/h2_filter.cpp:17-37`. -/
def lists (o : Cli.Options) : Filter.Lists where
  includes := o.includes
  excludes := o.excludes
  fileIncludes := o.fileIncludes
  fileExcludes := o.fileExcludes
  suiteIncludes := o.suiteIncludes
  suiteExcludes := o.suiteExcludes
  caseIncludes := o.caseIncludes
  caseExcludes := o.caseExcludes
  tagsIncludes := o.tagsIncludes
  tagsExcludes := o.tagsExcludes

/-! ### Registered suites and cases -/

/-- `h2_test::h2_test`, `/repo/source/core/h2_test.cpp:25-33`, of a description that fits. -/
def testOf (filine : Str) (describe : Option Str) : Filter.Test :=
  (describe.bind (Filter.Test.new filine)).getD { filine := filine }

def SuiteText.test (s : SuiteText) : Filter.Test := testOf s.filine s.describe
def CaseText.test (c : CaseText) : Filter.Test := testOf c.filine (some c.describe)

/-- Every description fits the buffers of 512 bytes, `/repo/source/core/h2_test.hpp:19`. -/
def Program.fits (p : Program) : Bool :=
  p.suites.all fun s => (s.describe.all fun d => decide (d.length < 512)) && s.cases.all fun c => decide (c.describe.length < 512)

/-- `h2_runner::enumerate` and `h2_runner::filter`, `/repo/source/core/h2_runner.cpp:46-70`, for one suite. -/
def register (w : World) (o : Cli.Options) (s : SuiteText) : Runner.Suite where
  id := s.id
  file := s.file
  line := s.line
  name := s.test.name
  cases := s.cases.zipWith (fun c filtered => { id := c.id, file := c.file, line := c.line, name := c.test.name, todo := c.todo, filtered := filtered })
    (Filter.filterSuite w.wild (lists o) s.test (s.cases.map (·.test))).1

/-- The runner before the first round. -/
def start (p : Program) (w : World) (o : Cli.Options) : Runner.State :=
  { suites := p.suites.map (register w o), lastOrder := w.order }

/-! ### Cases that run -/

/-- How the run of a case comes out. -/
def outcome (p : Program) (w : World) (o : Cli.Options) (log : List Runner.Event) (id : Nat) : CaseRun.Result CaseRun.State :=
  CaseRun.run (caseOpts o) (p.code log id) w.fuel

/-- `c->failed` and `c->warning` then; a case that does not end is dealt with in `main`. -/
def flags : CaseRun.Result CaseRun.State → Bool × Bool
  | .ended st => (st.failed, st.warning)
  | _ => (false, false)

def env (p : Program) (w : World) (o : Cli.Options) : Runner.Env := fun log c => flags (outcome p w o log c.id)

/-- One turn of the loop over cases: the round, the case, and how it ran, if it was run. -/
structure Entry where
  round : Nat
  case : Nat
  run : Option (CaseRun.Result CaseRun.State)
deriving DecidableEq

/-- All the turns, in time order; the first list is what happened before. -/
def entries (p : Program) (w : World) (o : Cli.Options) : List Runner.Event → List Runner.Event → List Entry
  | _, [] => []
  | pre, e :: es =>
    { round := e.round, case := e.case.id, run := if e.ran then some (outcome p w o pre e.case.id) else none } :: entries p w o (pre ++ [e]) es

/-- A case that was run did not come to its end. -/
def Entry.stuck (e : Entry) : Bool :=
  match e.run with
  | none => false
  | some (.ended _) => false
  | some _ => true

/-! ### Reports -/

/-- The reports called: the user's and those of `h2_report::initialize`. -/
inductive Report where
  | user | list | console | junit
deriving DecidableEq

/-- `h2_array_append` on `reports[8]`, `/repo/source/report/h2_report.hpp:24`, `/repo/source/utils/h2_misc.hpp:25`: the last entry
stays null. -/
def addReport (l : List Report) (r : Report) : List Report := if l.length < 7 then l ++ [r] else l

/-- `h2_report::registor` and `h2_report::initialize`, `/repo/source/report/h2_report.cpp:1-11`. -/
def reports (p : Program) (o : Cli.Options) : List Report :=
  let l := (List.replicate p.reports Report.user).foldl addReport []
  if (opts o).lists then addReport l .list
  else
    let l := addReport l .console
    if o.junitPath ≠ [] then addReport l .junit else l

/-- The text of a case and of its suite. -/
def Program.find (p : Program) (id : Nat) : Option (SuiteText × CaseText) :=
  p.suites.findSome? fun s => (s.cases.find? fun c => c.id == id).map fun c => (s, c)

/-- `c->fails` when a case ends. -/
def messages (h : List Entry) (round id : Nat) : List CaseRun.Msg :=
  match h.find? fun e => e.round == round && e.case == id with
  | some { run := some (.ended st), .. } => st.fails
  | _ => []

/-- What `h2_report_console` reads of a case, `/repo/source/report/h2_report_console.cpp:110-151`. -/
def about (p : Program) (w : World) (h : List Entry) (round : Nat) (c : Runner.Case) : Console.Info :=
  let m := w.measures round c.id
  { filine := match p.find c.id with
      | some t => Misc.basefile t.2.filine
      | none => []
    absent := match p.find c.id with
      | some t => t.1.describe.isNone
      | none => false
    fails := (messages h round c.id).map w.text
    asserts := m.1, footprint := m.2.1, timecost := m.2.2 }

/-- What `h2_report_junit` reads of a case, `/repo/source/report/h2_report_junit.cpp:16-27`. -/
def aboutJunit (p : Program) (w : World) (h : List Entry) (round : Nat) (c : Runner.Case) : Junit.Info :=
  { filine := match p.find c.id with
      | some t => t.2.filine
      | none => []
    fails := (messages h round c.id).map w.text
    timecost := (w.measures round c.id).2.2 }

/-- What `h2_report_list` reads of a case. -/
def listedCase (p : Program) (c : Runner.Case) : Listing.Case :=
  { name := c.name, todo := c.todo, filtered := c.filtered
    tags := match p.find c.id with
      | some t => t.2.test.tags
      | none => [] }

/-- What `h2_report_list` reads of a suite. -/
def listedSuite (p : Program) (w : World) (o : Cli.Options) (s : Runner.Suite) : Listing.Suite :=
  match p.suites.find? fun t => t.id == s.id with
  | some t =>
    { name := s.name, absent := t.describe.isNone, filtered := (Filter.filterSuite w.wild (lists o) t.test (t.cases.map (·.test))).2
      tags := t.test.tags, cases := s.cases.map (listedCase p) }
  | none => { name := s.name, absent := false, filtered := false, tags := [], cases := s.cases.map (listedCase p) }

def listFlags (o : Cli.Options) : Listing.Flags := ⟨o.listSuite, o.listCase, o.listTodo, o.listTags⟩

/-! ### The whole -/

/-- What a run leaves behind. -/
structure Output where
  history : List Entry
  console : Option (List Console.Item)
  listing : Option (List Listing.Line)
  /-- the path and the content of the file -/
  junit : Option (Str × Str)
  /-- the file `.last_order` -/
  order : Option Str
  /-- what the operating system keeps of the value returned -/
  status : Int

inductive Outcome where
  /-- `exit(code)` while the options are read -/
  | exit (code : Int)
  | undefined
  /-- a case does not come to its end -/
  | stuck
  | ended (out : Output)

/-- `h2_runner::main` with the options read, `/repo/source/core/h2_runner.cpp:124-177`. -/
def perform (p : Program) (w : World) (o : Cli.Options) : Outcome :=
  let st := start p w o
  let r := st.main (opts o) (env p w o) w.random
  let h := entries p w o [] r.1.log
  if h.any Entry.stuck then .stuck
  else .ended {
    history := h
    console := if .console ∈ reports p o then
        some (Console.console ⟨o.verbose, o.progressing⟩ (opts o) (env p w o) w.random (about p w h) w.asserts w.duration st)
      else none
    listing := if .list ∈ reports p o then
        some (Listing.run (listFlags o) ((Console.visits (opts o) (env p w o) w.random st o.runRounds).flatMap fun v => v.2.map (listedSuite p w o)))
      else none
    junit := if .junit ∈ reports p o then some (o.junitPath, Junit.written (opts o) (env p w o) w.random (aboutJunit p w h) st) else none
    order := r.1.lastOrder
    status := Runner.exitStatus r.2 }

/-- `h2_runner::main`, `/repo/source/core/h2_runner.cpp:117-178`. -/
def main (p : Program) (w : World) (args : List Str) : Outcome :=
  match Cli.parse w.path args with
  | .exit code => .exit code
  | .undefined => .undefined
  | .ok o => if p.fits then perform p w o else .undefined

end H2.Whole
