/-
Model of the listing of tests (`-l`): `/repo/source/report/h2_report_list.cpp`.
-/
namespace H2.Listing

/-- Names and tags. -/
abbrev Str := List Char

/-- What the listing reads of a case. -/
structure Case where
  name : Str
  todo : Bool
  filtered : Bool
  tags : List Str

/-- What the listing reads of a suite: `absent` is one that only holds a bare `CASE`. -/
structure Suite where
  name : Str
  absent : Bool
  filtered : Bool
  tags : List Str
  cases : List Case

/-- `O.lists`. -/
structure Flags where
  suite : Bool
  case : Bool
  todo : Bool
  tags : Bool

/-- `tag`, `/repo/source/report/h2_report_list.cpp:6-9`. -/
structure Tag where
  name : Str
  suites : Nat := 0
  cases : Nat := 0
deriving DecidableEq

/-- What is printed; colours and file names are left out. -/
inductive Line where
  | suite (number : Nat) (name : Str)
  /-- `inSuite` is shown when suites are listed -/
  | case (todo absent : Bool) (inSuite : Option Nat) (number : Nat) (name : Str)
  | tag (number : Nat) (tag : Tag)
  /-- The last line: counts, and counts of what is filtered -/
  | listing (shown filtered : List (Nat × String))
deriving DecidableEq

/-- The members of `h2_report_list`, `/repo/source/report/h2_report_list.cpp:2-10`, and what was printed.  Counters are natural numbers. -/
structure St where
  suites : Nat := 0
  cases : Nat := 0
  todos : Nat := 0
  unfilteredSuites : Nat := 0
  unfilteredCases : Nat := 0
  unfilteredTodos : Nat := 0
  suiteCases : Nat := 0
  suiteTodos : Nat := 0
  tags : List Tag := []
  unfilteredTags : List Tag := []
  out : List Line := []

/-- The size of the tables. -/
def limit : Nat := 1024

/-- `get_tag`, `/repo/source/report/h2_report_list.cpp:12-17`: its index. -/
def getTag (tags : List Tag) (name : Str) : Option Nat := tags.findIdx? fun t => name == t.name

/-- `add_tag` with `suites++` or `cases++` at what it returns, `/repo/source/report/h2_report_list.cpp:18-36`. -/
def addTag (inc : Tag → Tag) (tags : List Tag) (name : Str) : List Tag :=
  match getTag tags name with
  | some i => tags.modify i inc
  | none => if limit ≤ tags.length then tags else tags ++ [inc { name := name }]

/-- `t->suites++`, `/repo/source/report/h2_report_list.cpp:30`. -/
def incSuites (t : Tag) : Tag := { t with suites := t.suites + 1 }
/-- `t->cases++`, `/repo/source/report/h2_report_list.cpp:35`. -/
def incCases (t : Tag) : Tag := { t with cases := t.cases + 1 }

/-- `on_suite_start`, `/repo/source/report/h2_report_list.cpp:69-84`. -/
def onSuiteStart (f : Flags) (s : Suite) (r : St) : St :=
  let r := { r with suiteCases := 0, suiteTodos := 0 }
  if s.absent then r else
  let r := { r with tags := s.tags.foldl (addTag incSuites) r.tags }
  let r := if s.filtered then r else { r with unfilteredTags := s.tags.foldl (addTag incSuites) r.unfilteredTags }
  let r := { r with suites := r.suites + 1 }
  if !s.filtered && f.suite then
    { r with unfilteredSuites := r.unfilteredSuites + 1, out := r.out ++ [.suite (r.unfilteredSuites + 1) s.name] }
  else r

/-- The line of a case, `/repo/source/report/h2_report_list.cpp:107-113`. -/
def caseLine (f : Flags) (todo absent : Bool) (name : Str) (r : St) : St :=
  { r with out := r.out ++ [.case todo absent (if f.suite then some (r.suiteCases + r.suiteTodos) else none) (r.unfilteredCases + r.unfilteredTodos) name] }

/-- `on_case_start`, `/repo/source/report/h2_report_list.cpp:86-114`. -/
def onCaseStart (f : Flags) (s : Suite) (r : St) (c : Case) : St :=
  let r := { r with tags := c.tags.foldl (addTag incCases) r.tags }
  let r := if c.filtered then r else { r with unfilteredTags := c.tags.foldl (addTag incCases) r.unfilteredTags }
  if c.todo then
    let r := { r with todos := r.todos + 1 }
    if !c.filtered && f.todo then
      caseLine f true s.absent c.name { r with unfilteredTodos := r.unfilteredTodos + 1, suiteTodos := r.suiteTodos + 1 }
    else r
  else
    let r := { r with cases := r.cases + 1 }
    if !c.filtered && f.case then
      caseLine f false s.absent c.name { r with unfilteredCases := r.unfilteredCases + 1, suiteCases := r.suiteCases + 1 }
    else r

/-- One turn of the runner's loop over suites, as far as the listing sees it, `/repo/source/core/h2_runner.cpp:138-166`. -/
def visit (f : Flags) (r : St) (s : Suite) : St := s.cases.foldl (onCaseStart f s) (onSuiteStart f s r)

/-- The counts of the last line, `/repo/source/report/h2_report_list.cpp:52-55`. -/
def shownParts (f : Flags) (r : St) : List (Nat × String) :=
  (if f.suite then [(r.unfilteredSuites, "suite")] else []) ++ (if f.case then [(r.unfilteredCases, "case")] else []) ++
    (if f.todo then [(r.unfilteredTodos, "todo")] else []) ++ (if f.tags then [(r.unfilteredTags.length, "tag")] else [])

/-- The counts of what is filtered, `/repo/source/report/h2_report_list.cpp:56-59`. -/
def filteredParts (f : Flags) (r : St) : List (Nat × String) :=
  (if f.suite && r.suites > r.unfilteredSuites then [(r.suites - r.unfilteredSuites, "suite")] else []) ++
    (if f.case && r.cases > r.unfilteredCases then [(r.cases - r.unfilteredCases, "case")] else []) ++
    (if f.todo && r.todos > r.unfilteredTodos then [(r.todos - r.unfilteredTodos, "todo")] else []) ++
    (if f.tags && r.tags.length > r.unfilteredTags.length then [(r.tags.length - r.unfilteredTags.length, "tag")] else [])

/-- `on_runner_endup`, `/repo/source/report/h2_report_list.cpp:39-61`. -/
def onRunnerEndup (f : Flags) (r : St) : St :=
  { r with out := r.out ++ (if f.tags then r.unfilteredTags.mapIdx .tag else []) ++ [.listing (shownParts f r) (filteredParts f r)] }

/-- A run with `-l`: the suites in the order they are visited.  (With several rounds, `-r`, every suite is visited once in each.) -/
def run (f : Flags) (visits : List Suite) : List Line := (onRunnerEndup f (visits.foldl (visit f) {})).out

end H2.Listing
