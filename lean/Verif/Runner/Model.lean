/-
Model of the test runner: `/repo/source/core/h2_runner.cpp`, with the fields of
`/repo/source/core/h2_test.hpp`, `h2_case.hpp` and `h2_suite.hpp` it uses.

What the code under test does is an oracle: `Env` says, from everything reported so far, whether a case
that is run ends failed and whether it ends with a warning (how a case arrives at that is
`Verif.CaseRun`).  `id` stands for the address of the static case or suite object.
`C` `int`s are `Int`; sequence numbers are non-negative 31-bit numbers, so that their difference does
not overflow.
-/
namespace H2.Runner

/-- `h2_case` and `h2_test`, `/repo/source/core/h2_case.hpp:1-4`, `/repo/source/core/h2_test.hpp:9-24`. -/
structure Case where
  id : Nat
  file : List Char := []
  line : Int := 0
  name : List Char := []
  seq : Int := 0
  todo : Bool := false
  filtered : Bool := false
  ignored : Bool := false
  failed : Bool := false
  lastFailed : Bool := false
  warning : Bool := false
deriving DecidableEq

/-- `h2_suite`, `/repo/source/core/h2_suite.hpp:1-4`. -/
structure Suite where
  id : Nat
  file : List Char := []
  line : Int := 0
  name : List Char := []
  seq : Int := 0
  cases : List Case := []

/-- The options used, `/repo/source/option/h2_option.hpp`. -/
structure Opts where
  /-- `O.lists` is not 0. -/
  lists : Bool := false
  rounds : Nat := 1
  breakAfter : Int := 0
  onlyLast : Bool := false
  exitWithFails : Bool := false
  byName : Bool := false
  byFile : Bool := false
  reverse : Bool := false
  random : Bool := false

/-- `h2_stats`, `/repo/source/core/h2_test.hpp:1-7`. -/
structure Stats where
  passed : Int := 0
  failed : Int := 0
  warning : Int := 0
  todo : Int := 0
  filtered : Int := 0
  ignored : Int := 0
deriving DecidableEq

/-- What is reported when a case ends (`on_case_endup`): the case as it is then, and whether it was
run. -/
structure Event where
  round : Nat
  case : Case
  ran : Bool
deriving DecidableEq

/-- The code under test: failed and warning. -/
abbrev Env := List Event → Case → Bool × Bool

/-! ### Sorting -/

/-- The inner loop of `h2_list::sort`, `/repo/source/utils/h2_list.cpp:54-57`. -/
def insertStable {α : Type} (cmp : α → α → Int) (p : α) : List α → List α
  | [] => [p]
  | q :: qs => if 0 < cmp q p then p :: q :: qs else q :: insertStable cmp p qs

/-- `h2_list::sort`, `/repo/source/utils/h2_list.cpp:48-60` (at pointer level in `Verif.Link`). -/
def sort {α : Type} (cmp : α → α → Int) (xs : List α) : List α := xs.foldl (fun ys p => insertStable cmp p ys) []

/-- The C string in a buffer: up to the first NUL. -/
def cstr (s : List Char) : List Char := s.takeWhile (· ≠ Char.ofNat 0)

/-- The loop of `strcasecmp` in the C locale: the difference of the first characters that differ. -/
def casecmp : List Char → List Char → Int
  | [], [] => 0
  | [], b :: _ => 0 - (b.toLower.toNat : Int)
  | a :: _, [] => a.toLower.toNat
  | a :: as, b :: bs => if a.toLower = b.toLower then casecmp as bs else (a.toLower.toNat : Int) - b.toLower.toNat

/-- `strcasecmp` of the C library. -/
def strcasecmp (a b : List Char) : Int := casecmp (cstr a) (cstr b)

/-- What the comparisons look at, `/repo/source/core/h2_runner.cpp:72-85`. -/
structure Key where
  seq : Int
  name : List Char
  file : List Char
  line : Int

def Case.key (c : Case) : Key := ⟨c.seq, c.name, c.file, c.line⟩
def Suite.key (s : Suite) : Key := ⟨s.seq, s.name, s.file, s.line⟩

/-- `shuffle_comparison::seq`, `/repo/source/core/h2_runner.cpp:73-76`. -/
def cmpSeq (a b : Key) : Int := a.seq - b.seq
/-- `shuffle_comparison::name`, `/repo/source/core/h2_runner.cpp:77-80`. -/
def cmpName (a b : Key) : Int := strcasecmp a.name b.name
/-- `shuffle_comparison::file`, `/repo/source/core/h2_runner.cpp:81-85`. -/
def cmpFile (a b : Key) : Int :=
  let t := strcasecmp a.file b.file
  if t ≠ 0 then t else a.line - b.line
/-- `shuffle_comparison::cmp`, `/repo/source/core/h2_runner.cpp:86-92`. -/
def cmpOpt (o : Opts) (a b : Key) : Int :=
  let reverse : Int := if o.reverse then -1 else 1
  if o.byName then cmpName a b * reverse
  else if o.byFile then cmpFile a b * reverse
  else cmpSeq a b * reverse

/-! ### The record of the last order -/

/-- `fprintf` of `save_last_order`, `/repo/source/core/h2_runner.cpp:9`. -/
def record (s : Suite) (c : Case) : List Char :=
  " file: ".toList ++ c.file ++ "\nsuite: ".toList ++ s.name ++ "\n case: ".toList ++ c.name ++ "\n test: ".toList ++
    (if c.failed then "failed" else "passed").toList ++ "\n\n".toList

/-- `save_last_order`, `/repo/source/core/h2_runner.cpp:3-11`: the content of the file. -/
def saveOrder (ss : List Suite) : List Char := ss.flatMap fun s => s.cases.flatMap fun c => record s c

/-- `::fgets(b, n + 1, f)`: at most `n` characters, up to and including a newline. -/
def fgetsC : Nat → List Char → List Char × List Char
  | 0, cs => ([], cs)
  | _ + 1, [] => ([], [])
  | n + 1, c :: cs => if c = '\n' then ([c], cs) else let r := fgetsC n cs; (c :: r.1, r.2)

/-- `fgets`, `/repo/source/core/h2_runner.cpp:25-30`: the line without its last character, and the
rest of the file. -/
def fgets (cs : List Char) : Option (List Char × List Char) :=
  match cs with
  | [] => none
  | cs => let r := fgetsC 511 cs; some (r.1.dropLast, r.2)

/-- `__find_case`, `/repo/source/core/h2_runner.cpp:13-23`, on the cases of one suite: the cases, the
sequence number and whether one was found. -/
def findIn (file cname : List Char) (failed : Bool) : List Case → Int → List Case × Int
  | [], seq => ([], seq)
  | c :: cs, seq =>
    if cname = c.name ∧ file = c.file then
      let r := findIn file cname failed cs (seq + 1)
      ({ c with seq := seq + 1, lastFailed := c.lastFailed || failed } :: r.1, r.2)
    else
      let r := findIn file cname failed cs seq
      (c :: r.1, r.2)

/-- `__find_case`, `/repo/source/core/h2_runner.cpp:13-23`. -/
def findCase (file sname cname : List Char) (failed : Bool) : List Suite → Int → List Suite × Int
  | [], seq => ([], seq)
  | s :: ss, seq =>
    if sname = s.name then
      let r := findIn file cname failed s.cases seq
      let s' := { s with cases := r.1, seq := if seq < r.2 then r.2 else s.seq }
      let q := findCase file sname cname failed ss r.2
      (s' :: q.1, q.2)
    else
      let q := findCase file sname cname failed ss seq
      (s :: q.1, q.2)

/-- One turn of the loop of `sequence_last_order`, `/repo/source/core/h2_runner.cpp:38`: the five lines
and the rest. -/
def readFive (cs : List Char) : Option ((List Char × List Char × List Char × List Char) × List Char) :=
  match fgets cs with
  | none => none
  | some a => match fgets a.2 with
    | none => none
    | some b => match fgets b.2 with
      | none => none
      | some c => match fgets c.2 with
        | none => none
        | some d => match fgets d.2 with
          | none => none
          | some e => some ((a.1, b.1, c.1, d.1), e.2)

/-- The loop of `sequence_last_order`, `/repo/source/core/h2_runner.cpp:32-44`: the suites, the
sequence number and the number of records.  The first argument bounds the number of turns by the
length of the file.  Simplification: a line shorter than 7 characters counts as empty. -/
def sequence : Nat → List Char → List Suite → Int → List Suite × Int × Nat
  | 0, _, ss, seq => (ss, seq, 0)
  | n + 1, cs, ss, seq =>
    match readFive cs with
    | none => (ss, seq, 0)
    | some ((f, s, c, t), rest) =>
      let r := findCase (f.drop 7) (s.drop 7) (c.drop 7) ("failed".toList == t.drop 7) ss seq
      let q := sequence n rest r.1 r.2
      (q.1, q.2.1, q.2.2 + 1)

/-! ### The runner -/

structure State where
  suites : List Suite
  /-- The file `.last_order`, if it exists. -/
  lastOrder : Option (List Char) := none
  /-- The static sequence number of `__find_case`, `/repo/source/core/h2_runner.cpp:15`. -/
  findSeq : Int := 0
  lasts : Nat := 0
  stats : Stats := {}
  log : List Event := []
  /-- Reported at the end of each suite (`on_suite_endup`): the suite's id and its statistics. -/
  suiteLog : List (Nat × Stats) := []

/-- `sequence_last_order`, `/repo/source/core/h2_runner.cpp:32-44`. -/
def State.restore (st : State) : State :=
  match st.lastOrder with
  | none => { st with lasts := 0 }
  | some cs =>
    let r := sequence (cs.length + 1) cs st.suites st.findSeq
    { st with suites := r.1, findSeq := r.2.1, lasts := r.2.2 }

/-- Sorting the suites and the cases of each, `/repo/source/core/h2_runner.cpp:98-100` and 111-113. -/
def sortAll (cmp : Key → Key → Int) (ss : List Suite) : List Suite :=
  (sort (fun a b => cmp a.key b.key) ss).map fun s => { s with cases := sort (fun a b => cmp a.key b.key) s.cases }

/-- The random numbers of `/repo/source/core/h2_runner.cpp:106-109`; `rnd` gives the number drawn for
each case. -/
def randomize (rnd : Nat → Int) (s : Suite) : Suite :=
  { s with
    cases := s.cases.map fun c => { c with seq := rnd c.id }
    seq := match s.cases.getLast? with
      | none => s.seq
      | some c => rnd c.id }

/-- `shuffle`, `/repo/source/core/h2_runner.cpp:95-115`. -/
def State.shuffle (o : Opts) (rnd : Nat → Int) (st : State) : State :=
  let st := st.restore
  if st.lasts ≠ 0 then { st with suites := sortAll cmpSeq st.suites }
  else if o.byName || o.byFile || o.reverse || o.random then
    let ss := if o.random then st.suites.map (randomize rnd) else st.suites
    { st with suites := sortAll (cmpOpt o) ss }
  else st

/-- The counting of cases not run, `/repo/source/core/h2_runner.cpp:145-147`. -/
def Stats.skip (t : Stats) (c : Case) : Stats :=
  if c.ignored then { t with ignored := t.ignored + 1 }
  else if c.filtered then { t with filtered := t.filtered + 1 }
  else if c.todo then { t with todo := t.todo + 1 }
  else t

/-- The counting of cases run, `/repo/source/core/h2_runner.cpp:155-157`. -/
def Stats.ran (t : Stats) (c : Case) : Stats :=
  if c.failed then { t with failed := t.failed + 1 }
  else if c.warning then { t with warning := t.warning + 1 }
  else { t with passed := t.passed + 1 }

/-- What the loop over the cases carries. -/
structure Loop where
  stats : Stats
  suite : Stats
  log : List Event

/-- The body of the loop over cases, `/repo/source/core/h2_runner.cpp:143-161`. -/
def runCase (o : Opts) (env : Env) (round : Nat) (l : Loop) (c : Case) : Case × Loop :=
  let c := if (0 < o.breakAfter ∧ o.breakAfter ≤ l.stats.failed) ∨ (o.onlyLast = true ∧ c.lastFailed = false) then { c with ignored := true } else c
  let l := { l with stats := l.stats.skip c, suite := l.suite.skip c }
  if !o.lists && !c.todo && !c.filtered && !c.ignored then
    let r := env l.log c
    let c := { c with failed := r.1, warning := r.2 }
    (c, { stats := l.stats.ran c, suite := l.suite.ran c, log := l.log ++ [⟨round, c, true⟩] })
  else (c, { l with log := l.log ++ [⟨round, c, false⟩] })

def runCases (o : Opts) (env : Env) (round : Nat) : Loop → List Case → List Case × Loop
  | l, [] => ([], l)
  | l, c :: cs =>
    let r := runCase o env round l c
    let q := runCases o env round r.2 cs
    (r.1 :: q.1, q.2)

/-- The loop over suites, `/repo/source/core/h2_runner.cpp:138-166`. -/
def runSuites (o : Opts) (env : Env) (round : Nat) : Stats → List Event → List (Nat × Stats) → List Suite → List Suite × Stats × List Event × List (Nat × Stats)
  | st, log, sl, [] => ([], st, log, sl)
  | st, log, sl, s :: ss =>
    let r := runCases o env round ⟨st, {}, log⟩ s.cases
    let q := runSuites o env round r.2.stats r.2.log (sl ++ [(s.id, r.2.suite)]) ss
    ({ s with cases := r.1 } :: q.1, q.2)

/-- One round, `/repo/source/core/h2_runner.cpp:136-169`. -/
def State.round (o : Opts) (env : Env) (rnd : Nat → Int) (round : Nat) (st : State) : State :=
  let st := st.shuffle o rnd
  let r := runSuites o env round st.stats st.log st.suiteLog st.suites
  let st := { st with suites := r.1, stats := r.2.1, log := r.2.2.1, suiteLog := r.2.2.2 }
  if st.stats.failed = 0 then { st with lastOrder := none }
  else if st.lasts = 0 then { st with lastOrder := some (saveOrder st.suites) }
  else st

/-- The rounds, `/repo/source/core/h2_runner.cpp:136`. -/
def State.rounds (o : Opts) (env : Env) (rnd : Nat → Nat → Int) : Nat → State → State
  | 0, st => st
  | n + 1, st => (st.rounds o env rnd n).round o env (rnd n) n

/-- `h2_runner::main` from `/repo/source/core/h2_runner.cpp:136` on: the state at the end and the value
returned, 177. -/
def State.main (o : Opts) (env : Env) (rnd : Nat → Nat → Int) (st : State) : State × Int :=
  let st := st.rounds o env rnd o.rounds
  (st, if o.exitWithFails then st.stats.failed else 0)

/-- The exit status the operating system keeps of the value `main` returns. -/
def exitStatus (n : Int) : Int := n % 256

end H2.Runner
