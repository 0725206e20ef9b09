/-
Model of where stubs and mocks are kept and when they are undone in the course of a run:
`/repo/source/core/h2_runner.cpp:46-60,117-200`, `/repo/source/core/h2_case.cpp:16-24`,
`/repo/source/core/h2_suite.cpp:12-25`, `/repo/source/mock/h2_mocks.cpp`, `/repo/source/mock/h2_mocker.cpp:14-19`,
`/repo/source/stub/h2_stubs.cpp`.

Code of the user is the sequence of stubs and mocks it executes; failing assertions and exceptions only
change how far a case gets (`Verif.CaseRun`), not where things are kept.  How the code of a function is
patched is `Verif.Stub`; here a function has one of three codes.
-/
namespace H2.Lifetime

/-- What a call of a function executes: its own code, the function it is stubbed with, or a mocker. -/
inductive Code where
  | own
  | other (g : Nat)
  | mocker (m : Nat)
deriving DecidableEq

/-- What the code of the user does. -/
inductive Op where
  /-- `STUB(f, g)` -/
  | stub (f g : Nat)
  /-- `UNSTUB(f)` -/
  | unstub (f : Nat)
  /-- `MOCK(f, …)`, with its mocker: one object for each `MOCK` in the text,
  `/repo/source/mock/h2_mocker.hpp:77-86` -/
  | mock (m f : Nat)
deriving DecidableEq

/-- The objects that have lists of stubs and mocks: `h2_runner`, `h2_suite`, `h2_case`. -/
inductive Owner where
  | run
  | suite (s : Nat)
  | case_ (s c : Nat)
deriving DecidableEq

/-- `h2_stub`, `/repo/source/stub/h2_stubs.cpp:1-24`: the list it is in, the function, and the code saved
when it was made. -/
structure Entry where
  owner : Owner
  fn : Nat
  saved : Code
deriving DecidableEq

/-- What is observed of a case: what the functions execute when it begins, what they execute when its
code has ended, and the mockers whose expectations are checked then. -/
inductive Event where
  | begins (s c : Nat) (calls : Nat → Code)
  | ends (s c : Nat) (calls : Nat → Code) (checked : List Nat)

/-- `current_suite`, `current_case`, the code of every function, and the lists of all owners taken
together, the newest entries in front (`h2_list::push`). -/
structure State where
  suite : Option Nat := none
  case_ : Option (Nat × Nat) := none
  calls : Nat → Code := fun _ => .own
  stubs : List Entry := []
  mocks : List (Owner × Nat) := []
  trace : List Event := []

/-- `current_case`, else `current_suite`, else the runner: `/repo/source/core/h2_runner.cpp:180-200`. -/
def State.owner (st : State) : Owner :=
  match st.case_ with
  | some (s, c) => .case_ s c
  | none =>
    match st.suite with
    | some s => .suite s
    | none => .run

def setCode (calls : Nat → Code) (f : Nat) (code : Code) : Nat → Code :=
  fun g => if g = f then code else calls g

/-- `h2_stubs_get`, `/repo/source/stub/h2_stubs.cpp:26-32`. -/
def find (l : List Entry) (o : Owner) (f : Nat) : Option Entry :=
  l.find? fun e => e.owner = o ∧ e.fn = f

/-- `h2_stubs::add`, `/repo/source/stub/h2_stubs.cpp:34-43`. -/
def addStub (o : Owner) (f : Nat) (code : Code) (st : State) : State :=
  match find st.stubs o f with
  | some _ => { st with calls := setCode st.calls f code }
  | none => { st with calls := setCode st.calls f code, stubs := ⟨o, f, st.calls f⟩ :: st.stubs }

/-- `h2_stubs::clear` of one function, `/repo/source/stub/h2_stubs.cpp:45-52`. -/
def delStub (o : Owner) (f : Nat) (st : State) : State :=
  match find st.stubs o f with
  | some e => { st with calls := setCode st.calls f e.saved, stubs := st.stubs.filter fun x => !decide (x.owner = o ∧ x.fn = f) }
  | none => st

/-- `h2_mocker_base::mock`, `/repo/source/mock/h2_mocker.cpp:14-19`: the mocker leaves the list it is in
(`x.out()`) and is added to the present one (`/repo/source/mock/h2_mocks.cpp:1-7`). -/
def addMock (o : Owner) (m : Nat) (st : State) : State :=
  { st with mocks := (o, m) :: st.mocks.filter fun p => !decide (p.2 = m) }

/-- `h2_runner::stub`, `::unstub`, `::mock`: `/repo/source/core/h2_runner.cpp:180-200`. -/
def step (st : State) : Op → State
  | .stub f g => addStub st.owner f (.other g) st
  | .unstub f => delStub st.owner f st
  | .mock m f => addStub st.owner f (.mocker m) (addMock st.owner m st)

/-- A stretch of code of the user. -/
def exec (ops : List Op) (st : State) : State := ops.foldl step st

/-- `h2_stubs::clear(stubs)`, `/repo/source/stub/h2_stubs.cpp:54-60`: every stub of the list puts the
saved code back. -/
def clearStubs (o : Owner) (st : State) : State :=
  { st with
    calls := (st.stubs.filter fun e => e.owner = o).foldl (fun calls e => setCode calls e.fn e.saved) st.calls
    stubs := st.stubs.filter fun e => !decide (e.owner = o) }

/-- `h2_mocks::clear(mocks, …)`, `/repo/source/mock/h2_mocks.cpp:9-18`. -/
def clearMocks (o : Owner) (st : State) : State :=
  { st with mocks := st.mocks.filter fun p => !decide (p.1 = o) }

/-- The mockers in the list of an owner. -/
def mocksOf (o : Owner) (st : State) : List Nat := (st.mocks.filter fun p => p.1 = o).map Prod.snd

/-- A case: whether it is executed (not todo, filtered or ignored), and what its test function executes:
statements of the suite, `Setup`, the case, `Cleanup`. -/
structure Case where
  id : Nat
  runs : Bool := true
  code : List Op

/-- A suite: the statements outside all blocks, executed when it is enumerated, and its cases. -/
structure Suite where
  id : Nat
  plain : List Op := []
  cases : List Case

/-- A program: the global functions, the suites as enumerated, and as put in order for every round
(`shuffle`; the order is arbitrary here). -/
structure Prog where
  setup : List Op := []
  cleanup : List Op := []
  suiteSetup : List Op := []
  suiteCleanup : List Op := []
  caseSetup : List Op := []
  caseCleanup : List Op := []
  suites : List Suite
  rounds : List (List Suite)

def State.event (e : Event) (st : State) : State := { st with trace := st.trace ++ [e] }

/-- `/repo/source/core/h2_runner.cpp:153-163` with `h2_case::post_cleanup`, `/repo/source/core/h2_case.cpp:16-24`:
the stubs are undone, the mocks checked and reset. -/
def testCase (p : Prog) (s c : Nat) (code : List Op) (st : State) : State :=
  let st := exec code (exec p.caseSetup (st.event (.begins s c st.calls)))
  let st := st.event (.ends s c st.calls (mocksOf (.case_ s c) st))
  exec p.caseCleanup (clearMocks (.case_ s c) (clearStubs (.case_ s c) st))

/-- `/repo/source/core/h2_runner.cpp:147-163`. -/
def runCase (p : Prog) (s : Nat) (st : State) (c : Case) : State :=
  if c.runs then testCase p s c.id c.code { st with case_ := some (s, c.id) }
  else { st with case_ := some (s, c.id) }

/-- `h2_suite::cleanup`, `/repo/source/core/h2_suite.cpp:18-25`. -/
def suiteEnd (s : Nat) (st : State) : State := clearMocks (.suite s) (clearStubs (.suite s) st)

/-- `/repo/source/core/h2_runner.cpp:138-168`. -/
def runSuite (p : Prog) (st : State) (s : Suite) : State :=
  exec p.suiteCleanup (suiteEnd s.id (s.cases.foldl (runCase p s.id) (exec p.suiteSetup { st with suite := some s.id })))

/-- `h2_runner::enumerate`, `/repo/source/core/h2_runner.cpp:46-60`: `current_suite` is not set. -/
def enumerate (p : Prog) (st : State) (s : Suite) : State :=
  exec p.suiteCleanup (suiteEnd s.id (exec s.plain (exec p.suiteSetup st)))

/-- One round. -/
def round (p : Prog) (st : State) (l : List Suite) : State := l.foldl (runSuite p) st

/-- `h2_runner::main`, `/repo/source/core/h2_runner.cpp:130-178`. -/
def main (p : Prog) : State :=
  let st := p.rounds.foldl (round p) (p.suites.foldl (enumerate p) (exec p.setup {}))
  clearMocks .run (clearStubs .run (exec p.cleanup st))

end H2.Lifetime
