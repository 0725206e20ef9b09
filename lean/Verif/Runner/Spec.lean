import Verif.Runner.Model
/-
What a user of the runner relies on, stated on what is reported.
-/
namespace H2.Runner

/-- The six outcomes. -/
inductive Bucket where
  | passed | warning | failed | todo | filtered | ignored
deriving DecidableEq

/-- The outcome of a reported case. -/
def Event.is (e : Event) : Bucket → Bool
  | .failed => e.ran && e.case.failed
  | .warning => e.ran && !e.case.failed && e.case.warning
  | .passed => e.ran && !e.case.failed && !e.case.warning
  | .ignored => !e.ran && e.case.ignored
  | .filtered => !e.ran && !e.case.ignored && e.case.filtered
  | .todo => !e.ran && !e.case.ignored && !e.case.filtered && e.case.todo

/-- The count shown for an outcome. -/
def Stats.get (t : Stats) : Bucket → Int
  | .passed => t.passed
  | .warning => t.warning
  | .failed => t.failed
  | .todo => t.todo
  | .filtered => t.filtered
  | .ignored => t.ignored

def Stats.sum (t : Stats) : Int := t.passed + t.failed + t.warning + t.todo + t.filtered + t.ignored

/-- How many of the reported cases have an outcome. -/
def tally (b : Bucket) (es : List Event) : Int := (es.countP fun e => e.is b : Nat)

/-- The cases of all suites. -/
def allCases (ss : List Suite) : List Case := ss.flatMap (·.cases)

/-- The objects the program registered. -/
def ids (ss : List Suite) : List Nat := (allCases ss).map (·.id)

/-- The runner before the first round: nothing counted, nothing reported, no case failed yet. -/
structure Fresh (st : State) : Prop where
  stats : st.stats = {}
  log : st.log = []
  suiteLog : st.suiteLog = []
  ignored : ∀ c ∈ allCases st.suites, c.ignored = false

end H2.Runner
