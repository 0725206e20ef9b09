import Verif.Runner.Spec
import Verif.Console.Model
/-
What a user reads on the console.
-/
namespace H2.Console
open H2.Runner

/-- The verbosity at which cases of an outcome are named: 0 nothing, 1 failed ones, 2 those with warnings too, 3 all that ran, 4 as 2, 5
and more all. -/
def named (v : Int) : Bucket → Bool
  | .failed => decide (1 ≤ v)
  | .warning => decide (2 ≤ v)
  | .passed => v == 3 || decide (5 ≤ v)
  | .todo => decide (5 ≤ v)
  | .filtered => false
  | .ignored => false

/-- The verbosity at which the failures of a case are shown. -/
def explained (v : Int) : Bucket → Bool
  | .failed => decide (4 ≤ v)
  | .warning => decide (5 ≤ v)
  | _ => false

/-- A case that passed is followed by what it took, if it took anything. -/
def measured (v : Int) (i : Info) : Bucket → Bool
  | .passed => decide (5 ≤ v ∧ ¬ (i.asserts = 0 ∧ i.footprint = 0 ∧ i.timecost = 0))
  | _ => false

/-- How an outcome is called; `TODO` is one written outside of a suite. -/
def called (b : Bucket) (bare : Bool) : Str :=
  match b with
  | .failed => "Failed ".toList
  | .warning => "Warning".toList
  | .passed => "Passed ".toList
  | .todo => if bare then "TODO   ".toList else "Todo   ".toList
  | _ => []

/-- The outcome of an event. -/
def outcome (e : Event) : Option Bucket :=
  [Bucket.passed, .warning, .failed, .todo, .filtered, .ignored].find? fun b => e.is b

/-- What matters of the lines printed: cases by status, name, suite and place, what failures print, and what is
told about cases that passed. -/
inductive Line where
  | case (status name suite place : Str)
  | fail (text : Str)
  | detail (asserts footprint timecost : Nat)
deriving DecidableEq

def lines (out : List Item) : List Line :=
  out.filterMap fun i => match i with
    | .case status name suite place _ => some (.case status name suite place)
    | .fail t => some (.fail t)
    | .detail a f t => some (.detail a f t)
    | _ => none

/-- What a user expects to read about a case of a suite. -/
def expected (v : Int) (suite : Str) (i : Info) (e : Event) : List Line :=
  match outcome e with
  | none => []
  | some b =>
    (if named v b then [.case (called b i.absent) e.case.name suite i.filine] else []) ++
    (if explained v b then i.fails.map .fail else []) ++
    (if measured v i b then [.detail i.asserts i.footprint i.timecost] else [])

/-- `suite` gives the name of the suite of each case, by the case's identity. -/
def SuiteNames (suite : Nat → Str) (ss : List Suite) : Prop := ∀ s ∈ ss, ∀ c ∈ s.cases, suite c.id = s.name

/-- The last line. -/
def lastLine (out : List Item) : Option Str :=
  match out.getLast? with
  | some (.summary t) => some t
  | _ => none

/-- The words of a text: what stands between blanks, commas and round brackets; `read` is read already. -/
def wordsFrom (read : Str) : Str → List Str
  | [] => if read = [] then [] else [read]
  | c :: r =>
    if c = ' ' ∨ c = ',' ∨ c = '(' ∨ c = ')' then (if read = [] then [] else [read]) ++ wordsFrom [] r
    else wordsFrom (read ++ [c]) r

def words (text : Str) : List Str := wordsFrom [] text

/-- What stands before the first occurrence of a word. -/
def before (w : String) : List Str → Option Str
  | a :: b :: r => if b = w.toList then some a else before w (b :: r)
  | _ => none

/-- The word for an outcome in the last line. -/
def said : Bucket → String
  | .passed => "passed"
  | .warning => "warning"
  | .failed => "failed"
  | .todo => "todo"
  | .filtered => "filtered"
  | .ignored => "ignored"

end H2.Console
