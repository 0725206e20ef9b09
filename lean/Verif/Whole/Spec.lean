import Verif.Whole.Model
import Verif.Cli.Spec
import Verif.Filter.Spec
import Verif.Console.Spec
import Verif.Junit.Spec
import Verif.Listing.Spec
/-
What a user of a test program relies on from the command line to the exit status.
-/
namespace H2.Whole
open H2.Cli (Item Writes Good Stands kPattern kList Given FirstBare given last)
open H2.Filter (Category Selects)

/-! ### The program and the command line -/

/-- All the cases. -/
def Program.ids (p : Program) : List Nat := p.suites.flatMap fun s => s.cases.map (·.id)

/-- Cases are different objects, and so are suites. -/
structure Distinct (p : Program) : Prop where
  cases : p.ids.Nodup
  suites : (p.suites.map (·.id)).Nodup

/-- A command line writes the options `is`, all of which are right, and it is not too long. -/
structure Line (w : World) (args : List Str) (is : List Item) : Prop where
  writes : Writes [] args is
  good : ∀ i ∈ is, Good w.path i
  fit : (args.map fun a => a.length + 1).sum < 256

/-- `-l` is given. -/
def Lists (is : List Item) : Prop := ∃ ws, .words 'l' ws ∈ is

/-- Not `-l`. -/
def notList : Item → Bool
  | .words 'l' _ => false
  | _ => true

/-- The other options. -/
def withoutList (is : List Item) : List Item := is.filter notList

/-- The name of a kind of pattern in `key=pattern`. -/
def keyName : Category → Str
  | .file => "file".toList
  | .suite => "suite".toList
  | .case => "case".toList
  | .tag => "tags".toList
  | .any => []

/-- `q` is a pattern of the kind `k` given to the option `-i` or `-e`. -/
def Pattern (letter : Char) (is : List Item) (q : Str) (k : Category) : Prop :=
  (k = .any ∧ q ∈ given letter is ∧ '=' ∉ q) ∨
  (k ≠ .any ∧ ∃ key, key ++ '=' :: q ∈ given letter is ∧ '=' ∉ key ∧ Stands kPattern key (keyName k))

/-- The command line asks for a case `c` of a suite `s`: there is no `-i`, or one that selects it, and no `-e` selects it. -/
def Asked (Wild : Str → Str → Prop) (is : List Item) (s c : Filter.Test) : Prop :=
  ((∀ q k, ¬ Pattern 'i' is q k) ∨ ∃ q k, Pattern 'i' is q k ∧ Selects Wild s (some c) q k) ∧
  ∀ q k, Pattern 'e' is q k → ¬ Selects Wild s (some c) q k

/-- The JUnit report is asked for, into a file of this name: the last `-o` decides. -/
def JunitTo (w : World) (is : List Item) (file : Str) : Prop :=
  file ≠ [] ∧ ∃ a b, (∀ x, .word 'o' x ∉ b) ∧
    (is = a ++ .word 'o' (some file) :: b ∨ (is = a ++ .word 'o' none :: b ∧ file = w.path ++ ".junit.xml".toList))

/-! ### What happened -/

/-- The case was run. -/
def Entry.ran (e : Entry) : Bool := e.run.isSome

/-- The case was run and failed. -/
def Entry.failed (e : Entry) : Bool :=
  match e.run with
  | some (.ended st) => st.failed
  | _ => false

/-- The case was run, and did not fail, but gave a warning. -/
def Entry.warned (e : Entry) : Bool :=
  match e.run with
  | some (.ended st) => !st.failed && st.warning
  | _ => false

/-- The messages of the case. -/
def Entry.messages (e : Entry) : List CaseRun.Msg :=
  match e.run with
  | some (.ended st) => st.fails
  | _ => []

/-- How many failed. -/
def failures (h : List Entry) : Nat := h.countP Entry.failed

/-- What is written about the cases: name, name of the suite, place. -/
structure Names where
  name : Nat → Str
  suite : Nat → Str
  place : Nat → Str

/-- The names are those of the program: without the tags in brackets, and the place without directories. -/
def Names.of (n : Names) (p : Program) : Prop :=
  ∀ s ∈ p.suites, ∀ c ∈ s.cases, n.name c.id = c.test.name ∧ n.suite c.id = s.test.name ∧ n.place c.id = Misc.basefile c.filine

/-- Names that can stand in an XML attribute as they are. -/
def PlainNames (p : Program) : Prop :=
  ∀ s ∈ p.suites, Junit.Plain s.test.name ∧ ∀ c ∈ s.cases, Junit.Plain c.test.name ∧ Junit.Plain c.filine

/-! ### What is read -/

/-- The lines on the console that say `Failed`. -/
def failedLines (l : List Console.Item) : List (Str × Str × Str) :=
  l.filterMap fun i => match i with
    | .case status name suite place _ => if status = "Failed ".toList then some (name, suite, place) else none
    | _ => none

/-- The messages on the console. -/
def shown (l : List Console.Item) : List Str :=
  l.filterMap fun i => match i with
    | .fail t => some t
    | _ => none

/-- The first word of the last line on the console. -/
def verdict (l : List Console.Item) : Option Str := (Console.lastLine l).bind fun t => (Console.words t).head?

/-- The names of the cases that `-l` lists, without those to do. -/
def listedNames (l : List Listing.Line) : List Str := (Listing.caseLines l).filterMap fun x => if x.1 then none else some x.2.2.2

end H2.Whole
