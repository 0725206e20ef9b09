import Verif.Lifetime.Model
/-
How long stubs and mocks should last: those a case makes until the case ends, those made before all
cases until the end of the run.
-/
namespace H2.Lifetime.Spec

open H2.Lifetime

/-- The function a statement is about. -/
def about : Op → Nat
  | .stub f _ => f
  | .unstub f => f
  | .mock _ f => f

/-- What a call of `f` executes after the statements `ops`, if it was `base` before: what the last
statement about `f` says, and as before if there is none or it was undone. -/
def reaches (base : Nat → Code) (ops : List Op) (f : Nat) : Code :=
  match ops.reverse.find? (fun op => about op = f) with
  | some (.stub _ g) => .other g
  | some (.mock m _) => .mocker m
  | _ => base f

/-- The mocker a statement names. -/
def mockerOf : Op → Option Nat
  | .mock m _ => some m
  | _ => none

/-- The mockers used by the statements, each once, the last used first. -/
def mockers (ops : List Op) : List Nat := (ops.filterMap mockerOf).reverse.eraseDups

/-- The statements executed before the first case. -/
def before (p : Prog) : List Op := p.setup ++ p.suites.flatMap Suite.plain

/-- What a case should see if the functions execute `base` when it begins. -/
def seenFrom (p : Prog) (base : Nat → Code) (s : Nat) (c : Case) : List Event :=
  if c.runs then
    [.begins s c.id base, .ends s c.id (reaches base (p.caseSetup ++ c.code)) (mockers (p.caseSetup ++ c.code))]
  else []

/-- What a case should see: stubs and mocks made before all cases, and its own. -/
def seen (p : Prog) (s : Suite) (c : Case) : List Event :=
  seenFrom p (reaches (fun _ => .own) (before p)) s.id c

/-- What all cases should see, in the order they are run. -/
def history (p : Prog) : List Event :=
  p.rounds.flatMap fun l => l.flatMap fun s => s.cases.flatMap (seen p s)

/-- The code that runs between the cases neither stubs nor mocks. -/
def Between (p : Prog) : Prop := p.suiteSetup = [] ∧ p.suiteCleanup = [] ∧ p.caseCleanup = []

end H2.Lifetime.Spec
