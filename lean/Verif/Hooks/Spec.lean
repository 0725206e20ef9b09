import Verif.Hooks.Model
/-
When global functions are to be called.
-/
namespace H2.Hooks.Spec
open H2.Hooks

/-- The global functions of a program, each kind in the order of the text. -/
structure Globals where
  setups : List Nat := []
  cleanups : List Nat := []
  suiteSetups : List Nat := []
  suiteCleanups : List Nat := []
  caseSetups : List Nat := []
  caseCleanups : List Nat := []

/-- Something with the functions before and behind it. -/
def around (before : List Event) (x : List Event) (behind : List Event) : List Event := before ++ x ++ behind

def Globals.case_ (g : Globals) (s c : Nat) : List Event :=
  around (g.caseSetups.map .caseSetup) [.test s c] (g.caseCleanups.map .caseCleanup)

def Globals.suite (g : Globals) (x : List Event) : List Event :=
  around (g.suiteSetups.map .suiteSetup) x (g.suiteCleanups.map .suiteCleanup)

/-- A suite in a round: its cases that are executed. -/
def Globals.cases (g : Globals) (s : Nat × List (Nat × Bool)) : List Event :=
  (s.2.filter (·.2)).flatMap fun c => g.case_ s.1 c.1

/-- The whole run: the suites are collected, and then come the rounds. -/
def Globals.run (g : Globals) (suites : List Nat) (rounds : List (List (Nat × List (Nat × Bool)))) : List Event :=
  around (g.setups.map .setup)
    (suites.flatMap (fun s => g.suite [.collect s]) ++ rounds.flatten.flatMap fun s => g.suite (g.cases s))
    (g.cleanups.map .cleanup)

/-- The functions a runner can hold. -/
def Globals.fit (g : Globals) : Prop :=
  g.setups.length < 1024 ∧ g.cleanups.length < 1024 ∧ g.suiteSetups.length < 1024 ∧ g.suiteCleanups.length < 1024 ∧ g.caseSetups.length < 1024 ∧
  g.caseCleanups.length < 1024

/-- The arrays after the functions have been registered. -/
def Globals.arrays (g : Globals) : Arrays :=
  ⟨register g.setups, register g.cleanups, register g.suiteSetups, register g.suiteCleanups, register g.caseSetups, register g.caseCleanups⟩

end H2.Hooks.Spec
