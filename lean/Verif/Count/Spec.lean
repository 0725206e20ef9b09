import Verif.Count.Model
/-
What should be told: the checks made in a case, in a suite, and in the whole run.
-/
namespace H2.Count

/-- What a check counts: one, but a call of a mock one for each comparison of an argument
with what is expected, and a mock at the end one for each expectation. -/
def Check.weight : Check → Nat
  | .call k n => k * n
  | .mock n => n
  | _ => 1

def weight (l : List Check) : Nat := (l.map Check.weight).sum

/-- The checks of a case in a round. -/
def Prog.own (p : Prog) (r c : Nat) : Nat :=
  if p.runs r c then weight (p.caseSetup r c ++ p.body r c ++ p.caseCleanup r c) else 0

/-- The checks of a suite in a round, with its cases. -/
def Prog.whole (p : Prog) (r : Nat) (u : Nat × List Nat) : Nat :=
  weight (p.suiteSetup r u.1) + (u.2.map (p.own r)).sum + weight (p.suiteCleanup r u.1)

/-- The rounds with their numbers. -/
def numbered (rounds : List (List (Nat × List Nat))) : List (Nat × Nat × List Nat) :=
  rounds.zipIdx.flatMap fun r => r.1.map fun u => (r.2, u)

def asCase : Told → Option (Nat × Nat × Nat)
  | .case r c n => some (r, c, n)
  | _ => none

def asSuite : Told → Option (Nat × Nat × Nat)
  | .suite r u n => some (r, u, n)
  | _ => none

/-- Setups and cleanups of suites make no checks. -/
def Prog.Silent (p : Prog) : Prop := ∀ r u, weight (p.suiteSetup r u) = 0 ∧ weight (p.suiteCleanup r u) = 0

end H2.Count
