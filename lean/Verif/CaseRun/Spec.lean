import Verif.CaseRun.Model
/-
Specification of the run of a case, in terms of what is observed (the event list).
-/
namespace H2.CaseRun

/-- A failure that is no warning is raised by an assertion (or a mock call, a free …). -/
def Event.fails : Event → Prop
  | .step _ (.fail _) => True
  | _ => False

/-- A warning is raised: by an assertion after `Warning`, or by any exception under `-W exception`. -/
def Event.warns (o : Opts) : Event → Prop
  | .step _ (.warn _) => True
  | .step _ (.caught _) => o.warnException = true
  | .step _ (.throw _) => o.warnException = true
  | _ => False

/-- The message that belongs to an event. -/
def Event.message (o : Opts) : Event → Option Msg
  | .step _ (.fail m) => some (.assert m)
  | .step _ (.warn m) => some (.assert m)
  | .step _ (.caught m) => if o.warnException then some (.exception m) else none
  | .step _ (.throw m) => if o.warnException then some (.exception m) else none
  | _ => none

/-- The block an event belongs to. -/
def Event.block? : Event → Option Block
  | .enter b => some b
  | .step b _ => some b
  | _ => none

/-- An event that lets an exception out of the test function of the suite: an exception that leaves
`Setup`, `Cleanup`, or the case when the suite has no `Cleanup`. -/
def Escapes (t : Test) (m : Nat) (e : Event) : Prop :=
  e = .step .setup (.throw m) ∨ e = .step .cleanup (.throw m) ∨ (e = .step .body (.throw m) ∧ t.cleanup.isNone)

/-- Late messages are recorded under `-c`, or when none has been recorded. -/
def late (o : Opts) (old new : List Msg) : List Msg :=
  if o.continueAssert = true ∨ old = [] then old ++ new else old

/-- Steps that end the block they are in: a failing assertion unless `-c` is given; an exception. -/
def stops (o : Opts) : Step → Bool
  | .fail _ => !o.continueAssert
  | .throw _ => true
  | _ => false

/-- The steps up to, and with, the first one that satisfies `p`. -/
def cut (p : Step → Bool) : List Step → List Step
  | [] => []
  | s :: r => if p s then [s] else s :: cut p r

/-- A block is entered and these steps are executed. -/
def ran (b : Block) (l : List Step) : List Event := .enter b :: l.map (.step b)

end H2.CaseRun
