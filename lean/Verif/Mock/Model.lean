/-
Model of mocked functions: the expectation list of one mocker, what a call does to it and what is
reported at the end of the case (`/repo/source/mock`).

An argument is a value of an arbitrary type `V`, the reaction given by `Return` or by the body of
`MOCKS` is a value of an arbitrary type `R`.  The up to 20 argument matchers of one expectation are
a function from argument positions to predicates; positions without a matcher accept everything
(the default matcher `{}`).  Whether a matcher accepts is modelled in `Verif.Matcher`.
-/
namespace H2.Mock

/-- `h2_checkin`, `/repo/source/mock/h2_checkin.hpp:1-24`; `call`, `least`, `most` are `int`. -/
structure Checkin where
  call : Int := 0
  least : Int
  most : Int

/-- `insufficient`, `/repo/source/mock/h2_checkin.hpp:8`. -/
def Checkin.insufficient (k : Checkin) : Bool := k.call < k.least
/-- `is_satisfied`, `/repo/source/mock/h2_checkin.hpp:9`. -/
def Checkin.isSatisfied (k : Checkin) : Bool := k.least ≤ k.call && k.call ≤ k.most
/-- `is_saturated`, `/repo/source/mock/h2_checkin.hpp:10`. -/
def Checkin.isSaturated (k : Checkin) : Bool := k.call == k.most

/-- Largest `int`. -/
def intMax : Int := 0x7fffffff

/-- `h2_checkin::Once` … `Between`, `/repo/source/mock/h2_checkin.hpp:17-23`. -/
def Checkin.once : Checkin := { least := 1, most := 1 }
def Checkin.twice : Checkin := { least := 2, most := 2 }
def Checkin.times (n : Int) : Checkin := { least := n, most := n }
def Checkin.any : Checkin := { least := 0, most := intMax }
def Checkin.atleast (n : Int) : Checkin := { least := n, most := intMax }
def Checkin.atmost (n : Int) : Checkin := { least := 0, most := n }
def Checkin.between (l r : Int) : Checkin := { least := l, most := r }

/-- `h2_checkin::check`, `/repo/source/mock/h2_checkin.cpp:1-7`: whether a failure is produced. -/
def Checkin.checkFails (k : Checkin) : Bool := !(k.isSatisfied || k.isSaturated)

/-- One row of `checkin_array`, `matcher_array` and `routine_array`
(`/repo/source/mock/h2_mocker.hpp:12,33-34`); the code pushes to the three together.
`routine = none` is an `h2_routine` that is false, `/repo/source/mock/h2_routine.hpp:29-32`. -/
structure Exp (V R : Type) where
  checkin : Checkin
  matchers : Nat → V → Bool
  routine : Option R := none

/-- `tuple_matches`, `/repo/source/mock/h2_tuple.hpp:3-19`: the positions of the arguments whose
matcher rejects them, each a failure of its own. -/
def rejected (ms : Nat → V → Bool) (args : List V) (k : Nat := 0) : List Nat :=
  match args with
  | [] => []
  | a :: args => if ms k a then rejected ms args (k + 1) else k :: rejected ms args (k + 1)

/-- `h2_mocker_base` and `h2_mocker`, `/repo/source/mock/h2_mocker.hpp:1-36`. -/
structure Mocker (V R : Type) where
  exps : List (Exp V R) := []
  index : Nat := 0
  greed : Bool := true

/-- The failures a call reports, in order: expectation number and rejected argument positions
(`failing(fails, i)`, `/repo/source/mock/h2_mocker.hpp:64`). -/
abbrev Wrong : Type := List (Nat × List Nat)

/-- The loop of `matches`, `/repo/source/mock/h2_mocker.hpp:56-74`, over the expectations from `i`
on; `off` is `checkin_offset` (`none` for -1).  Whenever the code sets `checkin_offset` it sets
`checkin_index` to the same value. -/
def scan (greed : Bool) (args : List V) : List (Exp V R) → Nat → Option Nat → Option Nat × Wrong
  | [], _, off => (off, [])
  | e :: es, i, off =>
    if rejected e.matchers args ≠ [] then
      if off.isSome then (off, [])
      else if e.checkin.isSatisfied then scan greed args es (i + 1) off
      else
        let r := scan greed args es (i + 1) off
        (r.1, (i, rejected e.matchers args) :: r.2)
    else if e.checkin.isSaturated then scan greed args es (i + 1) (some i)
    else if e.checkin.insufficient then (some i, [])
    else if greed then (some i, [])
    else scan greed args es (i + 1) (some i)

/-- `checkin_array[offset].call += 1`, `/repo/source/mock/h2_mocker.hpp:75`; `none` is signed
overflow. -/
def charge : List (Exp V R) → Nat → Option (List (Exp V R))
  | [], _ => none
  | e :: es, 0 =>
    if e.checkin.call < intMax then some ({ e with checkin := { e.checkin with call := e.checkin.call + 1 } } :: es)
    else none
  | e :: es, i + 1 => (charge es i).map (e :: ·)

/-- What a call to the mocked function did. -/
structure Outcome where
  /-- Number of the expectation charged; `none`: `unexpectedly called` is reported. -/
  charged : Option Nat
  /-- Argument failures reported on the way. -/
  wrong : Wrong

/-- `matches`, `/repo/source/mock/h2_mocker.hpp:52-83`. -/
def Mocker.call (m : Mocker V R) (args : List V) : Option (Mocker V R × Outcome) :=
  let r := scan m.greed args (m.exps.drop m.index) m.index none
  match r.1 with
  | none => some (m, ⟨none, r.2⟩)
  | some j =>
    match charge m.exps j with
    | none => none
    | some es => some ({ m with exps := es, index := j }, ⟨some j, r.2⟩)

/-- What the caller of a mocked function gets. -/
inductive Reply (R : Type) where
  /-- The mocked function itself is called (its stub is lifted for the duration). -/
  | original
  /-- The reaction of the expectation. -/
  | routine (r : R)

/-- `function_stub`, `/repo/source/mock/h2_mocker.hpp:37-44`, after `matches`. -/
def Mocker.reply (m : Mocker V R) (o : Outcome) : Reply R :=
  match o.charged with
  | none => .original
  | some j =>
    match m.exps[j]? with
    | none => .original
    | some e =>
      match e.routine with
      | none => .original
      | some r => .routine r

/-- A sequence of calls: the final mocker and the outcomes. -/
def Mocker.calls (m : Mocker V R) : List (List V) → Option (Mocker V R × List Outcome)
  | [] => some (m, [])
  | a :: as =>
    match m.call a with
    | none => none
    | some (m', o) =>
      match m'.calls as with
      | none => none
      | some (m'', os) => some (m'', o :: os)

/-- `h2_mocker_base::check`, `/repo/source/mock/h2_mocker.cpp:21-34`: the numbers of the
expectations reported at the end of the case. -/
def checkFrom : List (Exp V R) → Nat → List Nat
  | [], _ => []
  | e :: es, i => if e.checkin.checkFails then i :: checkFrom es (i + 1) else checkFrom es (i + 1)

def Mocker.check (m : Mocker V R) : List Nat := checkFrom m.exps 0

/-! ### Building expectations -/

/-- `reset`, `/repo/source/mock/h2_mocker.hpp:85-92`. -/
def Mocker.reset (_ : Mocker V R) : Mocker V R := {}

/-- `Once` … `Between`, `/repo/source/mock/h2_mocker.hpp:132-186`: push one row. -/
def Mocker.expect (m : Mocker V R) (k : Checkin) (ms : Nat → V → Bool) : Mocker V R :=
  { m with exps := m.exps ++ [{ checkin := k, matchers := ms }] }

/-- `if (checkin_array.empty()) Any();` -/
def Mocker.orAny (m : Mocker V R) : Mocker V R :=
  if m.exps.isEmpty then m.expect .any (fun _ _ => true) else m

/-- Change the last row. -/
def onLast (f : α → α) : List α → List α
  | [] => []
  | [e] => [f e]
  | e :: es => e :: onLast f es

/-- `With`, `/repo/source/mock/h2_mocker.hpp:188-193`. -/
def Mocker.withArgs (m : Mocker V R) (ms : Nat → V → Bool) : Mocker V R :=
  { m.orAny with exps := onLast (fun e => { e with matchers := ms }) m.orAny.exps }

/-- `Th0` … `Th19`, `/repo/source/mock/h2_mocker.hpp:198-205`. -/
def Mocker.th (m : Mocker V R) (i : Nat) (p : V → Bool) : Mocker V R :=
  let es := onLast (fun e => { e with matchers := fun k => if k = i then p else e.matchers k }) m.orAny.exps
  { m.orAny with exps := es }

/-- `Return`, `/repo/source/mock/h2_mocker.hpp:208-214`: `pop_back` then `push_back`. -/
def Mocker.returns (m : Mocker V R) (r : Option R) : Mocker V R :=
  { m.orAny with exps := onLast (fun e => { e with routine := r }) m.orAny.exps }

/-- `operator=` of `MOCKS`, `/repo/source/mock/h2_mocker.hpp:216-228`. -/
def Mocker.body (m : Mocker V R) (r : R) : Mocker V R :=
  let es := m.orAny.exps.map (fun e => if e.routine.isNone then { e with routine := some r } else e)
  { m.orAny with exps := es }

/-- `greed`, `/repo/source/mock/h2_mocker.hpp:123-127`. -/
def Mocker.setGreed (m : Mocker V R) (g : Bool) : Mocker V R := { m with greed := g }

end H2.Mock
