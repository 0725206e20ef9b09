/-
Model of how failures are kept and walked: `/repo/source/report/h2_failure.cpp:1-28`,
`h2_assert::stash` (`/repo/source/assert/h2_assert.cpp:36-53`), `h2_mocker_base::check`
(`/repo/source/mock/h2_mocker.cpp:21-34`) and `h2_case::failing` (`/repo/source/core/h2_case.cpp:26-35`).

Every `h2_fail` is reached through exactly one pointer (a variable, `child_next` or `subling_next` of another
one), so that a pointer to a failure is modelled by the value of everything that is reached through it.
-/
namespace H2.FailTree

/-- `h2_fail*`: null, or what the failure says, `child_next` and `subling_next`
(`/repo/source/report/h2_failure.hpp:1-2`). -/
inductive Chain (α : Type) where
  | null
  | fail (says : α) (child subling : Chain α)
deriving DecidableEq

variable {α : Type}

/-- `while (*pp) pp = &(*pp)->subling_next; *pp = fail`, `/repo/source/report/h2_failure.cpp:1-8`. -/
def appendSubling : Chain α → Chain α → Chain α
  | .null, f => f
  | .fail a c s, f => .fail a c (appendSubling s f)

/-- The same along `child_next`, `/repo/source/report/h2_failure.cpp:9`. -/
def appendChild : Chain α → Chain α → Chain α
  | .null, f => f
  | .fail a c s, f => .fail a (appendChild c f) s

/-- `h2_fail::foreach`, `/repo/source/report/h2_failure.cpp:23-28`: the calls of the callback, each with its
two numbers. -/
def foreach : Chain α → Nat → Nat → List (α × Nat × Nat)
  | .null, _, _ => []
  | .fail a c s, si, ci => (a, si, ci) :: (foreach c 0 (ci + 1) ++ foreach s (si + 1) ci)

/-- `h2_fail::~h2_fail`, `/repo/source/report/h2_failure.cpp:11-15`: the failures in the order in which they
are gone. -/
def destroy : Chain α → List α
  | .null => []
  | .fail a c s => destroy c ++ destroy s ++ [a]

/-- `h2_assert::stash`, `/repo/source/assert/h2_assert.cpp:36-48`: `verdict` is what the matcher returned,
`opposite` the failure made when `KO` meets a matcher that is satisfied, `wrapper` the failure that is put
above several. -/
def stash (oppose : Bool) (verdict : Chain α) (opposite wrapper : α) : Chain α :=
  let fail := if oppose then (match verdict with
    | .fail .. => .null
    | .null => .fail opposite .null .null) else verdict
  match fail with
  | .fail _ _ (.fail ..) => appendChild (.fail wrapper .null .null) fail
  | _ => fail

/-- `h2_mocker_base::check`, `/repo/source/mock/h2_mocker.cpp:21-34`, for the verdicts of the expectations. -/
def mockerCheck (signature : α) (verdicts : List (Chain α)) : Chain α :=
  match verdicts.foldl appendSubling .null with
  | .null => .null
  | fails => appendChild (.fail signature .null .null) fails

/-- `h2_mocks::clear(mocks, check)`, `/repo/source/mock/h2_mocks.cpp:8-16`, for the verdicts of the mocks. -/
def mocksCheck (verdicts : List (Chain α)) : Chain α :=
  verdicts.foldl appendSubling .null

/-- What `h2_case` keeps, `/repo/source/core/h2_case.hpp:2-5`. -/
structure Case (α : Type) where
  fails : Chain α := .null
  failed : Bool := false
  warning : Bool := false
  /-- the failures that have been deleted without being shown -/
  dropped : List α := []

/-- `h2_case::failing`, `/repo/source/core/h2_case.cpp:26-35`, without the jump. -/
def failing (isWarning : α → Bool) (c : Case α) (f : Chain α) (append : Bool) : Case α :=
  match f with
  | .null => c
  | .fail a _ _ =>
    let c := if isWarning a then { c with warning := true } else { c with failed := true }
    match c.fails, append with
    | .fail .., false => { c with dropped := c.dropped ++ destroy f }
    | _, _ => { c with fails := appendSubling c.fails f }

/-- A case that is told of failures one after another. -/
def told (isWarning : α → Bool) (c : Case α) (l : List (Chain α × Bool)) : Case α :=
  l.foldl (fun c x => failing isWarning c x.1 x.2) c

/-- The blanks before a line: `line.indent(ci * 2 + 1)`, `/repo/source/report/h2_failure.cpp:35`, `:119`. -/
def margin (ci : Nat) : List Char := List.replicate (ci * 2 + 1) ' '

/-- `h2_report_console::on_case_endup`, `/repo/source/report/h2_report_console.cpp:137`: the lines for the
failures of a case, where `text` is the rest of the line. -/
def printed (text : α → List Char) (c : Case α) : List (List Char) :=
  (foreach c.fails 0 0).map fun x => margin x.2.2 ++ text x.1

end H2.FailTree
