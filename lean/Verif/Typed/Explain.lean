import Verif.Message.Props
import Verif.Typed.Model
/-
Model of the message of a matcher defined by the user, from the matcher to the line printed.
-/
namespace H2.Typed
open H2.Layout (Word Line)

/-- The failure that `matches` of a user's matcher returns,
`/repo/source/matcher/h2_matcher_customize.hpp:7-11`: the message becomes its `user_explain`; `none` if
the value fits. -/
def userFail (negative result : Bool) (expection represent : Line) (message : Word) : Option Message.Fail :=
  if fit negative result then none else some { expection := expection, represent := represent, user := message }

/-- `h2_assert::stash` of `OK(m, a)`, `/repo/source/assert/h2_assert.cpp:36-53` (without `oppose`; one failure). -/
def stash (fail : Option Message.Fail) : Option Message.Fail :=
  fail.map fun f => { f with type := "OK2", op := [','] }

/-- `h2_assert::failing` after `OK(m, a) << streamed`, `/repo/source/assert/h2_assert.cpp:55-66`: it sets the
`user_explain` of the failure to what has been streamed. -/
def failing (fail : Option Message.Fail) (streamed eExpr aExpr place : Word) : Option Message.Fail :=
  fail.map fun f => { f with user := streamed, filine := some place, eExpr := eExpr, aExpr := aExpr }

/-- `OK(matcher(…), a) << streamed`: the failure that is reported. -/
def okUser (result : Bool) (expection represent : Line) (message streamed eExpr aExpr place : Word) : Option Message.Fail :=
  failing (stash (userFail false result expection represent message)) streamed eExpr aExpr place

/-- The failure of the `i`-th matcher of `AllOf` and the like, below that of the `AllOf`:
`/repo/source/matcher/h2_matches_logic.hpp:114-118`. -/
def nthUser (i : Nat) (result : Bool) (expection represent : Line) (message : Word) : Option Message.Fail :=
  (userFail false result expection represent message).map fun f => { f with seqno := (i : Int) }

end H2.Typed
