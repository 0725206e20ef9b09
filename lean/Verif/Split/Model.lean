import Verif.Filter.Model
/-
Model of how the text of `OK(left op right)` is taken apart: `__find_compare` and `__split_compare`,
`/repo/source/assert/h2_assert.cpp:1-34`, and their use in `h2_assert::failing`, `:55-67`.
-/
namespace H2.Split
open H2.Filter (isspace stripLeft)

/-- The first loop of `__find_compare`, `/repo/source/assert/h2_assert.cpp:4-8`: an operator of two
characters.  The result is `p - expression`. -/
def findTwo (op : List Char) : Bool → List Char → Option Nat
  | _, [] => none
  | quote, c :: r =>
    let quote := if c = '"' then !quote else quote
    if !quote && op.isPrefixOf (c :: r) then some 0 else (findTwo op quote r).map (· + 1)

/-- The second loop, `/repo/source/assert/h2_assert.cpp:11-16`.  `stacks` is never negative when it is
looked at. -/
def findGreater : Bool → Nat → List Char → Option Nat
  | _, _, [] => none
  | quote, stacks, c :: r =>
    let quote := if c = '"' then !quote else quote
    let stacks := if !quote && c = '<' then stacks + 1 else stacks
    if !quote && c = '>' then
      if stacks = 0 then some 0 else (findGreater quote (stacks - 1) r).map (· + 1)
    else (findGreater quote stacks r).map (· + 1)

/-- The third loop, `/repo/source/assert/h2_assert.cpp:17-22`, which goes from the end of the text to its
beginning: the argument is the text backwards, the result the number of characters behind `p`.  The
terminating zero the loop begins with is no character it looks for. -/
def findLess : Bool → Nat → List Char → Option Nat
  | _, _, [] => none
  | quote, stacks, c :: r =>
    let quote := if c = '"' then !quote else quote
    let stacks := if !quote && c = '>' then stacks + 1 else stacks
    if !quote && c = '<' then
      if stacks = 0 then some 0 else (findLess quote (stacks - 1) r).map (· + 1)
    else (findLess quote stacks r).map (· + 1)

/-- `__find_compare`, `/repo/source/assert/h2_assert.cpp:1-25`. -/
def findCompare (expression op : List Char) : Option Nat :=
  if op.length = 2 then findTwo op false expression
  else match op with
    | '>' :: _ => findGreater false 0 expression
    | '<' :: _ => (findLess false 0 expression.reverse).map fun k => expression.length - 1 - k
    | _ => none

/-- `strip_right`, `/repo/source/utils/h2_misc.cpp:45-50`, for the text before `right`. -/
def stripRight (s : List Char) : List Char := (s.reverse.dropWhile isspace).reverse

/-- `h2_assert::failing`, `/repo/source/assert/h2_assert.cpp:62-64`, for `OK(expression)` with the operator
`op` (`/repo/source/assert/h2_assert.hpp:53-65`, `:88-89`): the texts of the expected and of the actual
side, by `__split_compare`, `/repo/source/assert/h2_assert.cpp:27-34`. -/
def sides (expression op : List Char) : List Char × List Char :=
  match findCompare expression op with
  | some p => (stripRight (expression.take p), stripLeft (expression.drop (p + op.length)))
  | none => ([], expression)

end H2.Split
