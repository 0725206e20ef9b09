import Verif.Matcher.Model
/-
Model of the numeric matchers: Range, Eq with margins, integer Eq, the comparison forms of
OK, MedianOf, and the array view container matchers take of a raw pointer.
Doubles are exact rationals here; rounding is not modelled.
-/
namespace H2.Matcher

/-- `std::fabs`, used in `/repo/source/matcher/h2_matches_range.hpp:20`. -/
def rabs (q : Rat) : Rat := if q < 0 then -q else q

/-- `h2_approximate::A`, `/repo/source/matcher/h2_matches_equation.hpp:93`. -/
def apA : Nat := 100000000000000
/-- `h2_approximate::B`, `/repo/source/matcher/h2_matches_equation.hpp:94`. -/
def apB : Nat := 1000000000000000000

/-- `absolute_margin`, `/repo/source/matcher/h2_matches_equation.hpp:106-110`. -/
def absoluteMargin (epsilon : Rat) : Rat :=
  if epsilon = 0 then 1 / 100000 else (epsilon - (apB : Nat)) / (apA : Nat)

/-- The loop of `Range`, `/repo/source/matcher/h2_matches_range.hpp:18-23`, run for at most
`fuel` rounds; `none` means it has not finished. -/
def rangeLoop (a stop step : Rat) : Nat → Rat → Option Bool
  | 0, _ => none
  | fuel + 1, i =>
    if i < stop then
      if rabs (a - i) ≤ rabs (absoluteMargin 0) then some true
      else rangeLoop a stop step fuel (i + step)
    else some false

/-- How the arguments of `Range(start[, end[, step]])` are read,
`/repo/source/matcher/h2_matches_range.hpp:15-17`; an omitted argument is the sentinel value,
here `none`.  (An explicit `-0.15048889911` would be taken for omitted.) -/
def rangeArgs (start : Rat) (stop step : Option Rat) : Rat × Rat × Rat :=
  let _step := step.getD 1
  match stop with
  | none => (0, start, _step)
  | some e => (start, e, _step)

/-- `Range(...)` accepts `a`: the loop ends having found a value. -/
def rangeAccepts (start : Rat) (stop step : Option Rat) (a : Rat) : Prop :=
  ∃ fuel, rangeLoop a (rangeArgs start stop step).2.1 (rangeArgs start stop step).2.2 fuel
    (rangeArgs start stop step).1 = some true
/-- `Range(...)` rejects `a`: the loop ends without having found a value. -/
def rangeRejects (start : Rat) (stop step : Option Rat) (a : Rat) : Prop :=
  ∃ fuel, rangeLoop a (rangeArgs start stop step).2.1 (rangeArgs start stop step).2.2 fuel
    (rangeArgs start stop step).1 = some false
/-- `Range(...)` never returns on `a`. -/
def rangeHangs (start : Rat) (stop step : Option Rat) (a : Rat) : Prop :=
  ∀ fuel, rangeLoop a (rangeArgs start stop step).2.1 (rangeArgs start stop step).2.2 fuel
    (rangeArgs start stop step).1 = none

/-- The second argument of `Eq(e, …)`: nothing, an absolute margin or a percentage. -/
inductive Approx where
  | default
  | absolute (eps : Rat)
  | percent (p : Rat)

/-- `h2_approximate() * x` : `(unsigned long long)(fabs(x) * A)`,
`/repo/source/matcher/h2_matches_equation.hpp:96-99`; `none` when the conversion of an
out-of-range floating value is undefined behaviour. -/
def approxTimes (x : Rat) : Option Nat :=
  let n := (rabs x * (apA : Nat)).floor
  if n < 2 ^ 64 then some n.toNat else none

/-- The `epsilon` the macro `H2Eq` computes,
`/repo/source/matcher/h2_matches_equation.hpp:174-176`.  For a percentage the expansion is
`h2_approximate() * p % + B`, i.e. remainder by `+B`.  Unsigned 64-bit addition wraps. -/
def eqEpsilon : Approx → Option Nat
  | .default => some 0
  | .absolute eps => (approxTimes eps).map (fun n => (n + apB) % 2 ^ 64)
  | .percent p => (approxTimes p).map (fun n => n % apB)

/-- `h2_equation<E>::matches` for floating values,
`/repo/source/matcher/h2_matches_equation.hpp:101-115,123-137`: the value of `result`;
`none` for undefined behaviour in forming `epsilon`. -/
def floatEq (ap : Approx) (e a : Rat) : Option Bool :=
  (eqEpsilon ap).map (fun epsilon =>
    if epsilon ≠ 0 ∧ epsilon < apB then
      decide (rabs (a - e) ≤ rabs (e * (((epsilon : Nat) : Rat) / (apA : Nat) / 100)))
    else decide (rabs (a - e) ≤ rabs (absoluteMargin (epsilon : Nat))))

/-- `h2_numberfy<std::uintptr_t>` of an integer: conversion to 64-bit unsigned,
`/repo/source/matcher/h2_matches_equation.hpp:142`. -/
def toUintptr (z : Int) : BitVec 64 := BitVec.ofInt 64 z

/-- `h2_equation<E>::matches` for integers, `/repo/source/matcher/h2_matches_equation.hpp:139-143`. -/
def intEq (e a : Int) : Bool := toUintptr e == toUintptr a

/-- Comparison written inside `OK(a op b)`. -/
inductive CmpOp where
  | eq | ne | gt | lt | ge | le
deriving DecidableEq, Repr

/-- Verdict of the matcher that `h2_1cp` builds from the left operand, applied to the right
operand, `/repo/source/assert/h2_assert.hpp:49-65`, with the inequations of
`/repo/source/matcher/h2_matches_inequation.hpp:9,26,43,60`.  Integers; the comparison of
`==`/`!=` is the one of `Equals`/`Nq`. -/
def cmpVerdict (op : CmpOp) (l r : Int) : Bool :=
  match op with
  | .eq => intEq l r
  | .ne => !intEq l r
  | .gt => decide (r < l)     -- Lt(l) on r : a < e
  | .lt => decide (r > l)     -- Gt(l) on r : a > e
  | .ge => decide (r ≤ l)     -- Le(l) on r : a <= e
  | .le => decide (r ≥ l)     -- Ge(l) on r : a >= e

/-- One insertion of MedianOf's loop: before the first element greater than `x`,
`/repo/source/matcher/h2_matches_container.hpp:297-301`. -/
def medianInsert (x : Rat) : List Rat → List Rat
  | [] => [x]
  | b :: bs => if x < b then x :: b :: bs else b :: medianInsert x bs

/-- The vector `b` after the loop, `/repo/source/matcher/h2_matches_container.hpp:293-301`. -/
def medianSorted (xs : List Rat) : List Rat := xs.foldl (fun b x => medianInsert x b) []

/-- Outcome of computing the median. -/
inductive MedianOut where
  | empty
  | value (q : Rat)
  | ub
deriving DecidableEq, Repr

/-- `b.size() % 2 ? b[b.size() / 2] : (b[b.size() / 2] + b[b.size() / 2 + 1]) / 2`,
`/repo/source/matcher/h2_matches_container.hpp:302-304`; indexing past the end of the vector is
undefined behaviour.  (For integer element types the division truncates; here it is exact.) -/
def medianValue (xs : List Rat) : MedianOut :=
  let b := medianSorted xs
  if b.length = 0 then .empty
  else if b.length % 2 = 1 then
    match b[b.length / 2]? with
    | some q => .value q
    | none => .ub
  else
    match b[b.length / 2]?, b[b.length / 2 + 1]? with
    | some p, some q => .value ((p + q) / 2)
    | _, _ => .ub

/-- How many elements a container matcher reads through a raw pointer (`dimension = -1`) or from
a native array of `dimension` elements,
`/repo/source/matcher/h2_matches_container.hpp:73-77`. -/
def arraySize (r : Rng) (c : C) : Int :=
  if c.dimension = -1 then
    if c.rangeEnd - c.rangeStart < r.stop - r.start then c.rangeEnd - c.rangeStart else r.stop - r.start
  else c.dimension

/-- The `h2_array` view of memory holding `mem` (first element first); `none` when the matcher
would iterate past the memory (undefined behaviour).  `/repo/source/matcher/h2_matches_container.hpp:76`. -/
def arrayView (r : Rng) (c : C) (mem : List Val) : Option (List Val) :=
  if (arraySize r c).toNat ≤ mem.length then some (mem.take (arraySize r c).toNat) else none

end H2.Matcher
