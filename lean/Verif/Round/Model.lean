import Verif.Matcher.Numeric
/-
Model of `Eq` with a margin and of `Range` with the rounding of floating-point arithmetic (`Verif.Matcher` has exact numbers instead):
`/repo/source/matcher/h2_matches_equation.hpp:92-137` and `/repo/source/matcher/h2_matches_range.hpp:8-24`.

Numbers of a floating type are rational numbers; each operation gives the exact result, rounded to nearest (ties to even) with 53 binary
digits (`double`) or 64 (`long double` of x86-64).  The expected and the actual number are a `double` each.  Exponents are not bounded: sums,
products and quotients of `double`s made here neither overflow nor underflow in `long double`, and a product in `double` that underflows is
less than one and cut to 0 anyway; one that overflows is undefined behaviour like all from 2⁶⁴ on.  Infinities and NaN are in `Verif.Typed`.
-/
namespace H2.Round
open H2.Matcher (rabs apA apB Approx)

/-- The largest `k` with `2 ^ k ≤ x`, of a positive `x`. -/
def ilog2 (x : Rat) : Int :=
  let k := (x.num.natAbs.log2 : Int) - x.den.log2
  if (2 : Rat) ^ k ≤ x then k else k - 1

/-- The nearest integer, the even one of two. -/
def nearest (y : Rat) : Int :=
  let f := y.floor
  if y - f < 1 / 2 then f else if 1 / 2 < y - f then f + 1 else if f % 2 = 0 then f else f + 1

/-- A positive number rounded to `p` binary digits. -/
def roundPos (p : Nat) (x : Rat) : Rat :=
  let q := (2 : Rat) ^ (ilog2 x + 1 - p)
  nearest (x / q) * q

/-- Round to nearest with `p` binary digits (IEEE 754, `roundTiesToEven`). -/
def round (p : Nat) (x : Rat) : Rat := if x = 0 then 0 else if x < 0 then -roundPos p (-x) else roundPos p x

/-- A result of type `double`. -/
def dbl (x : Rat) : Rat := round 53 x

/-- A result of type `long double`. -/
def ext (x : Rat) : Rat := round 64 x

/-- `h2_approximate() * x`, `/repo/source/matcher/h2_matches_equation.hpp:96-99`: a product in `double`, cut to an integer; `none` when
it is out of range (undefined behaviour). -/
def approxTimes (x : Rat) : Option Nat :=
  let n := (dbl (rabs x * (apA : Nat))).floor
  if n < 2 ^ 64 then some n.toNat else none

/-- The `epsilon` that `H2Eq` computes, `/repo/source/matcher/h2_matches_equation.hpp:174-176`. -/
def eqEpsilon : Approx → Option Nat
  | .default => some 0
  | .absolute eps => (approxTimes eps).map fun n => (n + apB) % 2 ^ 64
  | .percent p => (approxTimes p).map fun n => n % apB

/-- `absolute_margin`, `/repo/source/matcher/h2_matches_equation.hpp:106-110`; `0.00001` is a `double`. -/
def absoluteMargin (epsilon : Rat) : Rat :=
  if epsilon = 0 then dbl (1 / 100000) else ext (ext (epsilon - (apB : Nat)) / (apA : Nat))

/-- `percentage_scale`, `/repo/source/matcher/h2_matches_equation.hpp:111-114`. -/
def percentageScale (epsilon : Rat) : Rat := ext (ext (epsilon / (apA : Nat)) / 100)

/-- `h2_equation<double>::matches` of a `double`, `/repo/source/matcher/h2_matches_equation.hpp:123-135`. -/
def floatEq (ap : Approx) (e a : Rat) : Option Bool :=
  (eqEpsilon ap).map fun epsilon =>
    if epsilon ≠ 0 ∧ epsilon < apB then decide (rabs (ext (a - e)) ≤ rabs (ext (e * percentageScale (epsilon : Nat))))
    else decide (rabs (ext (a - e)) ≤ rabs (absoluteMargin (epsilon : Nat)))

/-- The loop of `Range`, `/repo/source/matcher/h2_matches_range.hpp:18-23`, run for at most `fuel` rounds; `none`: it has not finished. -/
def rangeLoop (a stop step : Rat) : Nat → Rat → Option Bool
  | 0, _ => none
  | fuel + 1, i =>
    if i < stop then
      if rabs (dbl (a - i)) ≤ rabs (absoluteMargin 0) then some true
      else rangeLoop a stop step fuel (dbl (i + step))
    else some false

/-- The average that `AvgOf` makes of a container of `double`s that is not empty, `/repo/source/matcher/h2_matches_container.hpp:276-279`; `count`, a
`double`, counts exactly (below 2⁵³). -/
def average (l : List Rat) : Rat := dbl (l.foldl (fun sum x => dbl (sum + x)) 0 / (l.length : Nat))

end H2.Round
