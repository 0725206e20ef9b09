import Verif.Message.Model
/-
Model of `PF(ms) { … }`: the loop around the block, the clock, and the failure.
Processor time is counted in ticks, a million to the second (POSIX); `double` arithmetic is exact here:
the numbers of ticks of some centuries are exact, and the quotient is compared with an `int`.
-/
namespace H2.Timer
open H2.Layout (Word Line brush)

/-- How the block after `PF(ms)` can be left: at its end or by `continue`; by `break`, `goto` or `return`; by an
exception; by a failed assertion in it that ends the case, which is a `longjmp`,
`/repo/source/core/h2_case.cpp:32`. -/
inductive Leave where
  | atEnd | away | throws | jumps
deriving DecidableEq, Repr

/-- What has happened when the statement is left. -/
structure Done where
  /-- how many times the block was run -/
  runs : Nat
  /-- how many assertions were counted -/
  asserts : Nat
  /-- the failure reported -/
  failure : Option Line

/-- `h2_once::operator bool`, `/repo/source/utils/h2_misc.hpp:3-6`: the answer and the new count. -/
def once (c : Nat) : Bool × Nat := (c == 0, c + 1)

/-- `(::clock() - start) * 1000.0 / CLOCKS_PER_SEC`, `/repo/source/assert/h2_timer.cpp:9`. -/
def delta (start stop : Int) : Rat := ((stop - start : Int) : Rat) * 1000 / 1000000

/-- `(int)delta`: the fraction is dropped. -/
def whole (q : Rat) : Int := if q < 0 then -(-q).floor else q.floor

/-- `printf("%d")` with a style, `/repo/source/utils/h2_line.cpp:23-31`. -/
def styled (style w : Word) : Line := brush [w] style

/-- The destructor of `h2_timer`, `/repo/source/assert/h2_timer.cpp:6-15`, when the clock shows `stop`: the
failure it reports.  (`(int)delta` is undefined for more than 2³¹ milliseconds; here it is the number.) -/
def destructor (ms start stop : Int) : Option Line :=
  if (ms : Rat) < delta start stop then
    some (["performance expect < ".toList] ++ styled "green".toList (toString ms).toList ++
      styled [] " ms, but actually cost ".toList ++ styled "red".toList (toString (whole (delta start stop))).toList ++
      styled [] " ms".toList)
  else none

/-- `for (h2::h2_timer Q(ms, H2_FILINE); Q;) { … }`, `/repo/source/assert/h2_timer.hpp:9`: `c` is the count of
`Q`, `runs` how many times the block was run so far.  The destructor runs whenever the loop is left, but not if a
`longjmp` leaves it. -/
def loop (ms start stop : Int) (leave : Leave) : Nat → Nat → Nat → Option Done
  | 0, _, _ => none
  | fuel + 1, c, runs =>
    if (once c).1 then
      match leave with
      | .atEnd => loop ms start stop leave fuel (once c).2 (runs + 1)
      | .away | .throws => some { runs := runs + 1, asserts := 1, failure := destructor ms start stop }
      | .jumps => some { runs := runs + 1, asserts := 0, failure := none }
    else some { runs := runs, asserts := 1, failure := destructor ms start stop }

/-- `PF(ms) { … }`, when the clock shows `start` before and `stop` after the block. -/
def pf (ms start stop : Int) (leave : Leave) (fuel : Nat) : Option Done := loop ms start stop leave fuel 0 0

end H2.Timer
