import Verif.Console.Model
/-
Model of the amounts on the console: durations, volumes, the line behind a case that passed and the line about a suite,
`/repo/source/report/h2_report_console.cpp`.

`%.1f` and its like, of a quotient of doubles, is a parameter: `fixed d a b` is the number of units of the last digit
printed for `a / b` with `d` digits behind the point.  Colours are left out.
-/
namespace H2.Amount
open H2.Console (Str decimal units formatUnits nonzeroCount)
open H2.Runner (Stats)

/-- `%.df`, given the number of units of its last digit. -/
def point (d n : Nat) : Str :=
  let frac := decimal (n % 10 ^ d)
  decimal (n / 10 ^ d) ++ ['.'] ++ List.replicate (d - frac.length) '0' ++ frac

/-- `%lld`. -/
def signed (z : Int) : Str := if z < 0 then '-' :: decimal (-z).toNat else decimal z.toNat

/-- `format_volume`, `/repo/source/report/h2_report_console.cpp:33-40`; a footprint is not negative. -/
def formatVolume (fixed : Nat → Nat → Nat → Nat) (v : Nat) : Str :=
  if v < 1024 then decimal v
  else if v < 1024 * 1024 then point 1 (fixed 1 v 1024) ++ "KB".toList
  else if v < 1024 * 1024 * 1024 then point 2 (fixed 2 v (1024 * 1024)) ++ "MB".toList
  else point 3 (fixed 3 v (1024 * 1024 * 1024)) ++ "GB".toList

/-- `format_duration`, `/repo/source/report/h2_report_console.cpp:41-48`. -/
def formatDuration (fixed : Nat → Nat → Nat → Nat) (ms : Int) : Str :=
  if ms < 100 then signed ms ++ " milliseconds".toList
  else if ms < 1000 * 60 then point 1 (fixed 1 ms.toNat 1000) ++ " second".toList ++ (if ms = 1000 then [] else ['s'])
  else if ms < 1000 * 60 * 60 then point 2 (fixed 2 ms.toNat 60000) ++ " minute".toList ++ (if ms = 60000 then [] else ['s'])
  else point 3 (fixed 3 ms.toNat 3600000) ++ " hour".toList ++ (if ms = 3600000 then [] else ['s'])

/-- `line += gray(comma_if(line.width())) + part`, `/repo/source/utils/h2_misc.hpp:14`. -/
def comma (line : Str) (c : Bool) (part : Str) : Str :=
  if c then line ++ (if line ≠ [] then ", ".toList else []) ++ part else line

/-- The line behind a case that passed, `/repo/source/report/h2_report_console.cpp:153-158`; empty if not printed. -/
def detailLine (fixed : Nat → Nat → Nat → Nat) (asserts footprint : Nat) (timecost : Int) : Str :=
  let line := comma [] (0 < asserts) (formatUnits asserts " assert".toList)
  let line := comma line (0 < footprint) (formatVolume fixed footprint ++ " footprint".toList)
  let line := comma line (0 < timecost) (formatDuration fixed timecost)
  if line ≠ [] then "- ".toList ++ line else []

/-- The outcomes in the line about a suite, `/repo/source/report/h2_report_console.cpp:105-111`. -/
def outcomes (t : Stats) : Str :=
  let line := comma [] (t.passed ≠ 0) (decimal t.passed.toNat ++ " passed".toList)
  let line := comma line (t.failed ≠ 0) (decimal t.failed.toNat ++ " failed".toList)
  let line := comma line (t.warning ≠ 0) (decimal t.warning.toNat ++ " warning".toList)
  let line := comma line (t.todo ≠ 0) (decimal t.todo.toNat ++ " todo".toList)
  let line := comma line (t.filtered ≠ 0) (decimal t.filtered.toNat ++ " filtered".toList)
  comma line (t.ignored ≠ 0) (decimal t.ignored.toNat ++ " ignored".toList)

/-- `on_suite_endup`, `/repo/source/report/h2_report_console.cpp:99-120`; `none`: nothing is printed. -/
def suiteLine (fixed : Nat → Nat → Nat → Nat) (verbose : Int) (chosen : Bool) (name : Str) (t : Stats) (cases asserts footprint : Nat)
    (timecost : Int) : Option Str :=
  if verbose ≥ 9 ∧ ¬ chosen then
    let n := nonzeroCount [t.passed.toNat, t.warning.toNat, t.failed.toNat, t.todo.toNat, t.filtered.toNat, t.ignored.toNat]
    some ("suite ".toList ++ name ++ (if 1 < n then " (".toList else " - ".toList) ++ outcomes t ++ (if 1 < n then ")".toList else []) ++
      (if 0 < cases then units cases " case".toList else []) ++
      (if 0 < asserts then ", ".toList ++ formatUnits asserts " assert".toList else []) ++
      (if 0 < footprint then ", ".toList ++ formatVolume fixed footprint ++ " footprint".toList else []) ++
      (if 1 < timecost then ", ".toList ++ formatDuration fixed timecost else []))
  else none

end H2.Amount
