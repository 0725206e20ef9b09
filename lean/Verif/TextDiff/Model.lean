import Verif.Abbrev.Model
import Verif.Color.Model
import Verif.Diff.Model
import Verif.Str.Model
/-
Model of what follows the line about two texts that differ: `h2_fail_strcmp::print` and `h2_fail_strfind::print`,
`/repo/source/report/h2_failure.cpp:132-169`, with `unified` and `seperate` of `/repo/source/report/h2_layout.cpp`.

Texts are lists of characters: `disperse` gives one string for each character (`C46_utf8_partial`).
-/
namespace H2.TextDiff
open H2.Layout (Word Line wordWidth brush unified prefixBreak)
open H2.Abbrev (escape dim)
open H2.Color (Slots printl)

/-- `fmt_char`, `/repo/source/report/h2_failure.cpp:136-141`. -/
def fmtChar (colorful : Bool) (c : Char) (eq : Bool) (style : Word) : Line :=
  if c = ' ' ∧ colorful = true then dim "‧".toList
  else if eq then [escape [c]]
  else brush [escape [c]] style

/-- The loops, `/repo/source/report/h2_failure.cpp:150-151`. -/
def sideLine (colorful : Bool) (style : Word) (marks : List Bool) (s : List Char) : Line :=
  (marks.zip s).flatMap fun p => fmtChar colorful p.2 p.1 style

/-- `gray(title) + color("> ", style)`, `/repo/source/report/h2_layout.cpp:84-85,99-100`. -/
def title (t style : Word) : Line := dim t ++ brush ["> ".toList] style

/-- `up_title_line` -/
def upTitle : Line := title "expect".toList "green".toList
/-- `down_title_line` -/
def downTitle : Line := title "actual".toList "red".toList

/-- What `h2_fail_strcmp::print` adds, `/repo/source/report/h2_failure.cpp:146-153`; `none` where the program ends (a line
narrower than a character, see `Verif.Layout.Model`). -/
def strcmpMore (colorful : Bool) (verbose : Int) (width : Nat) (caseless : Bool) (e a : List Char) : Option (List Line) :=
  if verbose ≥ 5 ∨ 8 < wordWidth e ∨ 8 < wordWidth a then
    let lcs := H2.Diff.lcs (fun x y : Char => H2.Str.equals [x] [y] caseless) e a
    unified (sideLine colorful "green".toList lcs.1 e) (sideLine colorful "red".toList lcs.2 a) upTitle downTitle width
  else some []

/-- What `h2_fail_strfind::print` adds, `/repo/source/report/h2_failure.cpp:164-167`, with `seperate`,
`/repo/source/report/h2_layout.cpp:97-103`. -/
def strfindMore (width : Nat) (e a : List Char) : Option (List Line) :=
  if 16 < wordWidth e ∨ 16 < wordWidth a then
    match prefixBreak [escape e] upTitle width, prefixBreak [escape a] downTitle width with
    | some x, some y => some (x ++ y)
    | _, _ => none
  else some []

/-- `h2_console::printl` of lines, `/repo/source/stdio/h2_console.cpp:36-45`. -/
def printLines (colorful : Bool) : Slots → List Line → Slots × List Char
  | s, [] => (s, [])
  | s, l :: ls =>
    let (s1, o1) := printl colorful s l
    let (s2, o2) := printLines colorful s1 ls
    (s2, o1 ++ ['\n'] ++ o2)

end H2.TextDiff
