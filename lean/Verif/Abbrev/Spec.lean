import Verif.Layout.Spec
/-
What shortening a text means.  `text` and `room` are those of `Verif.Layout.Spec`: what is seen of a line, and the columns a
text takes.
-/
namespace H2.Abbrev
open H2.Layout

/-- A text as it is shown on one line: newline, carriage return and tab as escape sequences. -/
def shown (t : List Char) : List Char :=
  t.flatMap fun c => match c with
    | '\n' => "\\n".toList
    | '\r' => "\\r".toList
    | '\t' => "\\t".toList
    | c => [c]

/-- `out` is `t` shortened to `width`: a beginning of `t`, dots if `marked`, and an end of `t`.  The beginning reaches column
`width - 3 - tail`, but no further than it must, and the dots stand at that column; the end is the longest that takes at most
`tail` columns. -/
def Shortened (t : List Char) (width tail : Nat) (marked : Bool) (out : List Char) : Prop :=
  ∃ head gap last, t = head ++ gap ++ last ∧ out = head ++ (if marked then "...".toList else []) ++ last ∧ gap ≠ [] ∧
    (marked = true ↔ room head = width - 3 - tail) ∧ width - 3 - tail ≤ room head ∧ (∀ init c, head = init ++ [c] → room init < width - 3 - tail) ∧
    room last ≤ tail ∧ (∀ c init, gap = init ++ [c] → tail < room (c :: last))

/-- The words of a line that set styles, except for those of dimmed parts. -/
def styles (l : Line) : List Word :=
  l.filter fun w => decide (Style w) && w != "\x1b{+dark gray}".toList && w != "\x1b{-dark gray}".toList

end H2.Abbrev
