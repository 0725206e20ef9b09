import Verif.Color.Spec
import Verif.Abbrev.Spec
import Verif.Diff.Spec
/-
How two texts that differ are to be shown: one above the other, piece by piece, what they have in common plain and the rest in
green (expected) and red (actual).
-/
namespace H2.TextDiff
open H2.Layout (Word room)
open H2.Abbrev (shown)
open H2.Diff (marked Same)

/-- Characters on the screen, with what is switched on for them. -/
abbrev Screen := List (List Word × Char)

def chars (s : Screen) : List Char := s.map (·.2)

/-- Characters compared as asked. -/
def alike (caseless : Bool) (x y : Char) : Bool := if caseless then x.toLower == y.toLower else x == y

/-- The marks tell a longest common subsequence. -/
structure Common (caseless : Bool) (e a : List Char) (em am : List Bool) : Prop where
  all : em.length = e.length ∧ am.length = a.length
  same : Same (alike caseless) (marked em e) (marked am a)
  longest : ∀ u v : List Char, u.Sublist e → v.Sublist a → Same (alike caseless) u v → u.length ≤ (marked em e).length

/-- With colours: a blank is a small dark dot, others are plain if in common and coloured if not. -/
def coloured (colour : Word) (marks : List Bool) (t : List Char) : Screen :=
  (marks.zip t).flatMap fun p =>
    if p.2 = ' ' then [([Color.code "dark gray".toList], '‧')]
    else (shown [p.2]).map fun c => (if p.1 then [] else [Color.code colour], c)

/-- The pieces of two texts, one of each in turn, and what remains of the longer one. -/
def inTurn {α : Type} : List α → List α → List (Bool × α)
  | u :: us, d :: ds => (true, u) :: (false, d) :: inTurn us ds
  | us, [] => us.map fun u => (true, u)
  | [], ds => ds.map fun d => (false, d)

/-- A row: the title, the piece, blanks up to the width. -/
def Row (width : Nat) (p : Bool × Screen) (row : Screen) : Prop :=
  ∃ title pad last, row = title ++ p.2 ++ pad ++ [(last, '\n')] ∧ chars title = (if p.1 then "expect> " else "actual> ").toList ∧
    (∀ c ∈ pad, c.2 = ' ') ∧ room (chars (title ++ p.2 ++ pad)) = width

/-- Row by row. -/
inductive Rows (width : Nat) : List (Bool × Screen) → List Screen → Prop
  | nil : Rows width [] []
  | cons {p row ps rows} : Row width p row → Rows width ps rows → Rows width (p :: ps) (row :: rows)

/-- `parts` are pieces of `whole` that fit, none of which could take the first character of the next. -/
structure Parts (whole : Screen) (width : Nat) (parts : List Screen) : Prop where
  all : parts.flatten = whole
  fit : ∀ p ∈ parts, room (chars p) ≤ width
  full : ∀ (i : Nat) (p q : Screen), parts[i]? = some p → parts[i + 1]? = some q → ∃ c r, q = c :: r ∧ width < room (chars p) + room [c.2]

end H2.TextDiff
