import Verif.Layout.Model
/-
Specification of breaking lines: what is seen of a line, and how much room it takes.
-/
namespace H2.Layout

/-- Words that begin with the escape character and a brace set a style, and are not seen. -/
def Style (w : Word) : Prop := ∃ r, w = '\x1b' :: '{' :: r

instance (w : Word) : Decidable (Style w) :=
  match w with
  | [] => .isFalse (by rintro ⟨r, h⟩; simp at h)
  | [_] => .isFalse (by rintro ⟨r, h⟩; simp at h)
  | a :: b :: r => if h : a = '\x1b' ∧ b = '{' then .isTrue ⟨r, by rw [h.1, h.2]⟩ else .isFalse (by rintro ⟨r, e⟩; simp at e; exact h ⟨e.1, e.2.1⟩)

/-- A character on the screen, with the style it is shown in: the one set last. -/
abbrev Cell := Option Word × Char

/-- What is seen of a line, when `style` is set before. -/
def cellsFrom : Option Word → Line → List Cell
  | _, [] => []
  | style, w :: ws => if Style w then cellsFrom (some w) ws else w.map (fun c => (style, c)) ++ cellsFrom style ws

def cells (l : Line) : List Cell := cellsFrom none l

/-- The text of a line. -/
def text (l : Line) : List Char := (cells l).map (·.2)

/-- The columns a text takes: one for ASCII characters, two for others. -/
def room (t : List Char) : Nat := (t.map fun c => if c.toNat < 128 then 1 else 2).sum

/-- `parts` are the pieces of what is seen of `line`: together they are all of it, each fits the width, and no piece could take the
first character of the next. -/
structure Pieces (line : Line) (width : Nat) (parts : List (List Cell)) : Prop where
  all : parts.flatten = cells line
  fit : ∀ p ∈ parts, room (p.map (·.2)) ≤ width
  full : ∀ (i : Nat) (p q : List Cell), parts[i]? = some p → parts[i + 1]? = some q → ∃ c r, q = c :: r ∧ width < room (p.map (·.2)) + room [c.2]

/-- A piece is shown by a line that adds blanks up to the width. -/
def ShownBy (width : Nat) (piece : List Cell) (l : Line) : Prop :=
  ∃ blanks, cells l = piece ++ blanks ∧ (∀ b ∈ blanks, b.2 = ' ') ∧ room (text l) = width

/-- `lines` show the pieces, one by one. -/
def Shown (width : Nat) (parts : List (List Cell)) (lines : List Line) : Prop :=
  parts.length = lines.length ∧ ∀ (i : Nat) (p : List Cell) (l : Line), parts[i]? = some p → lines[i]? = some l → ShownBy width p l

end H2.Layout

namespace H2.Layout

/-- `t` with blanks added up to the width. -/
def Filled (width : Nat) (t a : List Char) : Prop := ∃ n, a = t ++ List.replicate n ' ' ∧ room a = width

/-- The text of piece `j`; nothing when there are fewer. -/
def pieceText (parts : List (List Cell)) (j : Nat) : List Char := ((parts[j]?).getD []).map (·.2)

/-- `block` shows the lines `l` and `r` side by side: row by row the next piece of each, a backslash where more follows.  `first` stands
in front of the first row, `rest` in front of the others. -/
def SideBySide (lw rw : Nat) (first rest : List Char) (l r : Line) (block : List Line) : Prop :=
  ∃ lp rp, Pieces l lw lp ∧ Pieces r rw rp ∧ block.length = max lp.length rp.length ∧
    ∀ (j : Nat) (row : Line), block[j]? = some row → ∃ a b, Filled lw (pieceText lp j) a ∧ Filled rw (pieceText rp j) b ∧
      text row = (if j = 0 then first else rest) ++ a ++ [if j + 1 < lp.length then '\\' else ' ', '│', ' '] ++ b ++
        [if j + 1 < rp.length then '\\' else ' ']

end H2.Layout
