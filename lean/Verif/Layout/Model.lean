/-
Model of how lines are broken and set side by side: `/repo/source/report/h2_layout.cpp`, with the parts of
`/repo/source/utils/h2_line.cpp`, `/repo/source/utils/h2_line.hpp` it uses.

Words are texts of characters.  On the bytes of such a text `disperse` gives the bytes of each character and `width` counts 1 for
characters of one byte and 2 for others: `C46_utf8_partial`, `C46_width_partial` in `Verif.Misc.Props`.
-/
namespace H2.Layout

abbrev Word := List Char
/-- `h2_line` -/
abbrev Line := List Word

/-- `h2_color::isctrl`, `/repo/source/utils/h2_color.cpp:92`. -/
def isctrl (w : Word) : Bool := w.head? == some '\x1b' && w[1]? == some '{'

/-- `width` of one character, `/repo/source/utils/h2_string.cpp:27-35` with `fat` 2. -/
def charWidth (c : Char) : Nat := if c.toNat < 128 then 1 else 2

def wordWidth (w : Word) : Nat := (w.map charWidth).sum

/-- `h2_line::width`, `/repo/source/utils/h2_line.cpp:1-9`. -/
def lineWidth (l : Line) : Nat := (l.map fun w => if isctrl w then 0 else wordWidth w).sum

def spaces (n : Nat) : Word := List.replicate n ' '

/-- `h2_line::padding`, `/repo/source/utils/h2_line.cpp:17-21`. -/
def padding (l : Line) (n : Nat) : Line := if n = 0 then l else l ++ [spaces n]

/-- `h2_line::indent`, `/repo/source/utils/h2_line.cpp:11-15`. -/
def indent (l : Line) (n : Nat) : Line := if n = 0 then l else spaces n :: l

/-- `h2_line::brush`, `/repo/source/utils/h2_line.cpp:39-46`. -/
def brush (l : Line) (style : Word) : Line :=
  if style.isEmpty then l else (['\x1b', '{'] ++ style ++ ['}']) :: l ++ [['\x1b', '{', 'r', 'e', 's', 'e', 't', '}']]

/-- The variables of `line_break`. -/
structure Break where
  lines : List Line
  style : Word
  wrap : Line

/-- `wrap.padding(width - wrap.width())`: the difference of two `size_t`; when it would be negative the padding is too long for any
string, and the program ends (`none`). -/
def fill (width : Nat) (wrap : Line) : Option Line :=
  if lineWidth wrap ≤ width then some (padding wrap (width - lineWidth wrap)) else none

/-- The inner loop of `line_break`, `/repo/source/report/h2_layout.cpp:14-21`. -/
def breakChars (width : Nat) : Word → Break → Option Break
  | [], b => some b
  | c :: cs, b =>
    if width < lineWidth b.wrap + charWidth c then
      match fill width b.wrap with
      | none => none
      | some l => breakChars width cs { b with lines := b.lines ++ [l], wrap := (if b.style.isEmpty then [] else [b.style]) ++ [[c]] }
    else breakChars width cs { b with wrap := b.wrap ++ [[c]] }

/-- The outer loop, `/repo/source/report/h2_layout.cpp:8-22`. -/
def breakWords (width : Nat) : Line → Break → Option Break
  | [], b => some b
  | w :: ws, b =>
    if isctrl w then breakWords width ws { b with wrap := b.wrap ++ [w], style := w }
    else
      match breakChars width w b with
      | none => none
      | some b => breakWords width ws b

/-- `line_break`, `/repo/source/report/h2_layout.cpp:2-25`. -/
def lineBreak (line : Line) (width : Nat) : Option (List Line) :=
  match breakWords width line ⟨[], [], []⟩ with
  | none => none
  | some b => (fill width b.wrap).map fun l => b.lines ++ [l]

/-- The lines up to the last break: `left_wrap_lines[j].brush("reset")`, or blanks. -/
def cell (lines : List Line) (width j : Nat) : Line :=
  match lines[j]? with
  | some l => brush l "reset".toList
  | none => brush [spaces width] "reset".toList

/-- `h2_line::printf("dark gray", …)`, `/repo/source/utils/h2_line.cpp:23-31`. -/
def gray (t : Word) : Line := ["\x1b{dark gray}".toList, t, "\x1b{reset}".toList]

/-- One row, `/repo/source/report/h2_layout.cpp:37-45`.  `seq j` is what stands first (a number, blanks, or nothing). -/
def row (seq : Line) (ls rs : List Line) (lw rw j : Nat) : Line :=
  seq ++ cell ls lw j ++ gray (if j + 1 < ls.length then "\\│ ".toList else " │ ".toList) ++ cell rs rw j ++
    gray (if j + 1 < rs.length then "\\".toList else " ".toList)

/-- The rows of one pair of lines, `/repo/source/report/h2_layout.cpp:34-47`. -/
def rows (number : Nat → Word) (step : Bool) (seqWidth : Nat) (l r : Line) (lw rw i : Nat) : Option (List Line) :=
  match lineBreak l lw, lineBreak r rw with
  | some ls, some rs => some ((List.range (max ls.length rs.length)).map fun j =>
      row (if step then (if j = 0 then gray (number i) else indent [] (seqWidth + 2)) else []) ls rs lw rw j)
  | _, _ => none

/-- All of them one after the other, if there are all. -/
def collect : List (Option (List Line)) → Option (List Line)
  | [] => some []
  | none :: _ => none
  | some a :: l => (collect l).map (a ++ ·)

/-- `lines_merge`, `/repo/source/report/h2_layout.cpp:27-50`.  `number i` is the text of the number of line `i`. -/
def linesMerge (number : Nat → Word) (step : Bool) (seqWidth lw rw : Nat) (l r : List Line) : Option (List Line) :=
  collect ((List.range (max l.length r.length)).map fun i =>
    rows number step seqWidth ((l[i]?).getD [spaces lw]) ((r[i]?).getD [spaces rw]) lw rw i)

/-- The widths of the columns in `split`, `/repo/source/report/h2_layout.cpp:66-73`; `left`, `right` are the widths of the lines and
titles.  (`size_t` differences: `width` is at least 17, `/repo/source/stdio/h2_console.cpp:6-15`; with a longer `seqWidth` they would
wrap.) -/
def columns (width seqWidth left right : Nat) : Nat × Nat :=
  let valid := width - (seqWidth + 1) - 1 - 4
  if left < valid / 2 then (left, min (valid - left) right)
  else if right < valid / 2 then (min (valid - right) left, right)
  else (valid / 2, valid / 2)

/-- `prefix_break`, `/repo/source/report/h2_layout.cpp:52-61`.  `width - title.width()` wraps when the title is wider: then nothing is
broken. -/
def prefixBreak (line title : Line) (width : Nat) : Option (List Line) :=
  if width < lineWidth title then none
  else (lineBreak line (width - lineWidth title)).map fun ls => ls.mapIdx fun i l => if i = 0 then title ++ l else indent l (lineWidth title)

/-- `unified`, `/repo/source/report/h2_layout.cpp:81-95`: the loop over the broken lines. -/
def weave (upTitle downTitle : Line) (ups downs : List Line) : List Line :=
  (List.range (max ups.length downs.length)).flatMap fun i =>
    (match ups[i]? with | some l => [upTitle ++ l] | none => []) ++ (match downs[i]? with | some l => [downTitle ++ l] | none => [])

def unified (up down upTitle downTitle : Line) (width : Nat) : Option (List Line) :=
  if width < lineWidth upTitle ∨ width < lineWidth downTitle then none
  else
    match lineBreak up (width - lineWidth upTitle), lineBreak down (width - lineWidth downTitle) with
    | some a, some b => some (weave upTitle downTitle a b)
    | _, _ => none

end H2.Layout
