import Verif.Layout.Model
/-
Model of how long texts are shortened and quotation marks dimmed: `escape`
(`/repo/source/utils/h2_string.cpp:75-87`), `h2_line::enclosed`, `gray_quote`, `abbreviate`, `samesizify`
(`/repo/source/utils/h2_line.cpp:48-139`).

Words are texts of characters, as in `Verif.Layout.Model`.  `size_t` has 64 bits.
-/
namespace H2.Abbrev
open H2.Layout (Word Line isctrl charWidth wordWidth lineWidth padding)

/-- `h2_string::escape(false)`, `/repo/source/utils/h2_string.cpp:75-87`; a text contains no zero byte. -/
def escapeChar (c : Char) : List Char :=
  if c = '\n' then ['\\', 'n'] else if c = '\r' then ['\\', 'r'] else if c = '\t' then ['\\', 't'] else [c]

def escape (w : Word) : Word := w.flatMap escapeChar

/-- `delta(…, "dark gray")`, `/repo/source/utils/h2_line.hpp:35`. -/
def dim (w : Word) : Line := ["\x1b{+dark gray}".toList, w, "\x1b{-dark gray}".toList]

/-- `if (h.size()) line.push_back(h)` -/
def word (w : Word) : Line := if w.isEmpty then [] else [w]

/-- `a - b` of `size_t` -/
def minus (a b : Nat) : Nat := (a + 2 ^ 64 - b) % 2 ^ 64

/-- The inner loop of `abbreviate`, `/repo/source/utils/h2_line.cpp:111-116`: `h`, whether `m` is set, `t`, and the new `i`.
`cut` is `width - 3 - tail`, `last` is `line1_width - tail`. -/
def shortenChars (cut last : Nat) : Word → Nat → Word × Bool × Word × Nat
  | [], i => ([], false, [], i)
  | c :: r, i =>
    let (h, m, t, j) := shortenChars cut last r (i + charWidth c)
    if i < cut then (c :: h, m, t, j)
    else if i = cut then (h, true, t, j)
    else if last ≤ i then (h, m, c :: t, j)
    else (h, m, t, j)

/-- The outer loop, `/repo/source/utils/h2_line.cpp:105-120`. -/
def shortenWords (cut last : Nat) : Line → Nat → Line
  | [], _ => []
  | w :: ws, i =>
    if isctrl w then w :: shortenWords cut last ws i
    else
      let (h, m, t, j) := shortenChars cut last w i
      word h ++ (if m then dim "...".toList else []) ++ word t ++ shortenWords cut last ws j

/-- `/repo/source/utils/h2_line.cpp:98-100` -/
def escaped (l : Line) : Line := l.map fun w => if isctrl w then w else escape w

/-- `h2_line::abbreviate`, `/repo/source/utils/h2_line.cpp:95-123`. -/
def abbreviate (l : Line) (width tail : Nat) : Line :=
  let line1 := escaped l
  let line1Width := lineWidth line1
  if line1Width ≤ width then line1
  else shortenWords (minus (minus width 3) tail) (minus line1Width tail) line1 0

/-- `h2_line::enclosed(c, c)`, `/repo/source/utils/h2_line.cpp:48-59`: the words that are no style, from the left;
an empty word (whose `front` C++ leaves open) begins and ends with no quotation mark. -/
def enclosed (l : Line) (c : Char) : Bool :=
  let ws := l.filter fun w => !isctrl w
  match ws.head?, ws.getLast? with
  | some a, some b => a.head? == some c && b.getLast? == some c
  | _, _ => false

/-- The inner loop of `gray_quote`, `/repo/source/utils/h2_line.cpp:81-86`; `w` is the width of the line, not 0 here. -/
def quoteChars (w : Nat) : Word → Nat → Word × Word × Word × Nat
  | [], i => ([], [], [], i)
  | c :: r, i =>
    let (h, m, t, j) := quoteChars w r (i + charWidth c)
    if i = 0 then (c :: h, m, t, j)
    else if i = w - 1 then (h, m, c :: t, j)
    else (h, c :: m, t, j)

/-- The outer loop, `/repo/source/utils/h2_line.cpp:75-92`. -/
def quoteWords (w : Nat) : Line → Nat → Line
  | [], _ => []
  | x :: xs, i =>
    if isctrl x then x :: quoteWords w xs i
    else
      let (h, m, t, j) := quoteChars w x i
      (if h.isEmpty then [] else dim h) ++ word m ++ (if t.isEmpty then [] else dim t) ++ quoteWords w xs j

/-- `h2_line::gray_quote`, `/repo/source/utils/h2_line.cpp:68-93`. -/
def grayQuote (l : Line) : Line :=
  if !enclosed l '"' && !enclosed l '\'' then l else quoteWords (lineWidth l) l 0

/-- `h2_line::samesizify`, `/repo/source/utils/h2_line.cpp:134-139`. -/
def samesizify (a b : Line) : Line × Line :=
  (padding a (max (lineWidth a) (lineWidth b) - lineWidth a), padding b (max (lineWidth a) (lineWidth b) - lineWidth b))

end H2.Abbrev
