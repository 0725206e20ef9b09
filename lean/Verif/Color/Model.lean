import Verif.Layout.Model
/-
Model of how lines are written to the terminal: `h2_color`, `/repo/source/utils/h2_color.cpp:1-93`, and
`h2_console::printl`, `/repo/source/stdio/h2_console.cpp:36-45`.

The state is the array `current` of eight style names, an unused one being the empty text.  Names are taken to be
shorter than 32 characters, as all names in the code are: a longer one overruns its place.
-/
namespace H2.Color
open H2.Layout (Word Line isctrl)

abbrev Slots := List Word

/-- `current`, `/repo/source/utils/h2_color.cpp:3`. -/
def none8 : Slots := List.replicate 8 []

/-- `clear_style`, `/repo/source/utils/h2_color.cpp:5-8`. -/
def clearStyle (s : Slots) : Slots := s.map fun _ => []

/-- `push_style`, `/repo/source/utils/h2_color.cpp:9-17`: the first place that is not used, if any. -/
def pushStyle : Slots → Word → Slots
  | [], _ => []
  | [] :: r, name => name :: r
  | s :: r, name => s :: pushStyle r name

/-- `pop_style`, `/repo/source/utils/h2_color.cpp:18-23`: every place with this name. -/
def popStyle (s : Slots) (name : Word) : Slots := s.map fun x => if x = name then [] else x

/-- `style2value`, `/repo/source/utils/h2_color.cpp:56-90`: the names and their numbers. -/
def values : List (String × Nat) :=
  [("reset", 0), ("bold", 1), ("italics", 3), ("underline", 4), ("inverse", 7), ("strikethrough", 9), ("black", 30), ("red", 31),
   ("green", 32), ("yellow", 33), ("blue", 34), ("purple", 35), ("cyan", 36), ("gray", 37), ("default", 39), ("dark gray", 90),
   ("light red", 91), ("light green", 92), ("light yellow", 93), ("light blue", 94), ("light purple", 95), ("light cyan", 96),
   ("white", 97), ("bg_black", 40), ("bg_red", 41), ("bg_green", 42), ("bg_yellow", 43), ("bg_blue", 44), ("bg_purple", 45),
   ("bg_cyan", 46), ("bg_white", 47)]

def style2value (style : Word) : Nat := ((values.find? fun p => p.1.toList == style).map (·.2)).getD 0

/-- `%d` -/
def number (n : Nat) : Word := (toString n).toList

/-- `change`, `/repo/source/utils/h2_color.cpp:24-33`: what is written; the last semicolon is replaced by `m`. -/
def change (s : Slots) : List Char :=
  let codes := style2value "reset".toList :: (s.filter fun x => x != []).map style2value
  ['\x1b', '['] ++ (codes.flatMap fun n => number n ++ [';']).dropLast ++ ['m']

/-- The names in a style, `/repo/source/utils/h2_color.cpp:39-45`: separated by commas, up to a brace. -/
def pieces : Word → Word → List Word
  | cur, [] => [cur]
  | cur, c :: r => if c = '}' then [cur] else if c = ',' then cur :: pieces [] r else pieces (cur ++ [c]) r

/-- One name, `/repo/source/utils/h2_color.cpp:41-42`: `strncmp("reset", p, l)` is 0 when the name is a beginning of `reset`. -/
def apply (minus : Bool) (s : Slots) (name : Word) : Slots :=
  let s := if minus then popStyle s name else pushStyle s name
  if name.isPrefixOf "reset".toList then clearStyle s else s

/-- `parse`, `/repo/source/utils/h2_color.cpp:34-46`. -/
def parse (s : Slots) (style : Word) : Slots :=
  match style.drop 2 with
  | '+' :: r => (pieces [] r).foldl (apply false) s
  | '-' :: r => (pieces [] r).foldl (apply true) s
  | r => (pieces [] r).foldl (apply false) s

/-- `print`, `/repo/source/utils/h2_color.cpp:47-56`: the new state and what is written. -/
def print (colorful : Bool) (s : Slots) (w : Word) : Slots × List Char :=
  if isctrl w then
    if colorful then (parse s w, change (parse s w)) else (s, [])
  else (s, w)

/-- `h2_console::printl`, `/repo/source/stdio/h2_console.cpp:36-40`, without the newline. -/
def printl (colorful : Bool) : Slots → Line → Slots × List Char
  | s, [] => (s, [])
  | s, w :: ws =>
    let (s1, o1) := print colorful s w
    let (s2, o2) := printl colorful s1 ws
    (s2, o1 ++ o2)

end H2.Color
