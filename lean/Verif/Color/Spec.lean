import Verif.Layout.Spec
/-
A terminal, and what a line with nested styles is to look like on it.
-/
namespace H2.Color
open H2.Layout (Word Line)

/-- What a terminal has read of a control sequence. -/
inductive Mode where
  | text
  | esc
  | params (current : List Char)

/-- A parameter of a control sequence: `0` switches everything off, another one something on. -/
def switch (on : List Word) (p : Word) : List Word := if p = ['0'] then [] else on ++ [p]

/-- A terminal: the characters it shows, each with what is switched on, in the order in which it was (with several colours the
last one is seen). -/
def terminal : Mode → List Word → List Char → List (List Word × Char)
  | _, _, [] => []
  | .text, on, c :: r => if c = '\x1b' then terminal .esc on r else (on, c) :: terminal .text on r
  | .esc, on, c :: r => if c = '[' then terminal (.params []) on r else terminal .text on r
  | .params p, on, c :: r =>
    if c = 'm' then terminal .text (switch on p) r
    else if c = ';' then terminal (.params []) (switch on p) r
    else terminal (.params (p ++ [c])) on r

/-- The control codes of ECMA-48: attributes, the eight colours, their bright variants, backgrounds. -/
def attributes : List (String × Nat) := [("bold", 1), ("italics", 3), ("underline", 4), ("inverse", 7), ("strikethrough", 9), ("default", 39)]
def colours : List String := ["black", "red", "green", "yellow", "blue", "purple", "cyan"]
def ecma48 : List (String × Nat) :=
  attributes ++ colours.mapIdx (fun i n => (n, 30 + i)) ++ [("gray", 37), ("dark gray", 90)] ++
    colours.tail.mapIdx (fun i n => ("light " ++ n, 91 + i)) ++ [("white", 97)] ++
    colours.mapIdx (fun i n => ("bg_" ++ n, 40 + i)) ++ [("bg_white", 47)]

/-- A line built by the functions of `h2_line`: text, parts in a row, a part with further styles (`delta`), a part in a colour
of its own (`color`, `brush`, `printf` with a style). -/
inductive Markup where
  | text (t : List Char)
  | seq (a b : Markup)
  | delta (names : List Word) (a : Markup)
  | color (names : List Word) (a : Markup)

def commas : List Word → Word
  | [] => []
  | [n] => n
  | n :: r => n ++ [','] ++ commas r

/-- The words of such a line. -/
def Markup.line : Markup → Line
  | .text t => [t]
  | .seq a b => a.line ++ b.line
  | .delta ns a => ["\x1b{+".toList ++ commas ns ++ ['}']] ++ a.line ++ ["\x1b{-".toList ++ commas ns ++ ['}']]
  | .color ns a => ["\x1b{".toList ++ commas ns ++ ['}']] ++ a.line ++ ["\x1b{reset}".toList]

/-- What it is to look like: every character with the styles it is in, the outermost first. -/
def Markup.look : List Word → Markup → List (List Word × Char)
  | outer, .text t => t.map fun c => (outer, c)
  | outer, .seq a b => a.look outer ++ b.look outer
  | outer, .delta ns a => a.look (outer ++ ns)
  | outer, .color ns a => a.look (outer ++ ns)

/-- A name from the table. -/
def Known (n : Word) : Prop := ∃ p ∈ ecma48, n = p.1.toList

/-- No escape characters, known styles, at most eight at once and none twice, `color` only outermost. -/
def Markup.Proper : List Word → Markup → Prop
  | _, .text t => '\x1b' ∉ t
  | outer, .seq a b => a.Proper outer ∧ b.Proper outer
  | outer, .delta ns a => ns ≠ [] ∧ (∀ n ∈ ns, Known n) ∧ (outer ++ ns).Nodup ∧ (outer ++ ns).length ≤ 8 ∧ a.Proper (outer ++ ns)
  | outer, .color ns a => outer = [] ∧ ns ≠ [] ∧ (∀ n ∈ ns, Known n) ∧ ns.Nodup ∧ ns.length ≤ 8 ∧ a.Proper ns

/-- The control code of a style, as it is written. -/
def code (n : Word) : Word := (toString (((ecma48.find? fun p => p.1.toList == n).map (·.2)).getD 0)).toList

end H2.Color
