import Verif.Screen.Model
import Verif.Runner.Spec
import Verif.Layout.Spec
import Verif.Abbrev.Spec
/-
A terminal, and what should be seen on it.
-/
namespace H2.Screen
open H2.Runner (Suite Case Bucket)
open H2.Console (Str Cfg Info)
open H2.Layout (room)

/-! ### A terminal -/

/-- The rows above the one with the cursor, and that one up to the cursor. -/
structure Terminal where
  above : List Str := []
  row : Str := []

/-- Characters below the blank, and DEL, are none that are shown. -/
def Control (c : Char) : Prop := c.toNat < 32 ∨ c.toNat = 127

instance (c : Char) : Decidable (Control c) := by unfold Control; infer_instance

/-- How a terminal is: its width, how many columns a character takes, and what it does with control characters other than the line
end (left open). -/
structure Kind where
  W : Nat
  cols : Char → Nat
  other : Char → Terminal → Terminal

/-- It is not narrower than 17 columns (otherwise h2unit does not believe it); an ASCII character takes at most one column, any
other at most two. -/
def Kind.Usual (k : Kind) : Prop := 17 ≤ k.W ∧ ∀ c, k.cols c ≤ if c.toNat < 128 then 1 else 2

def Kind.columns (k : Kind) (t : Str) : Nat := (t.map k.cols).sum

/-- A character that does not fit the row goes to a new one. -/
def Kind.get (k : Kind) (t : Terminal) : Tok → Terminal
  | .clear => { t with row := [] }
  | .ch c =>
    if c = '\n' then ⟨t.above ++ [t.row], []⟩
    else if Control c then k.other c t
    else if k.columns t.row + k.cols c ≤ k.W then { t with row := t.row ++ [c] }
    else ⟨t.above ++ [t.row], [c]⟩

/-- What is on the screen in the end; nothing is scrolled away. -/
def Kind.screen (k : Kind) (out : List Tok) : List Str :=
  let t := out.foldl k.get {}
  t.above ++ if t.row = [] then [] else [t.row]

/-! ### What should be seen -/

/-- A line on rows of the terminal; `row` is begun already. -/
def Kind.foldFrom (k : Kind) (row : Str) : Str → List Str
  | [] => [row]
  | c :: t => if k.columns row + k.cols c ≤ k.W then k.foldFrom (row ++ [c]) t else row :: k.foldFrom [c] t

/-- The lines of a text. -/
def linesFrom (line : Str) : Str → List Str
  | [] => [line]
  | c :: t => if c = '\n' then line :: linesFrom [] t else linesFrom (line ++ [c]) t

/-- The rows of a text. -/
def Kind.rows (k : Kind) (t : Str) : List Str := (linesFrom [] t).flatMap (k.foldFrom [])

/-- The percentage in front, with the line of progress. -/
def percent (g : Cfg) (index cases : Nat) : Str :=
  if g.progressing then
    let d := Nat.toDigits 10 (if cases = 0 then 100 else index * 100 / cases)
    "[".toList ++ List.replicate (3 - d.length) ' ' ++ d ++ "%] ".toList
  else []

/-- The line that says which case is being tested. -/
def testing (g : Cfg) (cases index : Nat) (suite name : Str) : Str :=
  percent g index cases ++ "Testing┊ ".toList ++ (if name = [] then "case".toList else name) ++ " ┊ ".toList ++
    (if suite = [] then "suite".toList else suite) ++ " ".toList

/-- The line of a case that ended. -/
def line (g : Cfg) (cases index : Nat) (status : String) (suite name place : Str) : Str :=
  percent g index cases ++ status.toList ++ "┊ ".toList ++ (if name = [] then "case".toList else name) ++ " ┊ ".toList ++
    (if suite = [] then "suite".toList else suite) ++ " ┊ ".toList ++ place ++ " ".toList

/-- `h` is the row for `t`: with blanks up to the width, or shortened to it. -/
def Row (W : Nat) (t h : Str) : Prop :=
  (room t ≤ W → h = t ++ List.replicate (W - room t) ' ') ∧ (W < room t → ∃ marked, H2.Abbrev.Shortened t W 0 marked h)

/-- What became of a case. -/
def outcome (c : Case) : Option Bucket :=
  if c.filtered || c.ignored then none
  else if c.todo then some .todo
  else if c.failed then some .failed
  else if c.warning then some .warning
  else some .passed

/-- What is told about a case that ran, line by line. -/
def about (g : Cfg) (cases : Nat) (told : Info → Str) (index : Nat) (suite : Str) (c : Case) (i : Info) : Bucket → List Str
  | .passed => if g.verbose = 3 ∨ 5 ≤ g.verbose then
      [line g cases index "Passed " suite c.name i.filine ++ if 5 ≤ g.verbose then told i else []] else []
  | .failed => if 1 ≤ g.verbose then
      line g cases index "Failed " suite c.name i.filine :: (if 4 ≤ g.verbose ∧ i.fails ≠ [] then i.fails ++ [[]] else []) else []
  | .warning => if 2 ≤ g.verbose then
      line g cases index "Warning" suite c.name i.filine :: (if 5 ≤ g.verbose ∧ i.fails ≠ [] then i.fails ++ [[]] else []) else []
  | _ => []

/-- The rows about a case, the `index`-th of the run. -/
def Kind.lines (k : Kind) (g : Cfg) (cases : Nat) (told : Info → Str) (index : Nat) (suite : Str) (c : Case) (i : Info) : List Str :=
  match outcome c with
  | some b => (about g cases told index suite c i b).flatMap k.rows
  | none => []

/-- The rows that an event is worth by itself: those about a case, about a suite, and the last line. -/
def Kind.reports (k : Kind) (g : Cfg) (cases : Nat) (told : Info → Str) : Ev → List Str
  | .ended index s c i => k.lines g cases told index s.name c i
  | .suite index t => k.rows (percent g index cases ++ t)
  | .finish t => k.rows t
  | _ => []

/-- What the code of the user writes. -/
def writes : List Ev → List Str
  | [] => []
  | .write t :: r => t :: writes r
  | _ :: r => writes r

/-- What stands on the row of the cursor while the report waits: nothing; nothing, though something was written while suites were
collected; the line of progress; or a line about a case left to do. -/
inductive Waits where
  | empty
  | gap
  | progress (row : Str)
  | todo (line : Str)

/-- The rows that remain when the report goes on; `ws` was written meanwhile.
* What was written remains, from the beginning of a row (behind a line about a case left to do).
* After something was written while suites were collected there is a row more.
* The line of progress only remains above something written.
* Of a line about a case left to do, the last row is lost, unless something was written behind it. -/
def Kind.remains (k : Kind) (ws : List Str) : Waits → List Str
  | .empty => if ws.flatten = [] then [] else k.rows ws.flatten
  | .gap => k.rows ws.flatten
  | .progress row => (if ws = [] then [] else [row]) ++ if ws.flatten = [] then [] else k.rows ws.flatten
  | .todo t => if ws.flatten = [] then (k.rows t).dropLast else k.rows (t ++ ws.flatten)

/-- The rows for a sequence of events, from the time when `x` waits and `ws` has been written.  `head` gives the row of progress of a
case, by its number, suite and name. -/
def Kind.seen (k : Kind) (g : Cfg) (cases : Nat) (told : Info → Str) (head : Nat → Str → Str → Str) : Waits → List Str → List Ev → List Str
  | x, ws, [] => k.remains ws x
  | x, ws, .write t :: r => k.seen g cases told head x (if 4 ≤ g.verbose then ws ++ [t] else ws) r
  | x, ws, .start index s c :: r =>
    match outcome c with
    | none | some .todo => k.seen g cases told head x ws r
    | _ => k.remains ws x ++ k.seen g cases told head (if g.progressing then .progress (head index s.name c.name) else .empty) [] r
  | x, ws, .ended index s c i :: r =>
    match outcome c with
    | none => k.seen g cases told head x ws r
    | some .todo =>
      if 5 ≤ g.verbose then
        k.remains ws x ++ k.seen g cases told head (.todo (line g cases index (if i.absent then "TODO   " else "Todo   ") s.name c.name i.filine)) [] r
      else k.seen g cases told head x ws r
    | some b =>
      match about g cases told index s.name c i b with
      | [] => k.seen g cases told head x ws r
      | l => k.remains ws x ++ l.flatMap k.rows ++ k.seen g cases told head .empty [] r
  | x, ws, .suite index t :: r => k.remains ws x ++ k.rows (percent g index cases ++ t) ++ k.seen g cases told head .empty [] r
  | x, ws, .finish t :: r => k.remains ws x ++ k.rows t ++ k.seen g cases told head .empty [] r

/-- What is shown of what the code of the user writes: all or nothing. -/
def heard (g : Cfg) (ws : List Str) : List Str := if 4 ≤ g.verbose then ws else []

/-- The dots that are there when suite `i` of `n` is collected: `d - 1 ≤ i * (W - 11) / (n + 10⁻⁶) < d`, one more than its share of
the row behind `Collecting `. -/
def Dots (W n i d : Nat) : Prop :=
  1 ≤ d ∧ (d - 1) * (1000000 * n + 1) ≤ 1000000 * (i * (W - 11)) ∧ 1000000 * (i * (W - 11)) < d * (1000000 * n + 1)

/-- The text behind `Collecting ` while suites are collected, `dots i` being the dots that are there when suite `i` is. -/
def collecting (dots : Nat → Nat) (ws : Nat → List Str) : Nat → Str
  | 0 => []
  | i + 1 => collecting dots ws i ++ List.replicate (dots i - (if i = 0 then 0 else dots (i - 1))) '.' ++ (ws i).flatten

/-- A text without control characters. -/
def Plain (t : Str) : Prop := ∀ c ∈ t, ¬ Control c

/-- A text without control characters other than line ends. -/
def Clean (t : Str) : Prop := ∀ c ∈ t, c = '\n' ∨ ¬ Control c

/-- Names and places are plain and not endless, all other texts are clean. -/
def Ev.Good (g : Cfg) (cases : Nat) (told : Info → Str) : Ev → Prop
  | .write t => Clean t
  | .start index s c => Plain s.name ∧ Plain c.name ∧ room (testing g cases index s.name c.name) < 2 ^ 64
  | .ended _ s c i => Plain s.name ∧ Plain c.name ∧ Plain i.filine ∧ Clean (told i) ∧ ∀ t ∈ i.fails, Clean t
  | .suite _ t => Clean t
  | .finish t => Clean t

end H2.Screen
