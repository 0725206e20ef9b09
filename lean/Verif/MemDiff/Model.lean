import Verif.Layout.Model
import Verif.Misc.Model
/-
Model of how two areas of memory that differ are shown: `h2_fail_memcmp`, `/repo/source/report/h2_failure.cpp:204-292`, and
`h2_layout::split`, `/repo/source/report/h2_layout.cpp:63-79`.
-/
namespace H2.MemDiff
open H2.Layout (Line Word)

abbrev Area := List UInt8

/-- The lines of both sides: expected and actual. -/
abbrev Sides := Line × Line

/-- `h2_line::printf(style, …)` with a style, `/repo/source/utils/h2_line.cpp:23-31`. -/
def styled (style text : Word) : Line := ["\x1b{".toList ++ style ++ "}".toList, text, "\x1b{reset}".toList]

/-- What is appended to both lines, one after the other; `none` if something was read outside of an area. -/
def collect : List (Option Sides) → Option Sides
  | [] => some ([], [])
  | none :: _ => none
  | some s :: l => (collect l).map fun t => (s.1 ++ t.1, s.2 ++ t.2)

/-- The rows, one after the other. -/
def rows : List (Option Sides) → Option (List Line × List Line)
  | [] => some ([], [])
  | none :: _ => none
  | some s :: l => (rows l).map fun t => (s.1 :: t.1, s.2 :: t.2)

/-- Equal units are shown plain, others in green and red, `/repo/source/report/h2_failure.cpp:249-255,278-284`. -/
def compared (equal : Bool) (e a : Word) : Sides :=
  if equal then ([e], [a]) else (styled "green".toList e, styled "bold,red".toList a)

/-- `(value >> (7 - k)) & 0x1` -/
def bit (b : UInt8) (k : Nat) : Nat := (b.toNat >>> (7 - k)) &&& 1

def bitWord (v : Nat) : Word := if v = 0 then ['0'] else ['1']

/-- Bit `k` of byte `n`, `/repo/source/report/h2_failure.cpp:246-256`. -/
def bitCell (e a : Area) (length n k : Nat) : Option Sides :=
  if n * 8 + k < length then
    match e[n]?, a[n]? with
    | some x, some y => some (compared (bit x k == bit y k) (bitWord (bit x k)) (bitWord (bit y k)))
    | _, _ => none
  else some ([], [])

/-- One row of bits, `/repo/source/report/h2_failure.cpp:241-260`. -/
def bitsRow (e a : Area) (length perRow i : Nat) : Option Sides :=
  collect ((List.range perRow).flatMap fun j =>
    (if j = 0 then [] else [some ([[' ']], [[' ']])]) ++ (List.range 8).map fun k => bitCell e a length (i * perRow + j) k)

/-- `(size_t)::ceil(size * 1.0 / perRow)`; exact as long as `size` is less than 2^53. -/
def ceilDiv (size perRow : Nat) : Nat := (size + perRow - 1) / perRow

/-- `print_bits`, `/repo/source/report/h2_failure.cpp:236-261`. -/
def printBits (e a : Area) (length perRow : Nat) : Option (List Line × List Line) :=
  rows ((List.range (ceilDiv e.length perRow)).map fun i => bitsRow e a length perRow i)

/-- A value of several bytes as the machine reads it (little-endian). -/
def little : Area → Nat
  | [] => 0
  | b :: l => b.toNat + 256 * little l

/-- `*(T*)(data + offset)` with `sizeof(T) = t`. -/
def readInt (m : Area) (offset t : Nat) : Option Nat :=
  if offset + t ≤ m.length then some (little ((m.drop offset).take t)) else none

def upperDigit (d : Nat) : Char := if d < 10 then Char.ofNat (48 + d) else Char.ofNat (55 + d)

/-- `%0wX` for a value below `16 ^ w`. -/
def hexFixed : Nat → Nat → Word
  | 0, _ => []
  | w + 1, n => hexFixed w (n / 16) ++ [upperDigit (n % 16)]

/-- What stands before a unit, `/repo/source/report/h2_failure.cpp:276-277`. -/
def separator (q : Nat) : Word := if q = 0 then [] else if q = 8 then [' ', ' '] else [' ']

/-- Unit `q` of row `i`, `/repo/source/report/h2_failure.cpp:272-285`, with `j = q * t`. -/
def intCell (e a : Area) (t perRow i q : Nat) : Option Sides :=
  if i * perRow + q * t < e.length then
    match readInt e (i * perRow + q * t) t, readInt a (i * perRow + q * t) t with
    | some x, some y => some (compared (x == y) (separator q ++ hexFixed (2 * t) x) (separator q ++ hexFixed (2 * t) y))
    | _, _ => none
  else some ([], [])

/-- One row, `/repo/source/report/h2_failure.cpp:270-289`: `j` is 0, `t`, `2 t`, … below `perRow`. -/
def intsRow (e a : Area) (t perRow i : Nat) : Option Sides :=
  collect ((List.range (ceilDiv perRow t)).map fun q => intCell e a t perRow i q)

/-- `print_ints<T>`, `/repo/source/report/h2_failure.cpp:263-291`. -/
def printInts (e a : Area) (t perRow : Nat) : Option (List Line × List Line) :=
  rows ((List.range (ceilDiv e.length perRow)).map fun i => intsRow e a t perRow i)

/-- The constructor keeps the bytes that hold `length * width` bits, `/repo/source/report/h2_failure.cpp:207`. -/
def stored (m : Area) (length width : Nat) : Option Area :=
  if (length * width + 7) / 8 ≤ m.length then some (m.take ((length * width + 7) / 8)) else none

/-- Which form a width takes, and how many bytes are in a row, `/repo/source/report/h2_failure.cpp:214-221`. -/
def picture (e a : Area) (length width console : Nat) : Option ((List Line × List Line) × Nat) :=
  match width with
  | 1 => (printBits e a length 4).map (·, 4)
  | 8 => let perRow := if console < 108 then 8 else 16
         (printInts e a 1 perRow).map (·, perRow)
  | 16 => (printInts e a 2 16).map (·, 16)
  | 32 => (printInts e a 4 16).map (·, 16)
  | 64 => (printInts e a 8 16).map (·, 16)
  | _ => some (([], []), 0)

def lowerDigit (d : Nat) : Char := if d < 10 then Char.ofNat (48 + d) else Char.ofNat (87 + d)

def hexGo : Nat → Nat → Word
  | 0, _ => []
  | f + 1, n => (if n < 16 then [] else hexGo f (n / 16)) ++ [lowerDigit (n % 16)]

/-- `%x` -/
def hexText (n : Nat) : Word := hexGo (n + 1) n

/-- `%wx┊ `, `/repo/source/report/h2_layout.cpp:31,38`. -/
def number (w n : Nat) : Word := List.replicate (w - (hexText n).length) ' ' ++ hexText n ++ ['┊', ' ']

/-- `h2_lines::width`, `/repo/source/utils/h2_line.cpp:140-146`. -/
def linesWidth (l : List Line) : Nat := l.foldl (fun m x => max m (H2.Layout.lineWidth x)) 0

/-- `h2_layout::split` for numbers in base 16, `/repo/source/report/h2_layout.cpp:63-79`: the title and the rows.  (The number of
digits is found in at most 17 turns for less than `16 ^ 15`.) -/
def split (left right : List Line) (leftTitle rightTitle : Word) (step width : Nat) : Option (List Line) :=
  match H2.Misc.numberStrlen (step * max left.length right.length) 16 17 with
  | none => none
  | some seqWidth =>
    let c := H2.Layout.columns width seqWidth (max (linesWidth left) leftTitle.length) (max (linesWidth right) rightTitle.length)
    let title : Line := [if step = 0 then [] else H2.Layout.spaces (seqWidth + 2), H2.Misc.centre leftTitle c.1, "   ".toList, H2.Misc.centre rightTitle c.2]
    (H2.Layout.linesMerge (fun i => number seqWidth (step * i)) (step != 0) seqWidth c.1 c.2 left right).map fun ls =>
      H2.Layout.brush title "dark gray".toList :: ls

/-- What is printed below the message, `/repo/source/report/h2_failure.cpp:208-223`. -/
def print (e a : Area) (length width console : Nat) : Option (List Line) :=
  match stored e length width, stored a length width with
  | some e, some a =>
    match picture e a length width console with
    | some (p, perRow) => split p.1 p.2 "expect".toList "actual".toList (perRow * 8 / width) console
    | none => none
  | _, _ => none

end H2.MemDiff
