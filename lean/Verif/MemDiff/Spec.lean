import Verif.Layout.Spec
/-
Specification of the comparison of two areas of memory: what a reader sees.
-/
namespace H2.MemDiff

abbrev Bytes := List UInt8

/-- A unit of an area: its digits, and whether the other area differs there. -/
abbrev Shown := List Char × Bool

/-- Bit `k` of an area, the highest bit of a byte first. -/
def bitAt (m : Bytes) (k : Nat) : Bool := (m.getD (k / 8) 0).toNat.testBit (7 - k % 8)

/-- The bits of `mine`, and whether `other` differs there. -/
def bitUnits (mine other : Bytes) (length : Nat) : List Shown :=
  (List.range length).map fun k => ([if bitAt mine k then '1' else '0'], bitAt mine k != bitAt other k)

/-- Unit `k` of `t` bytes: the lowest byte first, as the machine stores numbers. -/
def unitAt (m : Bytes) (t k : Nat) : Nat := ((List.range t).map fun p => (m.getD (k * t + p) 0).toNat * 256 ^ p).sum

/-- A number with `w` hexadecimal digits. -/
def hex (w n : Nat) : List Char := (List.range w).map fun p => "0123456789ABCDEF".toList.getD (n / 16 ^ (w - 1 - p) % 16) '?'

def intUnits (mine other : Bytes) (t length : Nat) : List Shown :=
  (List.range length).map fun k => (hex (2 * t) (unitAt mine t k), unitAt mine t k != unitAt other t k)

/-- How a character looks: whether it is in the colour `style` (blanks have no colour). -/
def look (style : List Char) (c : H2.Layout.Cell) : Char × Bool := (c.2, c.2 != ' ' && c.1 == some ("\x1b{".toList ++ style ++ "}".toList))

/-- Units in a row: blanks before unit `q`, then its digits, coloured where the areas differ. -/
def inRow (blanks : Nat → Nat) (units : List Shown) : List (Char × Bool) :=
  (units.mapIdx fun q u => List.replicate (blanks q) (' ', false) ++ u.1.map (·, u.2)).flatten

/-- A line shows the units (and perhaps blanks after them). -/
def RowShows (style : List Char) (blanks : Nat → Nat) (units : List Shown) (row : H2.Layout.Line) : Prop :=
  ∃ n, (H2.Layout.cells row).map (look style) = inRow blanks units ++ List.replicate n (' ', false)

/-- Lines show the units, `perRow` in each of them, as long as there are some. -/
def PictureShows (style : List Char) (blanks : Nat → Nat) (perRow : Nat) (units : List Shown) (lines : List H2.Layout.Line) : Prop :=
  lines.length = (units.length + perRow - 1) / perRow ∧
  ∀ (i : Nat) (row : H2.Layout.Line), lines[i]? = some row → RowShows style blanks ((units.drop (perRow * i)).take perRow) row

/-- Bits in groups of eight. -/
def bitBlanks (q : Nat) : Nat := if q = 0 then 0 else if q % 8 = 0 then 1 else 0
/-- A blank between units, two before the ninth. -/
def intBlanks (q : Nat) : Nat := if q = 0 then 0 else if q = 8 then 2 else 1

end H2.MemDiff

namespace H2.MemDiff

/-- `t` is the number `n`, written in base 16 without leading zeros. -/
def IsHex (t : List Char) (n : Nat) : Prop :=
  t ≠ [] ∧ (t = ['0'] ∨ t.head? ≠ some '0') ∧ (∀ c ∈ t, c ∈ "0123456789abcdef".toList) ∧
    t.foldl (fun v c => 16 * v + "0123456789abcdef".toList.idxOf c) 0 = n

/-- The table: pairs of rows side by side, each with the number of its first unit in front. -/
def TableShows (perRow : Nat) (left right table : List H2.Layout.Line) : Prop :=
  ∃ (blocks : List (List H2.Layout.Line)) (lw rw : Nat), table = blocks.flatten ∧ blocks.length = left.length ∧ left.length = right.length ∧
    ∀ (i : Nat) (l r : H2.Layout.Line) (block : List H2.Layout.Line), left[i]? = some l → right[i]? = some r → blocks[i]? = some block →
      ∃ (pad : Nat) (t : List Char), IsHex t (perRow * i) ∧
        H2.Layout.SideBySide lw rw (List.replicate pad ' ' ++ t ++ ['┊', ' ']) (List.replicate (pad + t.length + 2) ' ') l r block

/-- Bits to a row, and units to a row. -/
def unitsPerRow (width console : Nat) : Nat :=
  if width = 1 then 32 else if width = 8 then (if console < 108 then 8 else 16) else 128 / width

/-- Everything compared, in units of the width. -/
def units (mine other : Bytes) (length width : Nat) : List Shown :=
  if width = 1 then bitUnits mine other length else intUnits mine other (width / 8) length

end H2.MemDiff
