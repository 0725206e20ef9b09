/-
Specification of the comparison of memory.
-/
namespace H2.Memcmp

/-- The bits of a byte, most significant first. -/
def byteBits (b : UInt8) : List Bool := [7, 6, 5, 4, 3, 2, 1, 0].map b.toNat.testBit

/-- The bits of an area. -/
def bits (l : List UInt8) : List Bool := l.flatMap byteBits

/-- `Binary s ds`: the text `s`, digits and blanks, has the binary digits `ds`. -/
inductive Binary : List UInt8 → List Bool → Prop
  | nil : Binary [] []
  | zero {s ds} : Binary s ds → Binary ('0'.toUInt8 :: s) (false :: ds)
  | one {s ds} : Binary s ds → Binary ('1'.toUInt8 :: s) (true :: ds)
  | blank {s ds} : Binary s ds → Binary (' '.toUInt8 :: s) ds

/-- The value of a hexadecimal digit. -/
def hexValue (c : UInt8) : Option Nat :=
  ("0123456789abcdef".toList.map Char.toUInt8).findIdx? (· = c) <|> ("0123456789ABCDEF".toList.map Char.toUInt8).findIdx? (· = c)

/-- Two hexadecimal digits for every byte. -/
inductive Pairs : List UInt8 → List UInt8 → Prop
  | nil : Pairs [] []
  | pair {h l s bs x y} : hexValue h = some x → hexValue l = some y → Pairs s bs → Pairs (h :: l :: s) (UInt8.ofNat (16 * x + y) :: bs)

/-- `Hex s bs`: the digits `s` stand for the bytes `bs`; the first digit of an odd number of digits is a byte of its own. -/
inductive Hex : List UInt8 → List UInt8 → Prop
  | even {s bs} : Pairs s bs → Hex s bs
  | odd {c s bs x} : hexValue c = some x → Pairs s bs → Hex (c :: s) (UInt8.ofNat x :: bs)

/-- White space in the sense of C. -/
def White (c : UInt8) : Prop := c ∈ [' ', '\t', '\n', '\x0b', '\x0c', '\r'].map Char.toUInt8

end H2.Memcmp
