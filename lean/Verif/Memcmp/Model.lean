import Verif.Misc.Model
/-
Model of the comparison of memory: `/repo/source/matcher/h2_matches_memcmp.cpp`,
`/repo/source/matcher/h2_matches_memcmp.hpp`.
-/
namespace H2.Memcmp

/-- An area of memory that can be read: its bytes.  Reading beyond is undefined behaviour (`none` below). -/
abbrev Area := List UInt8

/-- `bits_equal`, `/repo/source/matcher/h2_matches_memcmp.cpp:1-8`: `m` turns of the loop, from `n` on. -/
def bitsLoop (b1 b2 : Area) : Nat → Nat → Option Bool
  | 0, _ => some true
  | m + 1, n =>
    match b1[n / 8]?, b2[n / 8]? with
    | some x, some y =>
      if ((x.toNat >>> (7 - n % 8)) &&& 1) ≠ ((y.toNat >>> (7 - n % 8)) &&& 1) then some false else bitsLoop b1 b2 m (n + 1)
    | _, _ => none

def bitsEqual (b1 b2 : Area) (nbits : Nat) : Option Bool := bitsLoop b1 b2 nbits 0

/-- The C string at the start of an area; there has to be a NUL. -/
def cstring : Area → Option Area
  | [] => none
  | c :: s => if c = 0 then some [] else (cstring s).map (c :: ·)

/-- Whether `strcmp` finds no difference between a string and an area: bytes are read up to the first difference. -/
def strcmpEq : Area → Area → Option Bool
  | _, [] => none
  | [], y :: _ => some (y == 0)
  | x :: s, y :: a => if x = y then strcmpEq s a else some false

/-- `::isspace` in the C locale.  (For bytes from 128 on the argument is negative, which is undefined behaviour; here these are no
spaces, digits or letters.) -/
def isspace (c : UInt8) : Bool := c == 0x20 || (0x09 ≤ c && c ≤ 0x0d)
/-- Bytes as characters. -/
def char (c : UInt8) : Char := Char.ofNat c.toNat
/-- `::tolower` in the C locale. -/
def tolower (c : UInt8) : UInt8 := if 0x41 ≤ c ∧ c ≤ 0x5a then c + 32 else c

/-- `is_hex_string`, `/repo/source/matcher/h2_matches_memcmp.cpp:10-17`. -/
def isHexString (s : Area) : Bool :=
  (s.head? == some 0x30 && (s[1]?.map tolower == some 0x78)) || s.all fun c => H2.Misc.isxdigit (char c) || isspace c

/-- `is_bin_string`, `/repo/source/matcher/h2_matches_memcmp.cpp:19-25`. -/
def isBinString (s : Area) : Bool := s.all fun c => c == 0x30 || c == 0x31 || isspace c

/-- The loop of `bin_to_bits`, `/repo/source/matcher/h2_matches_memcmp.cpp:31-37`. -/
def binLoop : Area → Nat → Area → Nat × Area
  | [], c, bytes => (c, bytes)
  | p :: s, c, bytes =>
    if p = 0x20 then binLoop s c bytes
    else
      let ebit : Nat := if p = 0x31 then 1 else 0
      binLoop s (c + 1) (bytes.modify (c / 8) fun b => UInt8.ofNat (b.toNat ||| (ebit <<< (7 - c % 8))))

/-- `bin_to_bits`, `/repo/source/matcher/h2_matches_memcmp.cpp:27-39`: the number of bits and the bytes. -/
def binToBits (bin : Area) : Nat × Area := binLoop bin 0 (List.replicate bin.length 0)

/-- `hex_to_bytes`, `/repo/source/matcher/h2_matches_memcmp.cpp:41` (`hex2bytes` in `Verif.Misc.Model`). -/
def hexToBytes (hex : Area) : Option Area := (H2.Misc.hex2bytes (hex.map char)).map fun l => l.map UInt8.ofNat

/-- What `Me` is given: the buffer, what its type and declaration say, size and width (0 when left out). -/
structure Me where
  buffer : Area
  /-- the type converts to a string -/
  string : Bool
  /-- bits of what the pointer points to -/
  elementBits : Nat
  /-- elements of an array, 0 for pointers -/
  dimension : Nat
  size : Nat
  width : Nat

/-- What `matches` finds. -/
inductive Outcome where
  /-- reading outside of an area, or uninitialised bytes -/
  | undefined
  /-- "size not specified" -/
  | unspecified
  | result (equal : Bool)
deriving DecidableEq

def Outcome.of : Option Bool → Outcome
  | none => .undefined
  | some b => .result b

/-- The end of `matches`, `/repo/source/matcher/h2_matches_memcmp.hpp:35-38`, with `e`, `z`, `w` as they are then.  What follows
the bytes stored in an area on the stack is outside of it, or uninitialised.  `z * w` is computed with 64 bits. -/
def finish (m : Me) (a e : Area) (z w : Nat) : Outcome :=
  let w := if w = 0 then m.elementBits else w
  let z := if z = 0 then m.dimension else z
  if z = 0 ∨ w = 0 then .unspecified else .of (bitsEqual e a (z * w % 2 ^ 64))

/-- `matches`, `/repo/source/matcher/h2_matches_memcmp.hpp:14-40`. -/
def check (m : Me) (a : Area) : Outcome :=
  if m.width = 0 ∧ m.size = 0 ∧ m.string then
    match cstring m.buffer with
    | none => .undefined
    | some b =>
      match strcmpEq b a with
      | none => .undefined
      | some true => .result true
      | some false =>
        if isBinString b then finish m a (binToBits b).2 (binToBits b).1 1
        else if isHexString b then
          match hexToBytes b with
          | none => .undefined
          | some e => finish m a e e.length 8
        else finish m a m.buffer b.length 8
  else finish m a m.buffer m.size m.width

/-- The matcher accepts or reports a failure; what is not specified fails even when negated,
`/repo/source/matcher/h2_matches_memcmp.hpp:37,40`. -/
def accepts (m : Me) (negative : Bool) (a : Area) : Option Bool :=
  match check m a with
  | .undefined => none
  | .unspecified => some false
  | .result b => some (b != negative)

end H2.Memcmp
