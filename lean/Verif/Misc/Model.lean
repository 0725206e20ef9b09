/-
Model of the small helpers of `/repo/source/utils/h2_misc.cpp` and of the UTF-8 splitting of
`/repo/source/utils/h2_string.cpp`.
-/
namespace H2.Misc

/-- `not2n` on `unsigned`, `/repo/source/utils/h2_misc.cpp:17-20`.  `x - 1` wraps only at 0, where
the conjunction is 0 whatever the second operand, as here. -/
def not2n (x : Nat) : Bool := x &&& (x - 1) ≠ 0

/-- `mask2n` on `unsigned`, `/repo/source/utils/h2_misc.cpp:22-30`. -/
def mask2n (x : Nat) : Nat :=
  let x := x ||| (x >>> 1)
  let x := x ||| (x >>> 2)
  let x := x ||| (x >>> 4)
  let x := x ||| (x >>> 8)
  x ||| (x >>> 16)

/-- The power of two the allocator rounds an alignment to,
`/repo/source/memory/h2_piece.cpp:23-24`. -/
def align2n (alignment : Nat) : Nat := if not2n alignment then mask2n alignment + 1 else alignment

/-- `number_strlen`, `/repo/source/utils/h2_misc.cpp:97-104`, for at most `fuel` iterations; the
product is an `unsigned long long` and wraps. -/
def strlenLoop (number base : Nat) : Nat → Nat → Nat → Option Nat
  | 0, _, _ => none
  | fuel + 1, i, prod =>
    let prod := prod * base % 2 ^ 64
    if number < prod then some i else strlenLoop number base fuel (i + 1) prod

def numberStrlen (number base fuel : Nat) : Option Nat := strlenLoop number base fuel 1 1

/-- `::isxdigit` in the C locale. -/
def isxdigit (c : Char) : Bool :=
  ('0'.toNat ≤ c.toNat && c.toNat ≤ '9'.toNat) || ('A'.toNat ≤ c.toNat && c.toNat ≤ 'F'.toNat) ||
    ('a'.toNat ≤ c.toNat && c.toNat ≤ 'f'.toNat)

/-- `hex2byte`, `/repo/source/utils/h2_misc.cpp:61-64` (never called with anything but a digit;
-1 is modelled as 0). -/
def hex2byte (c : Char) : Nat :=
  if '0'.toNat ≤ c.toNat ∧ c.toNat ≤ '9'.toNat then c.toNat - '0'.toNat
  else if 'A'.toNat ≤ c.toNat ∧ c.toNat ≤ 'F'.toNat then c.toNat - 'A'.toNat + 10
  else if 'a'.toNat ≤ c.toNat ∧ c.toNat ≤ 'f'.toNat then c.toNat - 'a'.toNat + 10
  else 0

/-- The second loop of `hex2bytes`, `/repo/source/utils/h2_misc.cpp:78-82`: `b` is the previous
digit, uninitialised (`none`) at the start of an even count; reading it then would be undefined
behaviour (the result `none`). -/
def hexLoop : List Char → Nat → Option Char → Option (List Nat)
  | [], _, _ => some []
  | c :: s, i, b =>
    if i % 2 = 1 then
      match b with
      | none => none
      | some b => (hexLoop s (i + 1) (some c)).map ((((hex2byte b) <<< 4) + hex2byte c) % 256 :: ·)
    else hexLoop s (i + 1) (some c)

/-- `hex2bytes`, `/repo/source/utils/h2_misc.cpp:66-84`: the bytes stored. -/
def hex2bytes (hex : List Char) : Option (List Nat) :=
  let ds := hex.takeWhile isxdigit
  if ds.length % 2 = 1 then hexLoop ds 1 (some '0') else hexLoop ds 0 none

/-- `utf8len`, `/repo/source/utils/h2_string.cpp:1-7`. -/
def utf8len (b : UInt8) : Nat :=
  if 0xf8 &&& b == 0xf0 then 4
  else if 0xf0 &&& b == 0xe0 then 3
  else if 0xe0 &&& b == 0xc0 then 2
  else 1

/-- `disperse`, `/repo/source/utils/h2_string.cpp:144-153`, on the bytes before the terminating NUL.
A lead byte announcing more bytes than remain makes the code copy the terminator and step behind
it: reading there is undefined, the outcome `none`. -/
def disperse (s : List UInt8) : Option (List (List UInt8)) :=
  match s with
  | [] => some []
  | b :: s =>
    if (b :: s).length < utf8len b then none
    else (disperse ((b :: s).drop (utf8len b))).map ((b :: s).take (utf8len b) :: ·)
  termination_by s.length
  decreasing_by
    have : 1 ≤ utf8len b := by unfold utf8len; split <;> (try split) <;> (try split) <;> omega
    simp; omega

/-- `width`, `/repo/source/utils/h2_string.cpp:27-35`, with the same treatment of the end. -/
def width (fat : Nat) (s : List UInt8) : Option Nat :=
  match s with
  | [] => some 0
  | b :: s =>
    if (b :: s).length < utf8len b then none
    else (width fat ((b :: s).drop (utf8len b))).map ((if utf8len b = 1 then 1 else fat) + ·)
  termination_by s.length
  decreasing_by
    have : 1 ≤ utf8len b := by unfold utf8len; split <;> (try split) <;> (try split) <;> omega
    simp; omega

/-- `h2_basefile`, `/repo/source/utils/h2_misc.cpp:8-15`: scan backwards from the terminator. -/
def basefile (path : List Char) : List Char :=
  (path.reverse.takeWhile (fun c => !(c == '/' || c == '\\'))).reverse

/-- `centre`, `/repo/source/utils/h2_string.cpp:133-142`. -/
def centre (s : List Char) (width : Nat) : List Char :=
  if width ≤ s.length then s
  else
    let left := (width - s.length) / 2
    let right := width - left - s.length
    List.replicate left ' ' ++ s ++ List.replicate right ' '

end H2.Misc
