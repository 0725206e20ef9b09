import Verif.Sock.Model
import Verif.Misc.Model
import Verif.Memory.Model
import Verif.Json.Expr
/-
Model of the attributes of `BLOCK(...)`, `/repo/source/memory/h2_block.cpp:1-29`, and of what the block itself asks of them,
`/repo/source/memory/h2_memory.cpp:63-73`.

The text is what the preprocessor makes of the arguments of `BLOCK`.  `fl` is the rounding of the C library to `double`.
-/
namespace H2.Attrs
open H2.Sock (getKeyvalue isspace)

abbrev Text := List Char

/-- `strtod` of the C library behind the sign: the number at the start, 0 without one.  Infinity and "not a number" have no value that
fits an unsigned integer: `none`. -/
def magnitude (s : Text) : Option Rat :=
  if (s.take 3).map Char.toLower = "inf".toList ∨ (s.take 3).map Char.toLower = "nan".toList then none
  else
    match H2.Json.Expr.strtod s with
    | some (q, _) => some q
    | none => some 0

/-- `strtod` of the C library, with white space and a sign. -/
def strtod (s : Text) : Option Rat :=
  match s.dropWhile isspace with
  | '-' :: r => (magnitude r).map (fun q => -q)
  | '+' :: r => magnitude r
  | r => magnitude r

/-- A `double` as an unsigned integer of 64 bits: what is behind the point is dropped; `none` (undefined) if the rest does not fit. -/
def toUnsigned (q : Rat) : Option Nat := if -1 < q ∧ q < 18446744073709551616 then some q.floor.toNat else none

/-- `strtod(p, nullptr)` assigned to an unsigned integer, `/repo/source/memory/h2_block.cpp:25-26`. -/
def number (fl : Rat → Rat) (p : Text) : Option Nat := (strtod p).bind fun q => toUnsigned (fl q)

/-- `strtoull(p, nullptr, 10)` behind the sign: too large a number is the largest. -/
def decimal (s : Text) : Nat :=
  min ((s.takeWhile Char.isDigit).foldl (fun v c => 10 * v + (c.toNat - '0'.toNat)) 0) (2 ^ 64 - 1)

/-- `strtoull(p, nullptr, 10)`. -/
def strtoull (s : Text) : Nat :=
  match s.dropWhile isspace with
  | '-' :: r => (2 ^ 64 - decimal r) % 2 ^ 64
  | '+' :: r => decimal r
  | r => decimal r

/-- Bytes stored into `s_fill`, which has room for 32, `/repo/source/memory/h2_block.cpp:5`; more is undefined. -/
def stored (bs : List Nat) : Option (List UInt8) := if bs.length ≤ 32 then some (bs.map UInt8.ofNat) else none

/-- `parse_fill`, `/repo/source/memory/h2_block.cpp:8-19`. -/
def fill (p : Text) : Option (List UInt8) :=
  match p with
  | '0' :: x :: r => if x.toLower = 'x' then (H2.Misc.hex2bytes r).bind stored else some (H2.Memory.parseFill (strtoull p))
  | p => some (H2.Memory.parseFill (strtoull p))

/-- `if ((p = get_keyvalue(...))) member = ...`: the member keeps what it has if the key is not there. -/
def given {α : Type} (v : Option Text) (dflt : α) (f : Text → Option α) : Option α :=
  match v with
  | none => some dflt
  | some p => f p

/-- The constructor, `/repo/source/memory/h2_block.cpp:21-28`; `none` is undefined behaviour. -/
def parse (fl : Rat → Rat) (t : Text) : Option H2.Memory.Attrs :=
  (given (getKeyvalue t "limit".toList) 0xffffffffffff (number fl)).bind fun limit =>
  (given (getKeyvalue t "align".toList) 8 (number fl)).bind fun alignment =>
  (given (getKeyvalue t "fill".toList) [] fill).map fun bs =>
    { limit := limit, alignment := alignment, fill := bs, noleak := (getKeyvalue t "noleak".toList).isSome }

/-- `unmem` of the block, `/repo/source/memory/h2_memory.cpp:63-66`. -/
def unmem (t : Text) : Bool := (getKeyvalue t "unmem".toList).isSome

end H2.Attrs
