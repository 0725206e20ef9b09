import Verif.Json.ExprSpec
/-
What the arguments of `BLOCK(...)` mean, independently of how they are looked up.
-/
namespace H2.Attrs
open H2.Json.Expr (Literal digitValue isHex isDecimal)

/-- The attributes a block can be given. -/
inductive Item where
  | limit (n : Nat)
  | align (n : Nat)
  | fill (bytes : List UInt8)
  | noleak
  | unmem
deriving DecidableEq

def Item.name : Item → List Char
  | .limit _ => "limit".toList
  | .align _ => "align".toList
  | .fill _ => "fill".toList
  | .noleak => "noleak".toList
  | .unmem => "unmem".toList

def Blank (s : List Char) : Prop := ∀ c ∈ s, c = ' ' ∨ c = '\t' ∨ c = '\n'

/-- Two hexadecimal digits make a byte. -/
def pairs : List Nat → List UInt8
  | a :: b :: r => UInt8.ofNat (16 * a + b) :: pairs r
  | _ => []

/-- The bytes written by hexadecimal digits, in the order written; an odd digit is the first. -/
def hexBytes (ds : List Char) : List UInt8 :=
  if ds.length % 2 = 1 then pairs (0 :: ds.map digitValue) else pairs (ds.map digitValue)

/-- How many bytes hold a number: 1, 2, 4 or 8. -/
def width (n : Nat) : Nat := if n < 2 ^ 8 then 1 else if n < 2 ^ 16 then 2 else if n < 2 ^ 32 then 4 else 8

/-- A number as bytes, the lowest first. -/
def littleEndian (n : Nat) : List UInt8 := (List.range (width n)).map fun i => UInt8.ofNat (n / 256 ^ i % 256)

/-- The values of attributes and how they are written.  Numbers are rounded to `double` (`fl`) and cut to whole ones; bytes are written
in hexadecimal (at most 32 bytes) or as a decimal number, a negative one in two's complement of 64 bits. -/
inductive Value (fl : Rat → Rat) : Item → List Char → Prop
  | limit {l q n} : Literal l q → (fl q).floor = ((n : Nat) : Int) → n < 2 ^ 64 → Value fl (.limit n) l
  | align {l q n} : Literal l q → (fl q).floor = ((n : Nat) : Int) → n < 2 ^ 64 → Value fl (.align n) l
  | hex {x ds} : x = 'x' ∨ x = 'X' → ds ≠ [] → (∀ d ∈ ds, isHex d = true) → ds.length ≤ 64 →
      Value fl (.fill (hexBytes ds)) ('0' :: x :: ds)
  | decimal {ds} : ds ≠ [] → (∀ d ∈ ds, isDecimal d = true) → H2.Json.Expr.number 10 ds 0 < 2 ^ 64 →
      Value fl (.fill (littleEndian (H2.Json.Expr.number 10 ds 0))) ds
  | plus {ds} : ds ≠ [] → (∀ d ∈ ds, isDecimal d = true) → H2.Json.Expr.number 10 ds 0 < 2 ^ 64 →
      Value fl (.fill (littleEndian (H2.Json.Expr.number 10 ds 0))) ('+' :: ds)
  | minus {ds} : ds ≠ [] → (∀ d ∈ ds, isDecimal d = true) → 0 < H2.Json.Expr.number 10 ds 0 → H2.Json.Expr.number 10 ds 0 < 2 ^ 64 →
      Value fl (.fill (littleEndian (2 ^ 64 - H2.Json.Expr.number 10 ds 0))) ('-' :: ds)

/-- What follows the name: `= value`, or nothing. -/
inductive Rest (fl : Rat → Rat) : Item → List Char → Prop
  | value {it a b v c} : Blank a → Blank b → Blank c → Value fl it v → Rest fl it (a ++ '=' :: (b ++ (v ++ c)))
  | noleak {a} : Blank a → Rest fl .noleak a
  | unmem {a} : Blank a → Rest fl .unmem a

/-- The arguments of a block: `name = value` or `name`, separated by commas, names in any case of letters, blanks anywhere between. -/
inductive Attributes (fl : Rat → Rat) : List Item → List Char → Prop
  | none {a} : Blank a → Attributes fl [] a
  | last {it a nm r} : Blank a → nm.map Char.toLower = it.name → Rest fl it r → Attributes fl [it] (a ++ (nm ++ r))
  | cons {it a nm r its t} : Blank a → nm.map Char.toLower = it.name → Rest fl it r → Attributes fl its t →
      Attributes fl (it :: its) (a ++ (nm ++ (r ++ ',' :: t)))

/-- The attributes that are meant: the first of each kind. -/
def limitOf : List Item → Nat
  | [] => 2 ^ 48 - 1
  | .limit n :: _ => n
  | _ :: its => limitOf its

def alignOf : List Item → Nat
  | [] => 8
  | .align n :: _ => n
  | _ :: its => alignOf its

def fillOf : List Item → List UInt8
  | [] => []
  | .fill bs :: _ => bs
  | _ :: its => fillOf its

end H2.Attrs
