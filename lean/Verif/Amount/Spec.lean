import Verif.Amount.Model
import Verif.Console.Spec
/-
How amounts are read: a number, with or without a point, and a unit.  Values are in thousandths of a millisecond or of a byte.
-/
namespace H2.Amount.Spec
open H2.Console (Str before)

/-- What is asked of `printf("%.df", a / b)`: off by less than one unit of the last digit, greater for greater numbers, and
right for whole numbers.  Rounding to nearest does that, for all but absurd sizes. -/
structure Printf (fixed : Nat → Nat → Nat → Nat) : Prop where
  near : ∀ d a b, 0 < b → a < b * 10 ^ 9 → fixed d a b * b < a * 10 ^ d + b ∧ a * 10 ^ d < fixed d a b * b + b
  mono : ∀ d a a' b, 0 < b → a ≤ a' → fixed d a b ≤ fixed d a' b
  whole : ∀ d k b, 0 < b → k < 10 ^ 9 → fixed d (k * b) b = k * 10 ^ d

/-- The value of digits. -/
def value : Str → Nat → Nat
  | [], n => n
  | c :: s, n => value s (n * 10 + (c.toNat - 48))

/-- A number: digits, or digits, a point and up to three digits; in thousandths. -/
def number (s : Str) : Option Nat :=
  let a := s.takeWhile Char.isDigit
  match s.dropWhile Char.isDigit with
  | [] => if a = [] then none else some (value a 0 * 1000)
  | '.' :: b =>
    if a ≠ [] ∧ b ≠ [] ∧ b.all Char.isDigit ∧ b.length ≤ 3 then some (value (a ++ b) 0 * 10 ^ (3 - b.length)) else none
  | _ => none

/-- The units of time, in milliseconds. -/
def times : List (String × Nat) :=
  [(" milliseconds", 1), (" second", 1000), (" seconds", 1000), (" minute", 60000), (" minutes", 60000), (" hour", 3600000),
   (" hours", 3600000)]

/-- The units of memory, in bytes. -/
def sizes : List (String × Nat) := [("", 1), ("KB", 1024), ("MB", 1024 * 1024), ("GB", 1024 * 1024 * 1024)]

/-- The part of a text that is a number. -/
def figure (c : Char) : Bool := c.isDigit || c = '.'

/-- A number and a unit. -/
def quantity (us : List (String × Nat)) (s : Str) : Option Nat :=
  (number (s.takeWhile figure)).bind fun n =>
    (us.find? fun u => u.1.toList == s.dropWhile figure).map fun u => n * u.2

/-- With a sign. -/
def amount (us : List (String × Nat)) (s : Str) : Option Int :=
  match s with
  | '-' :: r => (quantity us r).map fun (n : Nat) => -(n : Int)
  | r => (quantity us r).map fun (n : Nat) => (n : Int)

/-- What the last digit of a duration counts, in milliseconds. -/
def grain (ms : Int) : Int := if ms < 100 then 1 else if ms < 60000 then 100 else if ms < 3600000 then 600 else 3600

/-- What the last digit of a volume counts, in thousandths of a byte. -/
def grit (v : Nat) : Int :=
  if v < 1024 then 1000 else if v < 1024 * 1024 then 102400 else if v < 1024 * 1024 * 1024 then 10485760 else 1073741824

/-- What the words behind the outcomes tell: the assertions, the footprint and, last, the duration, each if it is to be told. -/
def Tells (ws : List Str) (asserts footprint : Nat) (timecost : Int) (least : Int) : Prop :=
  (before (if 1 < asserts then "asserts" else "assert") ws = if 0 < asserts then some (Nat.toDigits 10 asserts) else none)
  ∧ (if 0 < footprint then ∃ w v, before "footprint" ws = some w ∧ amount sizes w = some v ∧ (v - footprint * 1000).natAbs < grit footprint
      else before "footprint" ws = none)
  ∧ (if least < timecost then ∃ pre n u v, ws = pre ++ [n, u] ∧ amount times (n ++ ' ' :: u) = some v
        ∧ (v - timecost * 1000).natAbs < grain timecost * 1000
      else ∀ u, ws.getLast? = some u → ∀ n : String × Nat, n ∈ times → n.1.toList ≠ ' ' :: u)

end H2.Amount.Spec
