import Verif.Message.Model
/-
Model of how values are turned into text for failures: `/repo/source/utils/h2_stringify.hpp`.

A value is a tree: what C++ selects by the type of a value (`h2_stringify_impl<T>`) is the constructor here.  Lines are lists of words,
as in `Verif.Layout.Model`.
-/
namespace H2.Stringify
open H2.Layout (Word Line)
open H2.Message (gray commaIf)

/-- Values that are printed.
* `int`: integers of any width, `unsigned char` and enumerations included (`:53-70`, `:138-141`, `/repo/source/utils/h2_template.hpp:17-18`).
* `float neg m`: a floating point number, of which `std::to_string` prints the sign and `m` millionths; `special`: `inf`, `nan`.
* `bool`, `char`: (`:123-126`, `:143-146`).
* `str`: `std::string`, and `const char*` other than null (`:42-51`, `:128-131`); `wstr`: wide texts (`:148-161`); `nullStr`: a null
  `const char*` or `const wchar_t*`; `nullPtr`: `nullptr` (`:118-121`).
* `unknown`: a value of a type without any way to print (`:1-4`).
* `pair`, `tuple`, `list`: the last are containers and container adaptors. -/
inductive Val where
  | int (n : Int)
  | float (neg : Bool) (millionths : Nat)
  | special (w : Word)
  | bool (b : Bool)
  | char (c : Char)
  | str (t : List Char)
  | wstr (t : List Char)
  | nullStr
  | nullPtr
  | unknown
  | pair (a b : Val)
  | tuple (vs : List Val)
  | list (vs : List Val)

/-- `std::to_string` of an integer. -/
def intText (n : Int) : Word := (toString n).toList

/-- Six digits. -/
def six (m : Nat) : Word := (List.range 6).map fun i => (m / 10 ^ (5 - i) % 10).digitChar

/-- `std::to_string` of a floating point number, `%f`. -/
def floatText (neg : Bool) (m : Nat) : Word :=
  (if neg then ['-'] else []) ++ Nat.toDigits 10 (m / 1000000) ++ '.' :: six (m % 1000000)

/-- The integer nearest to a number, the even one of two: how `%f` rounds. -/
def nearest (q : Rat) : Int :=
  if q - q.floor < 1 / 2 then q.floor
  else if 1 / 2 < q - q.floor then q.floor + 1
  else if q.floor % 2 = 0 then q.floor else q.floor + 1

/-- A floating point number as `std::to_string` sees it, `/repo/source/utils/h2_stringify.hpp:62`: `%f` has six decimals. -/
def ofRat (x : Rat) : Val := .float (decide (x < 0)) (nearest ((if x < 0 then -x else x) * 1000000)).toNat

/-- `str.erase(str.find_last_not_of(c) + 1)` -/
def eraseLast (c : Char) (w : Word) : Word := (w.reverse.dropWhile (· == c)).reverse

/-- The end of the print of a number, `/repo/source/utils/h2_stringify.hpp:64-68`. -/
def trim (w : Word) : Word := if w.contains '.' then eraseLast '.' (eraseLast '0' w) else w

/-- `quote_if`, `/repo/source/utils/h2_misc.hpp:15`. -/
def quoteIf (a : Bool) (q : Word) : Word := if a then q else []

/-- The print of a text, `/repo/source/utils/h2_stringify.hpp:44-50`: `oss.str().c_str()` ends at a zero character. -/
def strLine (t : List Char) (represent : Bool) : Line :=
  gray (quoteIf represent ['"']) ++ [t.takeWhile (· ≠ '\x00')] ++ gray (quoteIf represent ['"'])

/-- The conversion of a wide text, `/repo/source/utils/h2_stringify.hpp:152-153`. -/
def narrow (t : List Char) : List Char := t.map fun c => if c.toNat ≤ 0xff then c else '?'

mutual
/-- `h2_stringify_impl<T>::print`, `/repo/source/utils/h2_stringify.hpp`: texts 44-50, numbers 55-69, pairs 74-77, containers 82-91,
tuples 105-115, and the others. -/
def print (represent : Bool) : Val → Line
  | .int n => [trim (intText n)]
  | .float neg m => [trim (floatText neg m)]
  | .special w => [trim w]
  | .bool b => [if b then "true".toList else "false".toList]
  | .char c => gray (quoteIf represent ['\'']) ++ [[c]] ++ gray (quoteIf represent ['\''])
  | .str t => strLine t represent
  | .wstr t => strLine (narrow t) represent
  | .nullStr => ["(null)".toList]
  | .nullPtr => ["nullptr".toList]
  | .unknown => ["?".toList]
  | .pair a b => gray "(".toList ++ print represent a ++ gray ", ".toList ++ print represent b ++ gray ")".toList
  | .tuple vs => gray "(".toList ++ elements represent false vs ++ gray ")".toList
  | .list vs =>
    if 100 < vs.length then gray "[".toList ++ ["...".toList] ++ gray "]".toList
    else gray "[".toList ++ elements represent false vs ++ gray "]".toList
/-- The loop over the elements of a container, `/repo/source/utils/h2_stringify.hpp:88-89`, and `tuple_print`, `:110-115`; `comma` tells
whether there were elements before. -/
def elements (represent comma : Bool) : List Val → Line
  | [] => []
  | v :: vs => gray (commaIf comma ", ".toList []) ++ print represent v ++ elements represent true vs
end

end H2.Stringify
