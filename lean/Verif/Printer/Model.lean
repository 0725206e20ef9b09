import Verif.Stringify.Model
/-
Model of how C++ chooses a printer for a value by its type: the specialisations of `h2_stringify_impl` in
`/repo/source/utils/h2_stringify.hpp` with the traits of `/repo/source/utils/h2_template.hpp`.  What the printers of numbers do is in
`Verif.Stringify.Model`; colours are left out here (they are there).
-/
namespace H2.Printer
open H2.Stringify (quoteIf narrow)

abbrev Text := List Char

/-- The names of `H2_TOSTRING_ABLE`, `/repo/source/utils/h2_stringify.hpp:13-17`. -/
inductive Method where
  | tostring | toString | Tostring | ToString | to_string
  deriving DecidableEq

/-- A method without arguments of that name: there is none, its result is not convertible to a text, or it is. -/
inductive Ret where
  | none | other | text
  deriving DecidableEq

/-- What is known of a class. -/
structure Cls where
  /-- its methods -/
  ret : Method → Ret := fun _ => .none
  /-- there is `operator<<` for a stream -/
  stream : Bool := false
  /-- it is convertible to `h2_string` -/
  texty : Bool := false
  /-- it has `substr()` -/
  substr : Bool := false
  /-- it is derived from `std::exception` -/
  exc : Bool := false

/-- Types of values.
* `num`: arithmetic types other than `bool`, `char`, `unsigned char` and `wchar_t`.
* `chars`: `const char*` and `char*`; `wchars`: `const wchar_t*` and `wchar_t*`.
* `raw`: other pointers and enumerations, with or without `operator<<` (a scoped enumeration has none of itself).
* `pair`, `tuple`: `std::pair` and `std::tuple`; the flag tells whether somebody has defined `operator<<` for this type.
* `cls`: a class that is not iterable; `box`: an iterable class and the type of its elements; `adaptor`: a class with `container_type`
  and that type; `both`: an iterable adaptor. -/
inductive Ty where
  | null | bool | num | char | uchar | wchar | chars | wchars
  | raw (stream : Bool)
  | pair (stream : Bool) (a b : Ty)
  | tuple (stream : Bool) (ts : List Ty)
  | cls (c : Cls)
  | box (c : Cls) (elem : Ty)
  | adaptor (c : Cls) (under : Ty)
  | both (c : Cls) (elem under : Ty)

/-- The partial specialisations, in the order of the file. -/
inductive Pick where
  | method | stream | arith | pair | container | adaptor | tuple | wide | exc
  deriving DecidableEq

/-- `h2_##tostring##_able`, `/repo/source/utils/h2_stringify.hpp:6-11`. -/
def able (c : Cls) (m : Method) : Bool := c.ret m == .text

/-- The condition of `/repo/source/utils/h2_stringify.hpp:21`. -/
def anyAble (c : Cls) : Bool :=
  able c .tostring || able c .toString || able c .Tostring || able c .ToString || able c .to_string

/-- A specialisation that matches if the condition holds. -/
def given (b : Bool) (p : Pick) : List Pick := if b then [p] else []

/-- `wchar_t`, `/repo/source/utils/h2_stringify.hpp:149`. -/
def Ty.isWchar : Ty → Bool
  | .wchar => true
  | _ => false

/-- The partial specialisations that match a type: `/repo/source/utils/h2_stringify.hpp:21`, 43, 54, 73, 81, 95, 104, 149, 174, with
`h2_is_container`, `h2_is_string` and `h2_is_container_adaptor`, `/repo/source/utils/h2_template.hpp:74-85`. -/
def picks : Ty → List Pick
  | .num => [.arith]
  | .raw s => given s .stream
  | .pair s _ _ => given s .stream ++ [.pair]
  | .tuple s _ => given s .stream ++ [.tuple]
  | .cls c => given (anyAble c) .method ++ given c.stream .stream ++ given c.exc .exc
  | .box c e => given (anyAble c) .method ++ given c.stream .stream ++ given (!c.substr) .container ++
      given (c.substr && e.isWchar) .wide ++ given c.exc .exc
  | .adaptor c _ => given (anyAble c) .method ++ given c.stream .stream ++ [.adaptor] ++ given c.exc .exc
  | .both c e _ => given (anyAble c) .method ++ given c.stream .stream ++ given (!c.substr) .container ++ [.adaptor] ++
      given (c.substr && e.isWchar) .wide ++ given c.exc .exc
  | _ => []

/-- The method that is called, `/repo/source/utils/h2_stringify.hpp:23-32`: 27 calls `toString` where it has found `Tostring`. -/
def called (c : Cls) : Method :=
  if able c .tostring then .tostring
  else if able c .toString then .toString
  else if able c .Tostring then .toString
  else if able c .ToString then .ToString
  else .to_string

mutual
/-- Whether `h2_stringify_impl<T>::print` compiles: at most one partial specialisation matches (none of them is more special than another),
and what it calls compiles.  The full specialisations (`/repo/source/utils/h2_stringify.hpp:118-146, 158-171`) win against all others. -/
def compiles : Ty → Bool
  | .num => (picks .num).length ≤ 1
  | .raw s => (picks (.raw s)).length ≤ 1
  | .pair s a b => (picks (.pair s a b)).length ≤ 1 && compiles a && compiles b
  | .tuple s ts => (picks (.tuple s ts)).length ≤ 1 && compilesAll ts
  | .cls c => (picks (.cls c)).length ≤ 1 && (!anyAble c || able c (called c))
  | .box c e => (picks (.box c e)).length ≤ 1 && (!anyAble c || able c (called c)) &&
      (!(picks (.box c e)).contains .container || compiles e)
  | .adaptor c u => (picks (.adaptor c u)).length ≤ 1 && compiles u
  | .both c e u => (picks (.both c e u)).length ≤ 1 && compiles u
  | _ => true
def compilesAll : List Ty → Bool
  | [] => true
  | t :: ts => compiles t && compilesAll ts
end

/-- What an object says of itself. -/
structure Obj where
  says : Method → Text := fun _ => []
  streamed : Text := []
  what : Option Text := none

/-- Values.  `num` and `raw` have the text of the number or the address; `ptr` is a pointer to characters, null or not; `obj` has the elements
of a container, or the underlying container of an adaptor. -/
inductive Val where
  | null
  | bool (b : Bool)
  | num (t : Text)
  | char (c : Char)
  | ptr (t : Option Text)
  | raw (t : Text)
  | pair (a b : Val)
  | tuple (vs : List Val)
  | obj (o : Obj) (vs : List Val)

/-- A text in quotes, if asked for. -/
def quoted (represent : Bool) (t : Text) : Text := quoteIf represent ['"'] ++ t ++ quoteIf represent ['"']

/-- `/repo/source/utils/h2_stringify.hpp:44-50` for a type that is convertible to a text or not. -/
def streamed (represent texty : Bool) (t : Text) : Text := quoted (represent && texty) (t.takeWhile (· ≠ '\x00'))

/-- `h2_stringify_impl<const char*>`, `/repo/source/utils/h2_stringify.hpp:128-131`. -/
def charsText (represent : Bool) : Option Text → Text
  | none => "(null)".toList
  | some t => streamed represent true t

/-- `comma_if`, `/repo/source/utils/h2_misc.hpp`. -/
def comma (b : Bool) : Text := if b then ", ".toList else []

/-- `(c <= 0xff) ? static_cast<char>(c) : '?'`, `/repo/source/utils/h2_stringify.hpp:170`. -/
def narrowChar (c : Char) : Char := if c.toNat ≤ 0xff then c else '?'

/-- The characters of a wide text. -/
def charOf : Val → Char
  | .char c => c
  | _ => '?'

mutual
/-- `h2_stringify_impl<T>::print`, `/repo/source/utils/h2_stringify.hpp`, for a type for which it compiles. -/
def print (represent : Bool) : Ty → Val → Text
  | .null, _ => "nullptr".toList
  | .bool, .bool b => if b then "true".toList else "false".toList
  | .num, .num t => if (picks .num).contains .arith then t else "?".toList
  | .uchar, .num t => t
  | .char, .char c => quoteIf represent ['\''] ++ [c] ++ quoteIf represent ['\'']
  | .wchar, .char c => quoteIf represent ['\''] ++ [narrowChar c] ++ quoteIf represent ['\'']
  | .chars, .ptr t => charsText represent t
  | .wchars, .ptr t => charsText represent (t.map narrow)
  | .raw s, .raw t => if s then streamed represent false t else "?".toList
  | .pair _ k v, .pair a b => "(".toList ++ print represent k a ++ ", ".toList ++ print represent v b ++ ")".toList
  | .tuple _ ts, .tuple vs => "(".toList ++ printEach represent false ts vs ++ ")".toList
  | .cls c, .obj o _ =>
      match picks (.cls c) with
      | .method :: _ => quoted represent (o.says (called c))
      | .stream :: _ => streamed represent c.texty o.streamed
      | .exc :: _ => charsText represent o.what
      | _ => "?".toList
  | .box c e, .obj o vs =>
      match picks (.box c e) with
      | .method :: _ => quoted represent (o.says (called c))
      | .stream :: _ => streamed represent c.texty o.streamed
      | .container :: _ =>
          if 100 < vs.length then "[...]".toList else "[".toList ++ printAll represent false e vs ++ "]".toList
      | .wide :: _ => charsText represent (some (narrow (vs.map charOf)))
      | .exc :: _ => charsText represent o.what
      | _ => "?".toList
  | .adaptor _ u, .obj _ (v :: _) => print represent u v
  | .both _ _ u, .obj _ (v :: _) => print represent u v
  | _, _ => []
/-- The loop of `/repo/source/utils/h2_stringify.hpp:88-89`. -/
def printAll (represent sep : Bool) (t : Ty) : List Val → Text
  | [] => []
  | v :: vs => comma sep ++ print represent t v ++ printAll represent true t vs
/-- `tuple_print`, `/repo/source/utils/h2_stringify.hpp:110-115`. -/
def printEach (represent sep : Bool) : List Ty → List Val → Text
  | t :: ts, v :: vs => comma sep ++ print represent t v ++ printEach represent true ts vs
  | _, _ => []
end

end H2.Printer
