/-
Model of `h2_cxa::type_name` and `h2_cxa::demangle`, `/repo/source/symbol/h2_cxa.hpp:1-16`, `/repo/source/symbol/h2_cxa.cpp:1-10`, by which
messages name the types of arguments and results of mocks (`/repo/source/mock/h2_tuple.hpp:19-32`, `/repo/source/mock/h2_mocker.hpp:100`)
and of values that cannot be compared (`/repo/source/matcher/h2_matches_equation.hpp:9,13`).

Types are those made of names, pointers, `const`, `volatile` and references; pointers to functions or arrays and types in the arguments of
templates are parts of names.  `abi::__cxa_demangle` of `typeid(T).name()` is modelled for them (`demangled`): it writes the qualifiers of
what a pointer points to behind it.
-/
namespace H2.TypeName

abbrev Text := List Char

/-- A type that is no reference and has no qualifiers. -/
inductive Ty where
  | name (w : Text)
  /-- a pointer to such a type, with `const` and `volatile` or without -/
  | ptr (const volatile : Bool) (t : Ty)
deriving DecidableEq

/-- `&`, `&&` or none -/
inductive Ref where
  | none
  | lvalue
  | rvalue
deriving DecidableEq

/-- The type of an argument, a result or a value. -/
structure Typ where
  const : Bool := false
  volatile : Bool := false
  base : Ty
  ref : Ref := .none

/-- The qualifiers, as `abi::__cxa_demangle` writes them. -/
def qualifiers (const volatile : Bool) : Text := (if const then " const".toList else []) ++ (if volatile then " volatile".toList else [])

/-- What `abi::__cxa_demangle` makes of the name of a type without qualifiers. -/
def demangled : Ty → Text
  | .name w => w
  | .ptr c v t => demangled t ++ qualifiers c v ++ "*".toList

/-- `h2_cxa::demangle(typeid(U).name())`, `/repo/source/symbol/h2_cxa.cpp:1-10`, for a name the library knows: `typeid` drops qualifiers
and references.  The buffer is on the stack; when it is too small `abi::__cxa_demangle` gives it to `free`: undefined (`none`). -/
def demangle (t : Typ) : Option Text := if (demangled t.base).length < 1024 then some (demangled t.base) else none

/-- `strcat` to what a buffer of `size` bytes holds: undefined (`none`) if it does not fit. -/
def strcat (size : Nat) (old : Option Text) (s : Text) : Option Text :=
  match old with
  | none => none
  | some old => if (old ++ s).length < size then some (old ++ s) else none

/-- The reference as it is appended. -/
def amp : Ref → Text
  | .none => []
  | .lvalue => "&".toList
  | .rvalue => "&&".toList

/-- `type_name`, `/repo/source/symbol/h2_cxa.hpp:5-14`. -/
def typeName (size : Nat) (t : Typ) : Option Text :=
  let name := strcat size (some []) (if t.const then "const ".toList else [])
  match demangle t with
  | none => none
  | some d => strcat size (strcat size name d) (amp t.ref)

/-- `names.push_back(type_name<...>())` for the type at `i`. -/
def pushType (names : Option (List Text)) (t : Option Typ) : Option (List Text) :=
  match names, t.bind (typeName 512) with
  | some ns, some w => some (ns ++ [w])
  | _, _ => none

/-- `__tuple_types`, `/repo/source/mock/h2_tuple.hpp:19-27`: the first `i` types. -/
def tupleTypesTo (ts : List Typ) : Nat → Option (List Text)
  | 0 => some []
  | i + 1 => pushType (tupleTypesTo ts i) ts[i]?

/-- The types of the arguments of a mock, `tuple_types`, `/repo/source/mock/h2_tuple.hpp:28-32`. -/
def tupleTypes (ts : List Typ) : Option (List Text) := tupleTypesTo ts ts.length

/-- What a type is apart from qualifiers and references. -/
inductive Kind where
  /-- a class, a number, a pointer -/
  | obj (t : Ty)
  /-- an enumeration without `class`, and the type of its numbers -/
  | enum (name number : Text)
  /-- an array of elements with `const` and `volatile` or without -/
  | array (const volatile : Bool) (t : Ty) (n : Nat)
  | func (w : Text)
deriving DecidableEq

/-- The type a variable is declared with, or the one given to `TypeEq`. -/
structure Decl where
  const : Bool := false
  volatile : Bool := false
  kind : Kind
  ref : Ref := .none
deriving DecidableEq

/-- `std::decay` -/
def decay (d : Decl) : Kind :=
  match d.kind with
  | .array c v t _ => .obj (.ptr c v t)
  | .func w => .obj (.ptr false false (.name w))
  | k => k

/-- `h2_decay_impl`, `/repo/source/utils/h2_template.hpp:13-18`. -/
def decayImpl : Kind → Kind
  | .obj (.ptr false false (.name w)) => if w = "char".toList then .obj (.ptr true false (.name w)) else .obj (.ptr false false (.name w))
  | .enum _ number => .obj (.name number)
  | k => k

/-- `h2_decay`, `/repo/source/utils/h2_template.hpp:19-20`. -/
def h2decay (d : Decl) : Decl := { kind := decayImpl (decay d) }

/-- `OK(TypeEq<E>(), a)` and, negated, `OK(!TypeEq<E>(), a)`: `h2_ok2`, `/repo/source/assert/h2_assert.hpp:27-39`, makes a matcher of the
decayed type of `a`, and `h2_type_equation::matches`, `/repo/source/matcher/h2_matches_equation.hpp:6-10`, compares this type.  Whether it
passes. -/
def typeEq (negative : Bool) (e a : Decl) : Bool := decide (e = h2decay a) == !negative

end H2.TypeName
