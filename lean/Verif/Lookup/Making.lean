import Verif.Lookup.Model
/-
How an object of a class is made to read its virtual table: `/repo/source/stub/h2_fp.hpp:1-76,159-169`.
-/
namespace H2.Lookup
open H2.Stub (Addr)
open H2.Layout (Word)

/-- What the compiler knows of a class. -/
structure Traits where
  /-- `std::is_abstract` -/
  isAbstract : Bool
  /-- `std::is_default_constructible` -/
  default : Bool
  /-- whether `T({}, …, {})` with so many `{}` has a meaning, `h2_constructible1` to `h2_constructible9` -/
  takes : Nat → Bool
  /-- `std::is_destructible` -/
  destructible : Bool

/-- What is done to make an object. -/
inductive Choice where
  /-- `h2_constructible_error<T, I>` -/
  | error (i : Nat)
  /-- `new (m) T({}, …, {})` with so many `{}` -/
  | call (n : Nat)
deriving DecidableEq

/-- `h2_constructible`, `/repo/source/stub/h2_fp.hpp:40-74`. -/
def constructible (t : Traits) : Choice :=
  if t.isAbstract then .error 1
  else if t.default then .call 0
  else if t.takes 1 then .call 1
  else if t.takes 2 then .call 2
  else if t.takes 3 then .call 3
  else if t.takes 4 then .call 4
  else if t.takes 5 then .call 5
  else if t.takes 6 then .call 6
  else if t.takes 7 then .call 7
  else if t.takes 8 then .call 8
  else if t.takes 9 then .call 9
  else .error 2

/-- What happens to the memory for the object. -/
inductive Event where
  | construct (n : Nat)
  | read
  | destruct
deriving DecidableEq

/-- The value of `O`, `/repo/source/stub/h2_fp.hpp:5-6,19-27`, in the memory at `o`. -/
def Choice.value (o : Addr) : Choice → Addr
  | .error i => BitVec.ofNat 64 i
  | .call _ => o

/-- What is given for the number, `/repo/source/stub/h2_fp.hpp:163,179`: `constructible_errors` is read at it. -/
def makerOf (v : Addr) : Maker := if 2 < v.toNat then .object v else if v = 1 then .abstract else .noConstructor

/-- `h2_destructible`, `/repo/source/stub/h2_fp.hpp:2-3`. -/
def destructs (t : Traits) : List Event := if t.destructible && !t.isAbstract then [.destruct] else []

/-- The events of `get1`, `/repo/source/stub/h2_fp.hpp:159-169`, with memory at `o`. -/
def events (low : Bool) (t : Traits) (o : Addr) (f : MemberPtr) : List Event :=
  if isVirtual low f.ptr then
    match constructible t with
    | .error _ => []
    | .call n => .construct n :: (if 2 < ((Choice.call n).value o).toNat then .read :: destructs t else [])
  else []

/-- The class `get1` deals with. -/
def classOf (mangled readable : Word) (t : Traits) (o : Addr) : Class := ⟨mangled, readable, makerOf ((constructible t).value o)⟩

end H2.Lookup
