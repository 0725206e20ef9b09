/-
Model of `Catch`: `/repo/source/except/h2_exception.hpp`, `/repo/source/except/h2_exception.cpp`.
-/
namespace H2.Catch

/-- Types, as `std::type_info` tells them apart. -/
abbrev Ty := Nat

variable {V : Type}

/-- `Catch()`, and `Catch(type)`, `Catch(type, matcher)`: the matcher is a predicate on the value (for classes derived from
`std::exception` on the text of `what()`); without one it is `_`, which accepts everything,
`/repo/source/except/h2_exception.hpp:60-62`. -/
inductive Expect (V : Type) where
  | nothrow
  | type (t : Ty) (accepts : V → Bool)

/-- What a program does, as far as exceptions go, and then.  `handled` tells whether there is a handler for what is thrown inside of
the innermost block. -/
inductive Prog (V : Type) where
  | done
  | throw (t : Ty) (v : V) (handled : Bool) (next : Prog V)
  | block (e : Expect V) (body next : Prog V)

/-- The failures `check_catch` makes. -/
inductive Fail where
  /-- "was thrown but expect no throw" -/
  | unexpected
  /-- "expect exception … thrown but not" -/
  | missing
  /-- "was thrown but expect type is …" -/
  | wrongType
  /-- what the matcher says -/
  | mismatch
deriving DecidableEq

/-- The members of `h2_exception`, `/repo/source/except/h2_exception.hpp:5-10`, and the failures. -/
structure St (V : Type) where
  catching : Bool := false
  thrown : Option (Ty × V) := none
  fails : List Fail := []

/-- How a part of a program ends. -/
inductive End where
  | normal
  /-- by `longjmp` to the innermost `setjmp` -/
  | jumped
  /-- by an exception -/
  | escaped
  /-- by undefined behaviour -/
  | undefined
deriving DecidableEq

inductive Check where
  | pass
  | fail (f : Fail)
  | undefined
deriving DecidableEq

/-- `check_catch`, `/repo/source/except/h2_exception.hpp:35-57`.  `exc` tells which types are derived from `std::exception`.  At its end
`what((T*)thrown_exception)` calls a virtual function of the object, as if it were a `T`, when `T` is derived from `std::exception`:
that is undefined when nothing was thrown, or something that is not derived from it.  (For other exceptions it is, too, by the
standard; objects that begin with a `std::exception` answer in practice.) -/
def check (exc : Ty → Bool) : Expect V → Option (Ty × V) → Check
  | .nothrow, none => .pass
  | .nothrow, some _ => .fail .unexpected
  | .type t _, none => if exc t then .undefined else .fail .missing
  | .type t m, some (t', v) =>
    if t ≠ t' then (if exc t && !exc t' then .undefined else .fail .wrongType)
    else if m v then .pass else .fail .mismatch

/-- Running a program. -/
def exec (exc : Ty → Bool) : Prog V → St V → St V × End
  | .done, s => (s, .normal)
  -- `__cxa_throw`, `/repo/source/except/h2_exception.cpp:11-21`
  | .throw t v handled next, s =>
    let s := { s with thrown := some (t, v) }
    if s.catching then (s, .jumped) else if handled then exec exc next s else (s, .escaped)
  -- `H2Catch`, `/repo/source/except/h2_exception.hpp:64`; `try_catch`, `try_catch_finally`, `/repo/source/except/h2_exception.cpp:36-54`
  | .block e body next, s =>
    match exec exc body { s with catching := true, thrown := none } with
    | (s, .escaped) => (s, .escaped)
    | (s, .undefined) => (s, .undefined)
    | (s, _) =>
      match check exc e s.thrown with
      | .undefined => (s, .undefined)
      | .pass => exec exc next { s with thrown := none, catching := false }
      | .fail f => exec exc next { s with thrown := none, catching := false, fails := s.fails ++ [f] }

end H2.Catch
