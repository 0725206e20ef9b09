import Verif.MemText.Model
import Verif.Message.Model
/-
Model of what is told about exceptions: `h2_exception_handler::__cxa_throw` of `/repo/source/except/h2_exception.cpp:11-21` (with the
name and the backtrace it records), `check_catch` of `/repo/source/except/h2_exception.hpp:35-57`, the handler of
`h2_suite::test` of `/repo/source/core/h2_suite.cpp:32-44`, `h2_case::failing` of `/repo/source/core/h2_case.cpp:26-35`,
`h2_runner::failing` of `/repo/source/core/h2_runner.cpp:203-208` and `h2_fail_exception::print` of
`/repo/source/report/h2_failure.cpp:384-393`.

A case is a sequence of steps; blocks `Catch` are not nested (`Verif.Catch` has those).  Types are numbers; `mangled` is
`type_info::name()` and `dem` is `abi::__cxa_demangle`, an oracle of the C++ library.  The names of the frames of a backtrace are inputs.
What a matcher says about the value thrown is an input.  There is no debugger.
-/
namespace H2.Thrown
open H2.Layout (Word Line brush)

/-- The C++ library and the options `-W exception`, `-W uncaught` and `-c`. -/
structure Env where
  mangled : Nat → Word
  dem : Word → Option Word
  /-- types derived from `std::exception` -/
  exc : Nat → Bool
  asWarning : Bool := false
  uncaughtWarning : Bool := false
  continueAssert : Bool := false

/-- An exception: its type and where it is thrown. -/
structure Exn where
  ty : Nat
  frames : List Word

/-- `Catch()` and `Catch(type)` or `Catch(type, matcher)` with what the matcher says about the value thrown, if it is of the type
(`none`: it accepts it). -/
inductive Expect where
  | nothrow
  | type (t : Nat) (says : Option (List Line))

/-- What a case does. -/
inductive Step where
  /-- an exception thrown outside of `Catch`, and caught by the program -/
  | thrown (x : Exn)
  /-- a block `Catch` at a place, and what is thrown in it -/
  | block (e : Expect) (place : Word) (x : Option Exn)
  /-- another failure -/
  | other (lines : List Line)

/-- The failures.  That of an exception has a pointer to `last_type`, not a name of its own, `/repo/source/report/h2_failure.cpp:385`. -/
inductive Fail where
  | exception (explain : Line) (warning : Bool) (filine : Option Word) (bt : List Word)
  | normal (explain : Line) (filine : Option Word)
  /-- a failure of a matcher with that of an exception below -/
  | mismatch (says : List Line) (filine : Word) (bt : List Word)
  | other (lines : List Line)

def Fail.warning : Fail → Bool
  | .exception _ w _ _ => w
  | _ => false

/-- The members of `h2_exception`, `/repo/source/except/h2_exception.hpp:5-10`, and of `h2_case`. -/
structure St where
  catching : Bool := false
  thrown : Option Exn := none
  lastType : Word := []
  lastBt : List Word := []
  fails : List Fail := []
  failed : Bool := false
  warned : Bool := false
  /-- left by `longjmp` to `fail_hole` -/
  stopped : Bool := false

/-- `h2_cxa::demangle(name, buffer)`, `/repo/source/symbol/h2_cxa.cpp:1-10`, with a buffer of 1024 bytes that holds `old`: what it holds
then, and what is returned.  `abi::__cxa_demangle` gives a buffer that is too small back to `free`, which is undefined (`none`), as it is
a static or automatic array. -/
def demangle (E : Env) (name old : Word) : Option (Word × Word) :=
  if name.isEmpty then some (old, name)
  else match E.dem name with
    | none => some (old, name)
    | some d => if d.length < 1024 then some (d, d) else none

/-- `h2_case::failing`, `/repo/source/core/h2_case.cpp:26-35`. -/
def failing (f : Fail) (defer append : Bool) (s : St) : St :=
  let s := if f.warning then { s with warned := true } else { s with failed := true }
  let s := if !s.fails.isEmpty && !append then s else { s with fails := s.fails ++ [f] }
  if !defer && !f.warning then { s with stopped := true } else s

/-- `h2_runner::failing`, `/repo/source/core/h2_runner.cpp:203-208`. -/
def runnerFailing (E : Env) (f : Option Fail) (s : St) : St :=
  match f with
  | none => s
  | some f => failing f E.continueAssert true s

/-- `__cxa_throw`, `/repo/source/except/h2_exception.cpp:11-21`, up to the `longjmp` or the throw. -/
def throw_ (E : Env) (x : Exn) (s : St) : Option St :=
  match demangle E (E.mangled x.ty) s.lastType with
  | none => none
  | some (t, _) =>
    let s := { s with thrown := some x, lastBt := x.frames, lastType := t }
    if s.catching then some s
    else if E.asWarning then some (runnerFailing E (some (.exception ["was thrown".toList] true none s.lastBt)) s)
    else some s

/-- The failure of `check_catch`, `/repo/source/except/h2_exception.hpp:35-57`; `none` is undefined, as in `Verif.Catch.Model`. -/
def check (E : Env) (e : Expect) (filine : Word) (s : St) : Option (Option Fail) :=
  match e, s.thrown with
  | .nothrow, none => some none
  | .nothrow, some _ => some (some (.exception ["was thrown but expect no throw".toList] false (some filine) s.lastBt))
  | .type t _, none =>
    if E.exc t then none
    else (demangle E (E.mangled t) []).map fun n =>
      some (.normal (["expect exception ".toList] ++ brush [n.2] "green".toList ++ [" thrown but not".toList]) (some filine))
  | .type t says, some x =>
    if t ≠ x.ty then
      if E.exc t && !E.exc x.ty then none
      else (demangle E (E.mangled t) []).map fun n =>
        some (.exception (["was thrown but expect type is ".toList] ++ brush [n.2] "green".toList) false (some filine) s.lastBt)
    else match says with
      | none => some none
      | some l => some (some (.mismatch l filine s.lastBt))

/-- `H2Catch`, `/repo/source/except/h2_exception.hpp:60-64`; `try_catch`, `try_catch_finally`, `/repo/source/except/h2_exception.cpp:36-54`. -/
def block (E : Env) (e : Expect) (place : Word) (x : Option Exn) (s : St) : Option St :=
  let s := { s with catching := true, thrown := none }
  match (match x with | none => some s | some x => throw_ E x s) with
  | none => none
  | some s =>
    match check E e place s with
    | none => none
    | some f => some (runnerFailing E f { s with thrown := none, catching := false })

/-- A step. -/
def step (E : Env) (s : St) : Step → Option St
  | .thrown x => throw_ E x s
  | .block e place x => block E e place x s
  | .other l => some (runnerFailing E (some (.other l)) s)

/-- The steps of a case, up to the failure that ends it. -/
def steps (E : Env) : St → List Step → Option St
  | s, [] => some s
  | s, a :: as =>
    match step E s a with
    | none => none
    | some s => if s.stopped then some s else steps E s as

/-- `h2_suite::test`, `/repo/source/core/h2_suite.cpp:32-44`: the steps of a case, then an exception it does not catch, if any.  `t` is
what an earlier case has left in `last_type`. -/
def test (E : Env) (t : Word) (as : List Step) (uncaught : Option Exn) : Option St :=
  match steps E { lastType := t } as with
  | none => none
  | some s =>
    if s.stopped then some s
    else match uncaught with
      | none => some s
      | some x =>
        match throw_ E x s with
        | none => none
        | some s => some (failing (.exception ["was thrown but uncaught".toList] E.uncaughtWarning none s.lastBt) true E.continueAssert s)

/-- `h2_fail_exception::print`, `/repo/source/report/h2_failure.cpp:388-392`; `type` is what `last_type` holds. -/
def printException (type : Word) (explain : Line) (filine : Option Word) (bt : List Word) : List Line :=
  ([" exception ".toList] ++ brush [type] "red".toList ++ [" ".toList] ++ explain ++ H2.Message.locate { filine := filine } ++
    [" at backtrace:".toList]) :: H2.MemText.backtrace 3 bt

/-- The lines of a failure. -/
def print (type : Word) : Fail → List Line
  | .exception explain _ filine bt => printException type explain filine bt
  | .normal explain filine => [H2.Message.printNormal { explain := explain, filine := filine } 0]
  | .mismatch says filine bt => says ++ printException type ["was thrown".toList] (some filine) bt
  | .other l => l

/-- What is printed when the case has ended, `/repo/source/report/h2_report_console.cpp:137,146`. -/
def printed (s : St) : List Line := (s.fails.map (print s.lastType)).flatten

end H2.Thrown
