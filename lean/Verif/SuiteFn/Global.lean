import Verif.SuiteFn.Model
/-
Tests declared outside of suites: `CASE`, `CASES`, `CASESS`, `CASES_T`, `CASESS_T`, `TODO`, `TODOS`, `TODOSS`, `TODOS_T` and `TODOSS_T`, that is
the macros `H2CASE` to `H2TODOSS_T` of `/repo/source/core/h2_core.hpp`, and how the runner comes to what they declare.
-/
namespace H2.SuiteFn

abbrev Str := List Char

/-- A declaration outside of suites.  A value is a text and what it stands for, a type for `CASES_T` and `CASESS_T`; `body` is the number of the
block that follows. -/
inductive Top (V : Type) where
  /-- `CASE`, `TODO` -/
  | case_ (todo : Bool) (describe : Str) (body : Nat)
  /-- `CASES`, `CASES_T` -/
  | cases (prefix_ : Str) (xs : List (Str × V)) (body : Nat)
  /-- `CASESS`, `CASESS_T`, of two lists or of one -/
  | casess (prefix_ : Str) (xs : List (Str × V)) (ys : Option (List (Str × V))) (body : Nat)
  /-- `TODOS`, `TODOSS`, `TODOS_T`, `TODOSS_T`, with the text of all arguments -/
  | todos (describe : Str) (body : Nat)

/-- A static `h2_suite` without a name, the `h2_case` in its function, and the calls `case_test` makes: `__H2CASE`,
`/repo/source/core/h2_core.hpp:23-35`. -/
structure Object (V : Type) where
  describe : Str
  todo : Bool
  does : List (Nat × List V)

/-- What the macros expand to: `/repo/source/core/h2_core.hpp:21-35,52-68,108-124,138-159`.  That `H2PP_FOREACH` and `H2PP_FULLMESH` go over their
lists like this is justified by `Verif.Macro`; every declaration has names of its own (`H2PP_UNIQUE`). -/
def expand : Top V → List (Object V)
  | .case_ todo d b => [⟨d, todo, [(b, [])]⟩]
  | .cases p xs b => (foreach_ 0 xs).map fun t => ⟨name1 p t.1 t.2.1, false, [(b, [t.2.2])]⟩
  | .casess p xs ys b =>
    (fullmesh (xs :: ys.toList)).map fun t => ⟨name2 p t.1 t.2.1 t.2.2.1.1 t.2.2.2.1, false, [(b, [t.2.2.1.2, t.2.2.2.2])]⟩
  | .todos d _ => [⟨d, true, []⟩]

/-- The lists `cases` of the suites (each suite can have one case only: the numbers of those that have it, in the order they got it), and the
blocks that have been run. -/
structure Global (V : Type) where
  found : List Nat := []
  trace : List (Nat × List V) := []

/-- `suite_test` of `__H2CASE`, `/repo/source/core/h2_core.hpp:25-32`, called with no case or with its own: the case is put into the list of
the suite by a static variable, that is the first time. -/
def Object.call (o : Object V) (k : Nat) (c : Option Nat) (s : Global V) : Global V :=
  let s := if s.found.contains k then s else { s with found := s.found ++ [k] }
  if c = some k then { s with trace := s.trace ++ o.does } else s

/-- `h2_runner::enumerate`, `/repo/source/core/h2_runner.cpp:49-60`, from the suite `k` on: suites are in the order of their declarations
(`/repo/source/core/h2_suite.cpp:1-5`). -/
def enumerateFrom : Nat → List (Object V) → Global V → Global V
  | _, [], s => s
  | k, o :: os, s => enumerateFrom (k + 1) os (o.call k none s)

/-- The loop over suites and cases in `h2_runner::main`, `/repo/source/core/h2_runner.cpp:137-155`: suites in the order they are shuffled to,
with `sel` telling which cases are neither filtered nor ignored. -/
def round (os : List (Object V)) (sel : Nat → Bool) : List Nat → Global V → Global V
  | [], s => s
  | k :: r, s =>
    match os[k]? with
    | none => round os sel r s
    | some o => round os sel r (if s.found.contains k && !o.todo && sel k then o.call k (some k) s else s)

/-- All rounds. -/
def rounds (os : List (Object V)) : List (List Nat × (Nat → Bool)) → Global V → Global V
  | [], s => s
  | (order, sel) :: r, s => rounds os r (round os sel order s)

/-- A run of a program. -/
def runAll (file : List (Top V)) (rs : List (List Nat × (Nat → Bool))) : Global V :=
  let os := file.flatMap expand
  rounds os rs (enumerateFrom 0 os {})

end H2.SuiteFn
