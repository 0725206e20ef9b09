/-
Model of the function a `SUITE` is turned into: the macros `H2SUITE`, `H2Setup`, `H2Cleanup`, `H2Case`,
`H2Cases` and `H2Casess` of `/repo/source/core/h2_core.hpp:2-99`, the macros `H2PP_FOREACH` and
`H2PP_FULLMESH` of `/repo/source/utils/h2_macro.hpp:115-143`, and `h2_suite::enumerate`, `::test`,
`::registor` and `::cleaner` of `/repo/source/core/h2_suite.cpp`.

A suite is a sequence of items.  What a case does is not looked into: it ends regularly, or by a jump to
`fail_hole`, which comes to the same (exceptions and failures of the other blocks are in `Verif.CaseRun`).
`setjmp`/`longjmp` are modelled by the control flow they bring about.  `case_` keeps its value over a
`longjmp`, as in `Verif.CaseRun`.  The lists of values have at most 32 elements: the preprocessor tables
(`/repo/source/utils/h2_macro.in.hpp:100-131`) go no further.
-/
namespace H2.SuiteFn

/-- The address of a static `h2_case`: the item it is declared by, and the indices of its values. -/
structure Id where
  item : Nat
  i : Nat := 0
  j : Nat := 0
deriving DecidableEq

/-- A part of the body of a `SUITE`. -/
inductive Item (V : Type) where
  /-- statements of the user -/
  | code (n : Nat)
  | setup (n : Nat)
  | cleanup (n : Nat)
  /-- `Case` -/
  | one
  /-- `Cases(name, (xs))` -/
  | cases (xs : List V)
  /-- `Casess(name, (xs), (ys))` -/
  | casess (xs ys : List V)

/-- What is observed: statements, blocks, and the run of a case with the values it sees. -/
inductive Event (V : Type) where
  | code (n : Nat)
  | setup (n : Nat)
  | cleanup (n : Nat)
  | body (c : Id) (vals : List V)
deriving DecidableEq

/-- `h2_suite::cleanup_hole`: all zero, left over from a call that has returned, or set by the item at
`pc` in the present call. -/
inductive Hole where
  | unset
  | stale
  | live (pc : Nat)
deriving DecidableEq

/-- `h2_suite::cases` and `cleanup_hole`, and what has been observed. -/
structure State (V : Type) where
  cases : List Id := []
  hole : Hole := .unset
  trace : List (Event V) := []
deriving DecidableEq

/-- How a call comes out. -/
inductive Result (α : Type) where
  /-- not ended within the fuel: the state so far -/
  | running (a : α)
  /-- `longjmp` to the frame of a call that has returned -/
  | undefined
  | ended (a : α)
deriving DecidableEq

/-- `H2PP_FOREACH`, `/repo/source/utils/h2_macro.hpp:115-122`. -/
def foreach_ (i : Nat) : List V → List (Nat × V)
  | [] => []
  | x :: xs => (i, x) :: foreach_ (i + 1) xs

/-- `_H2PP_FOREACHy`, `/repo/source/utils/h2_macro.hpp:136-139`. -/
def foreachy (i j : Nat) (x : V) : List V → List (Nat × Nat × V × V)
  | [] => []
  | y :: ys => (i, j, x, y) :: foreachy i (j + 1) x ys

/-- `_H2PP_FOREACHx`, `/repo/source/utils/h2_macro.hpp:132-135`. -/
def foreachx (i : Nat) (ys : List V) : List V → List (Nat × Nat × V × V)
  | [] => []
  | x :: xs => foreachy i 0 x ys ++ foreachx (i + 1) ys xs

/-- `H2PP_FULLMESH`, `/repo/source/utils/h2_macro.hpp:124-131`: of no list, of one and itself, of two. -/
def fullmesh : List (List V) → List (Nat × Nat × V × V)
  | [] => []
  | [xs] => foreachx 0 xs xs
  | xs :: ys :: _ => foreachx 0 ys xs

/-- `h2_suite::registor`, run once by the initialisation of a static variable:
`/repo/source/core/h2_suite.cpp:46-51`. -/
def register (cs : List Id) (c : Id) : List Id := if cs.contains c then cs else cs ++ [c]

/-- `__H2Cases2` for every value: `/repo/source/core/h2_core.hpp:76-79`.  `q` is `Qx` and `door_open`. -/
def casesDoor (conv : V → V → V) (first : V) (pc : Nat) (cp : Option Id) : List (Nat × V) → Option V → Option V
  | [], q => q
  | (i, x) :: r, q => casesDoor conv first pc cp r (if cp = some ⟨pc, i, 0⟩ then some (conv first x) else q)

/-- `__H2Casess2` for every pair: `/repo/source/core/h2_core.hpp:94-97`. -/
def casessDoor (conv : V → V → V) (fx fy : V) (pc : Nat) (cp : Option Id) :
    List (Nat × Nat × V × V) → Option (V × V) → Option (V × V)
  | [], q => q
  | (i, j, x, y) :: r, q =>
    casessDoor conv fx fy pc cp r (if cp = some ⟨pc, i, j⟩ then some (conv fx x, conv fy y) else q)

/-- The number of a `Cleanup` block. -/
def cleanupAt (all : List (Item V)) (k : Nat) : List (Event V) :=
  match all[k]? with
  | some (.cleanup n) => [.cleanup n]
  | _ => []

/-- The destructor of `suite_cleaner`, `/repo/source/core/h2_suite.cpp:53-58`: where control goes on and
whether it jumped; `none` when the jump is undefined. -/
def leave (pc : Nat) : Hole → Option (Nat × Bool)
  | .unset => some (pc + 1, false)
  | .stale => none
  | .live k => some (k + 1, true)

/-- The end of a case: the jump to the `Cleanup` block with that block, or the next item.  `jumped` and
`plain` are the values of `case_` then. -/
def finish (all : List (Item V)) (pc : Nat) (jumped plain : Option Id) (st : State V)
    (go : Nat → Option Id → State V → Result (State V)) : Result (State V) :=
  match leave pc st.hole with
  | none => .undefined
  | some (k, false) => go k plain st
  | some (k, true) => go k jumped { st with trace := st.trace ++ cleanupAt all (k - 1) }

/-- The value `Qx` is declared with, by whose type all others are converted (`H2_An`,
`/repo/source/core/h2_core.hpp:39-49`); of an empty list no value is ever assigned. -/
def assigned (conv : V → V → V) (pc : Nat) (cp : Option Id) (xs : List V) : Option V :=
  match xs with
  | [] => none
  | x :: r => casesDoor conv x pc cp (foreach_ 0 (x :: r)) none

/-- The same of `Qx` and `Qy`. -/
def assigned2 (conv : V → V → V) (pc : Nat) (cp : Option Id) (xs ys : List V) : Option (V × V) :=
  match xs, ys with
  | x :: r, y :: s => casessDoor conv x y pc cp (fullmesh [x :: r, y :: s]) none
  | _, _ => none

/-- The body of the suite function from the item `pc` on; `cp` is `case_`. -/
def exec (conv : V → V → V) (all : List (Item V)) : Nat → Nat → Option Id → State V → Result (State V)
  | 0, _, _, st => .running st
  | f + 1, pc, cp, st =>
    match all[pc]? with
    | none => .ended st
    | some (.code n) => exec conv all f (pc + 1) cp { st with trace := st.trace ++ [.code n] }
    -- `/repo/source/core/h2_core.hpp:8`
    | some (.setup n) =>
      if cp.isSome then exec conv all f (pc + 1) cp { st with trace := st.trace ++ [.setup n] }
      else exec conv all f (pc + 1) cp st
    -- `/repo/source/core/h2_core.hpp:9`
    | some (.cleanup _) => exec conv all f (pc + 1) cp { st with hole := .live pc }
    -- `/repo/source/core/h2_core.hpp:13-19`: `case_` is set to null before `suite_cleaner` is destroyed
    | some .one =>
      if cp = some ⟨pc, 0, 0⟩ then
        finish all pc none none
          { st with cases := register st.cases ⟨pc, 0, 0⟩, trace := st.trace ++ [.body ⟨pc, 0, 0⟩ []] } (exec conv all f)
      else exec conv all f (pc + 1) cp { st with cases := register st.cases ⟨pc, 0, 0⟩ }
    -- `/repo/source/core/h2_core.hpp:65-79`: `suite_cleaner` is destroyed before `case_` is set to null
    | some (.cases xs) =>
      let st := { st with cases := (foreach_ 0 xs).foldl (fun cs p => register cs ⟨pc, p.1, 0⟩) st.cases }
      match cp, assigned conv pc cp xs with
      | some c, some v =>
        finish all pc cp none { st with trace := st.trace ++ [.body c [v]] } (exec conv all f)
      | _, _ => exec conv all f (pc + 1) cp st
    -- `/repo/source/core/h2_core.hpp:81-97`
    | some (.casess xs ys) =>
      let st := { st with cases := (fullmesh [xs, ys]).foldl (fun cs p => register cs ⟨pc, p.1, p.2.1⟩) st.cases }
      match cp, assigned2 conv pc cp xs ys with
      | some c, some (v, w) =>
        finish all pc cp none { st with trace := st.trace ++ [.body c [v, w]] } (exec conv all f)
      | _, _ => exec conv all f (pc + 1) cp st

/-- The frame of the call is gone: what `cleanup_hole` refers to afterwards. -/
def Hole.returned : Hole → Hole
  | .live _ => .stale
  | h => h

/-- A call of the suite function, by `h2_suite::enumerate` (null) or `h2_suite::test`:
`/repo/source/core/h2_suite.cpp:27-44`. -/
def call (conv : V → V → V) (all : List (Item V)) (f : Nat) (cp : Option Id) (st : State V) : Result (State V) :=
  match exec conv all f 0 cp st with
  | .running st => .running st
  | .undefined => .undefined
  | .ended st => .ended { st with hole := st.hole.returned }

/-- The text of an index as `H2PP_FOREACH` and `H2PP_FULLMESH` count (`H2PP_CAT2(H2PP_INC_, _i)`, `/repo/source/utils/h2_macro.hpp:121,137,141`):
`H2PP_INC_31`, `/repo/source/utils/h2_macro.in.hpp:131`, is the last of its kind, so that from 33 on names are written that are no macros. -/
def index (n : Nat) : List Char := if n ≤ 32 then Nat.toDigits 10 n else (List.replicate (n - 32) "H2PP_INC_".toList).flatten ++ "32".toList

/-- The name of a case of `Cases`: `H2PP_STR(case_prefix i. x)`, `/repo/source/core/h2_core.hpp:77`;
`x` is the text of the value. -/
def name1 (prefix_ : List Char) (i : Nat) (x : List Char) : List Char :=
  prefix_ ++ [' '] ++ index i ++ ['.', ' '] ++ x

/-- The name of a case of `Casess`: `H2PP_STR(case_prefix i.j. x, y)`, `/repo/source/core/h2_core.hpp:95`. -/
def name2 (prefix_ : List Char) (i j : Nat) (x y : List Char) : List Char :=
  prefix_ ++ [' '] ++ index i ++ ['.'] ++ index j ++ ['.', ' '] ++ x ++ [',', ' '] ++ y

end H2.SuiteFn
