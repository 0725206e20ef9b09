import Verif.Mock.Model
import Verif.Message.Model
import Verif.FailTree.Model
import Verif.Stringify.Model
/-
Model of what is said about mocks: `/repo/source/mock/h2_checkin.cpp`, `/repo/source/mock/h2_mocker.cpp:1-12,21-45`, `/repo/source/mock/h2_tuple.hpp:1-17`,
the unexpected call of `/repo/source/mock/h2_mocker.hpp:75-80`, and `index_th` of `/repo/source/utils/h2_misc.cpp:86-95`.

Lines are lists of words, as in `Verif.Layout.Model`; failures are those of `Verif.FailTree.Model`, what they say is that of
`Verif.Message.Model`.  The names of types (`h2_cxa::type_name`) are inputs.
-/
namespace H2.MockText
open H2.Layout (Word Line)
open H2.Message (Fail gray decimal commaIf)
open H2.FailTree (Chain mockerCheck appendChild appendSubling)
open H2.Mock (Checkin)

/-- `color`, `/repo/source/utils/h2_line.hpp:33`. -/
def color (l : Line) (style : Word) : Line := ("\x1b{".toList ++ style ++ "}".toList) :: l ++ ["\x1b{reset}".toList]

/-- `delta`, `/repo/source/utils/h2_line.hpp:34`. -/
def delta (l : Line) (style : Word) : Line := ("\x1b{+".toList ++ style ++ "}".toList) :: l ++ ["\x1b{-".toList ++ style ++ "}".toList]

/-- The table of `index_th`. -/
def table : List String :=
  ["0th", "1st", "2nd", "3rd", "4th", "5th", "6th", "7th", "8th", "9th", "10th", "11th", "12th", "13th", "14th", "15th"]

/-- `index_th(i)`, `/repo/source/utils/h2_misc.cpp:86-95`.  (There are fewer than 2^31 expectations.) -/
def indexTh (i : Nat) : Word :=
  match table[i + 1]? with
  | some s => s.toList
  | none => decimal (i + 1 : Nat) ++ "th".toList

/-- `h2_checkin::actual`, `/repo/source/mock/h2_checkin.cpp:9-15`. -/
def actual (k : Checkin) : Word :=
  if k.call > 0 then decimal k.call ++ " times".toList else "never".toList

/-- `h2_checkin::expect`, `/repo/source/mock/h2_checkin.cpp:17-28`. -/
def expect (k : Checkin) : Word :=
  if k.least = 0 then
    if k.most = 0 then "never called".toList
    else if k.most = 0x7fffffff then "any number of times".toList
    else "at most ".toList ++ decimal k.most ++ " times".toList
  else if k.least = k.most then "exactly ".toList ++ decimal k.least ++ " times".toList
  else if k.most = 0x7fffffff then "at least ".toList ++ decimal k.least ++ " times".toList
  else "between ".toList ++ decimal k.least ++ " and ".toList ++ decimal k.most ++ " times".toList

/-- An expectation: the counts and the name of the function that made it (`h2_checkin::expr`). -/
structure Row where
  k : Checkin
  expr : Word

/-- A mocker: `return_type`, `srcfn`, `argument_types`, `filine` and `checkin_array`, `/repo/source/mock/h2_mocker.hpp:1-13`. -/
structure Mock where
  ret : Word
  fn : Word
  types : List Word
  filine : Option Word
  rows : List Row

/-- ` when 2nd Once` -/
def whenTh (i : Nat) (expr : Word) : Line :=
  gray " when ".toList ++ [indexTh i] ++ [" ".toList] ++ color [expr] "cyan".toList

/-- The line of `h2_checkin::check`, `/repo/source/mock/h2_checkin.cpp:4-5`. -/
def checkLine (fn : Word) (total i : Nat) (r : Row) : Line :=
  [fn] ++ gray "()".toList ++ [" expected ".toList] ++ delta [expect r.k] "green".toList ++ [" but actually ".toList] ++
  delta [actual r.k] "red,bold".toList ++ [" called".toList] ++
  (if 1 < total then whenTh i r.expr else [])

/-- `h2_checkin::check`, `/repo/source/mock/h2_checkin.cpp:1-7`, with the number set by `/repo/source/mock/h2_mocker.cpp:26`. -/
def checkRow (fn : Word) (total : Nat) (r : Row × Nat) : Chain Fail :=
  if r.1.k.checkFails then .fail { explain := checkLine fn total r.2 r.1, seqno := r.2 } .null .null else .null

/-- The loop of `argument`, `/repo/source/mock/h2_mocker.cpp:4-5`, from `i`. -/
def types (seq : Int) (style : Word) : Nat → List Word → Line
  | _, [] => []
  | i, t :: ts =>
    gray (commaIf (i ≠ 0) ", ".toList []) ++ color [t] (if seq = i then "red,bold".toList else style) ++ types seq style (i + 1) ts

/-- `h2_mocker_base::argument`, `/repo/source/mock/h2_mocker.cpp:1-7`. -/
def argument (m : Mock) (seq : Int) (style : Word) : Line :=
  gray "(".toList ++ types seq style 0 m.types ++ gray ")".toList

/-- `h2_mocker_base::signature`, `/repo/source/mock/h2_mocker.cpp:9-12`. -/
def signature (m : Mock) : Line :=
  ["MOCK".toList] ++ gray "<".toList ++ delta [m.ret] "cyan".toList ++ [" ".toList] ++ delta [m.fn] "green".toList ++
  argument m (-1) "cyan".toList ++ gray ">".toList

/-- `h2_mocker_base::check`, `/repo/source/mock/h2_mocker.cpp:21-34`. -/
def check (m : Mock) : Chain Fail :=
  mockerCheck { explain := signature m, filine := m.filine } (m.rows.zipIdx.map (checkRow m.fn m.rows.length))

/-- The failure of a call no expectation is for, `/repo/source/mock/h2_mocker.hpp:75-80`. -/
def unexpected (m : Mock) (args : List H2.Stringify.Val) : Chain Fail :=
  appendChild (.fail { explain := signature m, filine := m.filine } .null .null)
    (.fail { explain := [m.fn] ++ H2.Stringify.print true (.tuple args) ++ color [" unexpectedly".toList] "red,bold".toList ++ [" called".toList] } .null .null)

/-- A failure with its number, `/repo/source/mock/h2_tuple.hpp:8`. -/
def numbered (i : Nat) : Chain Fail → Chain Fail
  | .null => .null
  | .fail a c s => .fail { a with seqno := (i : Int) } c s

/-- `tuple_matches`, `/repo/source/mock/h2_tuple.hpp:1-17`, for what the matchers say about the arguments. -/
def tupleMatches (results : List (Chain Fail)) : Chain Fail :=
  (results.zipIdx.map fun x => numbered x.2 x.1).foldl appendSubling .null

/-- What `h2_mocker_base::failing` adds to a failure, `/repo/source/mock/h2_mocker.cpp:38-41`. -/
def blame (m : Mock) (i : Nat) (f : Fail) : Fail :=
  { f with explain := f.explain ++ (gray "on ".toList ++ ([m.fn] ++ argument m f.seqno [])) ++
      (if 1 < m.rows.length then whenTh i (m.rows.getD i ⟨⟨0, 0, 0⟩, []⟩).expr else []) }

/-- A function applied to every failure of a tree (`foreach` with a function that changes them). -/
def mapChain (g : Fail → Fail) : Chain Fail → Chain Fail
  | .null => .null
  | .fail a c s => .fail (g a) (mapChain g c) (mapChain g s)

/-- `h2_mocker_base::failing`, `/repo/source/mock/h2_mocker.cpp:36-45`: what is passed on to the case. -/
def wrong (m : Mock) (i : Nat) (fails : Chain Fail) : Chain Fail :=
  appendChild (.fail { explain := signature m, filine := m.filine } .null .null) (mapChain (blame m i) fails)

end H2.MockText
