import Verif.Json.Lexer
import Verif.Json.Expr
/-
Model of the JSON parser: `/repo/source/json/h2_syntax.cpp`, and of the whole way from a text to a tree,
`/repo/source/json/h2_tree.cpp:1-10`.
-/
namespace H2.Json

/-- `replace_all` of a backslash and `x` by `y`, `/repo/source/utils/h2_string.cpp:17-25`. -/
def replaceAll (x y : Char) : Str → Str
  | [] => []
  | [c] => [c]
  | c :: d :: s => if c = '\\' ∧ d = x then y :: replaceAll x y s else c :: replaceAll x y (d :: s)
termination_by s => s.length

/-- `unescape`, `/repo/source/utils/h2_string.cpp:89-100`. -/
def unescape (s : Str) : Str :=
  replaceAll '\\' '\\' (replaceAll '"' '"' (replaceAll 't' '\t' (replaceAll 'r' '\r' (replaceAll 'n' '\n'
    (replaceAll 'f' '\x0c' (replaceAll 'b' '\x08' s))))))

/-- `enclosed`, `/repo/source/utils/h2_string.cpp:63-67`.  (Tokens are never empty.) -/
def enclosed (q : Char) (s : Str) : Bool := s.head? == some q && s.getLast? == some q

/-- `unenclose` of an enclosed string, `/repo/source/utils/h2_string.cpp:69-73`; nothing where the length, less
two, is below zero, and the constructor of the string throws. -/
def unenclose (s : Str) : Option Str := if s.length < 2 then none else some ((s.drop 1).dropLast)

/-- `filter_string`, `/repo/source/json/h2_syntax.cpp:12-18`. -/
def filterString (s : Str) : Option Str :=
  if enclosed '"' s then (unenclose s).map unescape
  else if enclosed '\'' s then (unenclose s).map unescape
  else some (unescape s)

/-- What reading tokens leads to. -/
inductive Reading where
  | ok (j : Json) (rest : List Str)
  | illformed
  /-- an exception of the C++ library (`std::length_error`) leaves the parser -/
  | crash
  /-- the fuel is used up (which the proofs show never to happen) -/
  | fuel

def Reading.bind (r : Reading) (f : Json → List Str → Reading) : Reading :=
  match r with
  | .ok j rest => f j rest
  | .illformed => .illformed
  | .crash => .crash
  | .fuel => .fuel

/-- A string that may have thrown. -/
def orCrash (o : Option Str) (f : Str → Reading) : Reading :=
  match o with
  | some s => f s
  | none => .crash

/-- `parse_string_or_number`, `/repo/source/json/h2_syntax.cpp:73-85`. -/
def readScalar (m : Expr.Machine) (t : Str) (r : List Str) : Reading :=
  match Expr.evaluate m t with
  | some d => .ok (.num d) r
  | none => orCrash (filterString t) fun s => .ok (.str s) r

/-- `parse_pattern`, `/repo/source/json/h2_syntax.cpp:65-71`. -/
def readPattern (t : Str) (r : List Str) : Reading :=
  if enclosed '/' t then orCrash (unenclose t) fun s => .ok (.pat s) r else .ok (.pat t) r

/-- The functions of the parser; the loops as functions of the children read so far. -/
inductive Part where
  | value
  | elements (before : List Json)
  | members (before : List (Str × Json))

/-- `parse_value`, `parse_array` and `parse_object`, `/repo/source/json/h2_syntax.cpp:27-121`. -/
def read (m : Expr.Machine) : Nat → Part → List Str → Reading
  | 0, _, _ => .fuel
  | n + 1, .value, ts =>
    match ts with
    | [] => .ok .absent []
    | t :: r =>
      if t = "null".toList then .ok .null r
      else if t = "false".toList then .ok (.bool false) r
      else if t = "true".toList then .ok (.bool true) r
      else if t = ['['] then read m n (.elements []) r
      else if t = ['{'] then read m n (.members []) r
      else if t.head? = some '/' then readPattern t r
      else if t = [':'] then .illformed
      else if t = [','] then .illformed
      else readScalar m t r
  | n + 1, .elements l, ts =>
    match ts with
    | [] => .illformed
    | t :: r =>
      if t = [']'] then .ok (.arr l) r
      else
        (read m n .value (t :: r)).bind fun j r =>
          match r with
          | [] => .illformed
          | t :: r =>
            if t = [','] then read m n (.elements (l ++ [j])) r
            else if t = [']'] then .ok (.arr (l ++ [j])) r
            else .illformed
  | n + 1, .members l, ts =>
    match ts with
    | [] => .illformed
    | t :: r =>
      if t = ['}'] then .ok (.obj l) r
      else
        orCrash (filterString t) fun k =>
          match r with
          | [] => .illformed
          | c :: r =>
            if c = [':'] then
              (read m n .value r).bind fun j r =>
                match r with
                | [] => .illformed
                | t :: r =>
                  if t = [','] then read m n (.members (l ++ [(k, j)])) r
                  else if t = ['}'] then .ok (.obj (l ++ [(k, j)])) r
                  else .illformed
            else .illformed

/-- `parse`, `/repo/source/json/h2_syntax.cpp:6-10`: all tokens are used. -/
def readAll (m : Expr.Machine) (ts : List Str) : Reading :=
  (read m (2 * ts.length + 2) .value ts).bind fun j r => if r = [] then .ok j [] else .illformed

/-- The tree of a text, `/repo/source/json/h2_tree.cpp:6-10`. -/
def tree (m : Expr.Machine) (s : Str) : Reading := readAll m (lex s)

end H2.Json
