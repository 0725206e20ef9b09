import Verif.Json.Lexer
/-
Model of the JSON selector: `/repo/source/json/h2_select.cpp`, and of `select`, `/repo/source/json/h2_tree.cpp:12-19`.
-/
namespace H2.Json

/-- `h2_json_select::value`, `/repo/source/json/h2_select.cpp:2-5`. -/
structure SelPart where
  index : Int := 0
  key : Str := []
deriving DecidableEq

/-- `isdigit`. -/
def cDigit (c : Char) : Bool := '0'.toNat ≤ c.toNat && c.toNat ≤ '9'.toNat

/-- The digits at the beginning as a number. -/
def digitsValue : Str → Nat → Nat
  | [], n => n
  | c :: s, n => if cDigit c then digitsValue s (10 * n + (c.toNat - '0'.toNat)) else n

/-- `atoi` of the C library, on text that does not begin with white space or `+`; values beyond `int` are not modelled
(their conversion is undefined). -/
def atoi (s : Str) : Int :=
  match s with
  | '-' :: s => -(digitsValue s 0 : Int)
  | s => digitsValue s 0

/-- `strspn(start, "-0123456789") == end - start`: behind `end` stands a bracket or white space. -/
def indexText (s : Str) : Bool := s.all fun c => c == '-' || cDigit c

/-- `add`, `/repo/source/json/h2_select.cpp:55-70`. -/
def addPart (text : Str) (onlyKey : Bool) : List SelPart :=
  let t := strip text
  if t = [] then []
  else if !onlyKey && indexText t then [{ index := atoi t }]
  else if !onlyKey && ((t.head? == some '"' && t.getLast? == some '"') || (t.head? == some '\'' && t.getLast? == some '\'')) then
    (if (t.drop 1).dropLast = [] then [] else [{ key := (t.drop 1).dropLast }])
  else [{ key := t }]

/-- The states, with the text from where `s` points to, `/repo/source/json/h2_select.cpp:11-17`. -/
inductive SelState where
  | idle
  | dot (text : Str)
  | bracket (text : Str)

/-- One round, `/repo/source/json/h2_select.cpp:19-51`, for a character that does not end the text. -/
def selStep (x : SelState) (c : Char) : List SelPart × SelState :=
  match x with
  | .idle => if c = '.' then ([], .dot []) else if c = '[' then ([], .bracket []) else ([], .idle)
  | .dot t =>
    if c = '.' then (addPart t true, .dot [])
    else if c = '[' then (addPart t true, .bracket [])
    else ([], .dot (t ++ [c]))
  | .bracket t => if c = ']' then (addPart t false, .idle) else ([], .bracket (t ++ [c]))

/-- The last round, on the character that ends the text, `/repo/source/json/h2_select.cpp:40-43`. -/
def selLast (x : SelState) : List SelPart :=
  match x with
  | .dot t => addPart t true
  | _ => []

/-- The loop, `/repo/source/json/h2_select.cpp:18-52`. -/
def selLoop : SelState → Str → List SelPart
  | x, [] => selLast x
  | x, c :: s => (selStep x c).1 ++ selLoop (selStep x c).2 s

/-- `h2_json_select`, `/repo/source/json/h2_select.cpp:9-53`. -/
def selector (s : Str) : List SelPart := selLoop .idle s

/-- The children of a node and their keys (`children`, `/repo/source/json/h2_node.cpp:13-17`). -/
def Json.children : Json → List (Str × Json)
  | .arr l => l.map fun x => ([], x)
  | .obj l => l
  | _ => []

/-- `c.key.size() ? node->get(c.key, caseless) : node->get(c.index)`, `/repo/source/json/h2_tree.cpp:16`. -/
def Json.get (j : Json) (c : SelPart) (caseless : Bool) : Option Json :=
  if c.key ≠ [] then getKey j.children c.key caseless else (getIndex j.children c.index).map (·.2)

inductive Selected where
  | found (j : Json)
  | nothing
  /-- a member function is called through a null pointer -/
  | undefined

/-- The loop of `select`, `/repo/source/json/h2_tree.cpp:12-19`. -/
def selectIn (caseless : Bool) : Option Json → List SelPart → Selected
  | some j, [] => .found j
  | none, [] => .nothing
  | some j, c :: l => selectIn caseless (j.get c caseless) l
  | none, _ :: _ => .undefined

/-- `select`, `/repo/source/json/h2_tree.cpp:12-19`. -/
def select (j : Json) (s : Str) (caseless : Bool) : Selected := selectIn caseless (some j) (selector s)

end H2.Json
