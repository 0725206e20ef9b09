import Verif.Json.Node
/-
Model of the JSON lexer: `/repo/source/json/h2_lexical.cpp`.
-/
namespace H2.Json

/-- `::isspace` in the C locale. -/
def cSpace (c : Char) : Bool := c == ' ' || c == '\t' || c == '\n' || c == '\x0b' || c == '\x0c' || c == '\r'

/-- `strchr("{:}[,]", c)`. -/
def cPunct (c : Char) : Bool := c == '{' || c == ':' || c == '}' || c == '[' || c == ',' || c == ']'

/-- `strip_left` and `strip_right`, `/repo/source/utils/h2_misc.cpp:39-50`, as `new_lexis` uses them,
`/repo/source/json/h2_lexical.cpp:2-7`. -/
def strip (s : Str) : Str := ((s.dropWhile cSpace).reverse.dropWhile cSpace).reverse

/-- The states, `/repo/source/json/h2_lexical.cpp:11-18`. -/
inductive LexState where
  | idle | escape | single | double | pattern | normal
deriving DecidableEq

/-- The variables of the loop, `/repo/source/json/h2_lexical.cpp:20-22`: `pending` is the text from where it
points to up to the current character. -/
structure Lexer where
  pending : Option Str := none
  state : LexState := .idle
  stash : LexState := .idle

/-- One round of the loop, `/repo/source/json/h2_lexical.cpp:23-77`: the tokens it adds, and what it leaves. -/
def lexStep (x : Lexer) (c : Char) : List Str × Lexer :=
  let more := x.pending.map (· ++ [c])
  match x.state with
  | .idle =>
    if cSpace c then ([], x)
    else if cPunct c then ([strip [c]], x)
    else
      if c = '"' then ([], { x with pending := some [c], state := .double })
      else if c = '\'' then ([], { x with pending := some [c], state := .single })
      else if c = '/' then ([], { x with pending := some [c], state := .pattern })
      else if c = '\\' then ([], { x with pending := some [c], stash := .normal, state := .escape })
      else ([], { x with pending := some [c], state := .normal })
  | .escape => ([], { x with pending := more, state := x.stash })
  | .single =>
    if c = '\'' then ((more.map strip).toList, { x with pending := none, state := .idle })
    else if c = '\\' then ([], { x with pending := more, stash := .single, state := .escape })
    else ([], { x with pending := more })
  | .double =>
    if c = '"' then ((more.map strip).toList, { x with pending := none, state := .idle })
    else if c = '\\' then ([], { x with pending := more, stash := .double, state := .escape })
    else ([], { x with pending := more })
  | .pattern =>
    if c = '/' then ((more.map strip).toList, { x with pending := none, state := .idle })
    else ([], { x with pending := more })
  | .normal =>
    if cPunct c then ((x.pending.map strip).toList ++ [strip [c]], { x with pending := none, state := .idle })
    else if c = '\\' then ([], { x with pending := more, stash := .normal, state := .escape })
    else ([], { x with pending := more })

/-- The loop and what follows it, `/repo/source/json/h2_lexical.cpp:23-80`; the length is not limited
(`json_length` is -1, and counts down without meeting 0 for less than 2^31 characters). -/
def lexLoop : Lexer → Str → List Str
  | x, [] => (x.pending.map strip).toList
  | x, c :: s => (lexStep x c).1 ++ lexLoop (lexStep x c).2 s

/-- `h2_json_lexical::parse`, `/repo/source/json/h2_lexical.cpp:9-81`. -/
def lex (s : Str) : List Str := lexLoop {} s

end H2.Json
