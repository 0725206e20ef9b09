/-
Model of the lookup of symbols: `/repo/source/symbol/h2_nm.cpp`, `/repo/source/symbol/h2_nm.hpp` (not Windows).
-/
namespace H2.Nm

/-- One line of the output of `nm`: address, type, symbol, as `sscanf` takes it apart, `/repo/source/symbol/h2_nm.cpp:9-10`. -/
structure Line where
  addr : Nat
  type : Char
  symbol : List Char
deriving DecidableEq

/-- `h2_symbol`, `/repo/source/symbol/h2_nm.hpp:1-7`. -/
structure Symbol where
  symbol : List Char
  addr : Nat
deriving DecidableEq

/-- The constructor keeps 127 characters, `/repo/source/symbol/h2_nm.hpp:5`. -/
def mk (symbol : List Char) (addr : Nat) : Symbol := ⟨symbol.take 127, addr⟩

/-- `__nm`, `/repo/source/symbol/h2_nm.cpp:2-17`; the output of the command is the argument. -/
def nmLines (lines : List Line) : List Symbol :=
  (lines.filter fun l => !"bBcCdDiIuU".toList.contains l.type).map fun l => mk l.symbol l.addr

/-- `__leading_underscore`, `/repo/source/symbol/h2_nm.cpp:18-26`: the loop with its local variable `_main`. -/
def underscoreLoop : List Symbol → Bool → Bool
  | [], m => m
  | p :: ps, m =>
    if p.symbol = "main".toList then false
    else underscoreLoop ps (if p.symbol = "_main".toList then true else m)

/-- `h2_nm`, `/repo/source/symbol/h2_nm.hpp:9-12`; `once` is the flag of `h2_once_if` in `nm`. -/
structure St where
  mangled : List Symbol := []
  demangled : List Symbol := []
  leading : Bool := false
  once : Bool := true
deriving DecidableEq

/-- `h2_symbol::name`, `/repo/source/symbol/h2_nm.cpp:34-37`. -/
def name (leading : Bool) (p : Symbol) : List Char :=
  if leading && p.symbol.head? = some '_' then p.symbol.drop 1 else p.symbol

/-- `strncmp_reverse`, `/repo/source/symbol/h2_nm.cpp:39-43`: `a` and `b` are the texts `[a, ae)` and `[b, be)`. -/
def strncmpReverse (a b : List Char) (n : Nat) : Bool :=
  if a.length < n || b.length < n then false
  else a.drop (a.length - n) == b.drop (b.length - n)

/-- The character `i` before position `k` of a text; `before` is what lies in memory before the text. -/
def charBefore (before : Char) (text : List Char) (k i : Nat) : Char :=
  if i ≤ k then text.getD (k - i) '\x00' else before

/-- One turn of the second loop of `get_by_name`, `/repo/source/symbol/h2_nm.cpp:71-75`: whether the symbol is taken.  When the function's
name begins at position 1 of the symbol, `func[-2]` is the character before the symbol's name: `before`. -/
def qualifies (before : Char) (leading : Bool) (nm : List Char) (p : Symbol) : Bool :=
  let text := name leading p
  if '(' ∈ text then
    let paren := (text.takeWhile (· ≠ '(')).length
    if !strncmpReverse (text.take paren) nm nm.length then false
    else
      let func := paren - nm.length
      if 0 < func && (charBefore before text func 1 ≠ ':' || charBefore before text func 2 ≠ ':') then false else true
  else false

/-- The second loop of `get_by_name`, `/repo/source/symbol/h2_nm.cpp:69-78`, with its variables `count` (the length of `res`) and `res`. -/
def secondLoop (before : Char) (leading : Bool) (nm : List Char) (n : Nat) : List Symbol → List Symbol → List Symbol
  | [], res => res
  | p :: ps, res =>
    secondLoop before leading nm n ps (if qualifies before leading nm p && res.length < n then res ++ [p] else res)

/-- The loops of `get_by_name`, `/repo/source/symbol/h2_nm.cpp:63-78`. -/
def search (before : Char) (leading : Bool) (nm : List Char) (n : Nat) (symbols : List Symbol) : List Symbol :=
  match symbols.find? fun p => name leading p = nm with
  | some p => [p]
  | none => secondLoop before leading nm n symbols []

/-- `nm`, `/repo/source/symbol/h2_nm.cpp:27-31`: the symbols read, and `leading_underscore`. -/
def load (lines : List Line) (s : St) : List Symbol × St :=
  let symbols := nmLines lines
  (symbols, if s.once then { s with leading := underscoreLoop symbols false, once := false } else s)

/-- `get_by_name`, `/repo/source/symbol/h2_nm.cpp:45-80`; `lines` is what `nm --demangle` prints. -/
def getByName (before : Char) (lines : List Line) (nm : Option (List Char)) (n : Nat) (s : St) : List Symbol × St :=
  match nm with
  | none => ([], s)
  | some nm =>
    if nm.length = 0 then ([], s) else
    let s := if s.demangled = [] then let (l, s) := load lines s; { s with demangled := l } else s
    (search before s.leading nm n s.demangled, s)

/-- `get_mangle`, `/repo/source/symbol/h2_nm.cpp:99-117`; `lines` is what `nm` prints. -/
def getMangle (lines : List Line) (nm : Option (List Char)) (s : St) : Nat × St :=
  match nm with
  | none => (0, s)
  | some nm =>
    if nm.length = 0 then (0, s) else
    let s := if s.mangled = [] then let (l, s) := load lines s; { s with mangled := l } else s
    match s.mangled.find? fun p => name s.leading p = nm with
    | some p => (p.addr, s)
    | none => (0, s)

/-- The two lookups. -/
inductive Op where
  | byName (nm : Option (List Char)) (n : Nat)
  | mangle (nm : Option (List Char))

/-- A history of lookups; `dl` and `ml` are what `nm` prints with and without `--demangle`. -/
def run (before : Char) (dl ml : List Line) : List Op → St → St
  | [], s => s
  | .byName nm n :: ops, s => run before dl ml ops (getByName before dl nm n s).2
  | .mangle nm :: ops, s => run before dl ml ops (getMangle ml nm s).2

end H2.Nm
