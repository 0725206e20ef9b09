import Verif.Matcher.Model
/-
Model of the string helpers used by the string matchers
(`/repo/source/utils/h2_string.cpp`) and of the matchers themselves
(`/repo/source/matcher/h2_matches_strcmp.cpp`).

A C string is a list of characters without NUL; only ASCII distinctions matter here, so the
bytes of a multi-byte character are simply further characters.
-/
namespace H2.Str

/-- `::tolower` in the C locale, `/repo/source/utils/h2_string.cpp:126-131`. -/
def lower (s : List Char) : List Char := s.map Char.toLower

/-- `std::string::find(needle, i)`: the first index from which `needle` is found, counted from
the string start `i`; used in `/repo/source/utils/h2_string.cpp:45-46,52-53`. -/
def find (needle : List Char) : List Char → Nat → Option Nat
  | [], i => if needle = [] then some i else none
  | c :: hay, i => if needle.isPrefixOf (c :: hay) then some i else find needle hay (i + 1)

/-- `std::string::rfind(needle)`: the last such index; used in
`/repo/source/utils/h2_string.cpp:59-60`. -/
def rfind (needle : List Char) : List Char → Nat → Option Nat
  | [], i => if needle = [] then some i else none
  | c :: hay, i =>
    match rfind needle hay (i + 1) with
    | some j => some j
    | none => if needle.isPrefixOf (c :: hay) then some i else none

/-- `equals`, `/repo/source/utils/h2_string.cpp:37-41`. -/
def equals (s full : List Char) (caseless : Bool) : Bool :=
  if caseless then lower s == lower full else s == full

/-- `contains`, `/repo/source/utils/h2_string.cpp:43-47`. -/
def contains (s sub : List Char) (caseless : Bool) : Bool :=
  if caseless then (find (lower sub) (lower s) 0).isSome else (find sub s 0).isSome

/-- `startswith`, `/repo/source/utils/h2_string.cpp:49-54`. -/
def startswith (s pre : List Char) (caseless : Bool) : Bool :=
  if s.length < pre.length then false
  else if caseless then find (lower pre) (lower s) 0 == some 0 else find pre s 0 == some 0

/-- `endswith`, `/repo/source/utils/h2_string.cpp:56-61`. -/
def endswith (s suf : List Char) (caseless : Bool) : Bool :=
  if s.length < suf.length then false
  else if caseless then rfind (lower suf) (lower s) 0 == some (s.length - suf.length)
  else rfind suf s 0 == some (s.length - suf.length)

/-- The set `"\t\n "`, `/repo/source/utils/h2_string.cpp:104,116`. -/
def isBlank (c : Char) : Bool := c == '\t' || c == '\n' || c == ' '

/-- `trim`, `/repo/source/utils/h2_string.cpp:102-108` (find_first_not_of / find_last_not_of). -/
def trim (s : List Char) : List Char :=
  ((s.dropWhile isBlank).reverse.dropWhile isBlank).reverse

/-- The loop of `squash`, `/repo/source/utils/h2_string.cpp:113-122`: state `quote1`, `quote2`,
`spaces`. -/
def squashLoop (quote : Bool) : List Char → Bool → Bool → Nat → List Char
  | [], _, _, _ => []
  | c :: s, q1, q2, spaces =>
    let c := if isBlank c then ' ' else c
    let spaces := if c ≠ ' ' then 0 else spaces
    let q1 := if !quote && c == '\'' then !q1 else q1
    let q2 := if !quote && c == '"' then !q2 else q2
    if !q1 && !q2 && c == ' ' then
      if spaces ≠ 0 then squashLoop quote s q1 q2 (spaces + 1)
      else c :: squashLoop quote s q1 q2 (spaces + 1)
    else c :: squashLoop quote s q1 q2 spaces

/-- `squash`, `/repo/source/utils/h2_string.cpp:110-124`. -/
def squash (s : List Char) (quote : Bool := false) : List Char := squashLoop quote (trim s) false false 0

/-- The string matchers. -/
inductive Kind where
  | se | substr | startsWith | endsWith
deriving DecidableEq, Repr

/-- `result` of the string matchers: Se squashes both operands, the others only the actual one,
`/repo/source/matcher/h2_matches_strcmp.cpp:1-7,34-56`. -/
def strTest (k : Kind) (e : List Char) (caseless squashed : Bool) (a : List Char) : Bool :=
  match k with
  | .se =>
    if squashed then equals (squash a) (squash e) caseless else equals a e caseless
  | .substr => contains (if squashed then squash a else a) e caseless
  | .startsWith => startswith (if squashed then squash a else a) e caseless
  | .endsWith => endswith (if squashed then squash a else a) e caseless

/-- The string matcher as a matcher expression,
`/repo/source/matcher/h2_matches_strcmp.hpp` (factories `Se`, `Substr`, `StartsWith`, `EndsWith`). -/
def strMatcher (k : Kind) (e : List Char) : H2.Matcher.M :=
  .leaf (fun caseless squashed a => match a with
    | .str s => strTest k e caseless squashed s
    | _ => false)

end H2.Str
