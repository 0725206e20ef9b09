import Verif.Str.Model
/-
Model of the JSON tree and of the comparison of two trees: `/repo/source/json/h2_node.cpp`,
`/repo/source/json/h2_match.cpp`.
-/
namespace H2.Json

abbrev Str := List Char

/-- A C `double`: finite values are exact rationals.  (The two zeros are one value here.) -/
inductive Dbl where
  | nan
  | inf (negative : Bool)
  | fin (q : Rat)
deriving DecidableEq

/-- `h2_json_node`, `/repo/source/json/h2_node.cpp:1-26`.  The children of an object carry their keys, those
of an array have none; `absent` is the node no token was read for.  The number of a node among its siblings
(`index`) is its place in the list. -/
inductive Json where
  | absent
  | null
  | bool (b : Bool)
  | num (d : Dbl)
  | str (s : Str)
  | pat (s : Str)
  | arr (l : List Json)
  | obj (l : List (Str × Json))

/-- `get(index)`, `/repo/source/json/h2_node.cpp:33-40`, on the list of children. -/
def getIndex {α : Type} (l : List α) (index : Int) : Option α :=
  let index := if index < 0 then (l.length : Int) + index else index
  if index < 0 then none else l[index.toNat]?

/-- `get(name, caseless)`, `/repo/source/json/h2_node.cpp:42-48`: the first child with the key. -/
def getKey (l : List (Str × Json)) (name : Str) (caseless : Bool) : Option Json :=
  (l.find? fun m => H2.Str.equals m.1 name caseless).map (·.2)

/-- The `double` nearest to 0.00001. -/
def tolerance : Rat := 5902958103587057 / 2 ^ 69

/-- Parameters: how the difference of two doubles is rounded, and `h2_pattern::match`
(`std::regex`, and `fnmatch` of the C library). -/
structure Env where
  fl : Rat → Dbl
  pattern : Str → Str → Bool → Bool

/-- The comparison of numbers, `/repo/source/json/h2_match.cpp:31-34`. -/
def close (v : Env) : Dbl → Dbl → Bool
  | .nan, .nan => true
  | .inf _, .inf _ => true
  | .fin e, .fin a =>
    match v.fl (e - a) with
    | .fin d => (if d < 0 then -d else d) < tolerance
    | _ => false
  | _, _ => false

mutual
/-- `match`, `/repo/source/json/h2_match.cpp:22-45`. -/
def matches? (v : Env) (caseless : Bool) : Json → Json → Bool
  | .null, a => match a with
    | .null => true
    | _ => false
  | .bool b, a => match a with
    | .bool b' => b == b'
    | _ => false
  | .num d, a => match a with
    | .num d' => close v d d'
    | _ => false
  | .str s, a => match a with
    | .str s' => H2.Str.equals s s' caseless
    | _ => false
  | .pat s, a => match a with
    | .str s' => v.pattern s s' caseless
    | _ => false
  | .arr l, a => match a with
    | .arr l' => l.length == l'.length && matchArray v caseless l 0 l'
    | _ => false
  | .obj l, a => match a with
    | .obj l' => !decide (l.length > l'.length) && matchObject v caseless l l'
    | _ => false
  | .absent, _ => false
/-- The loop of `match_array`, `/repo/source/json/h2_match.cpp:6-9`. -/
def matchArray (v : Env) (caseless : Bool) : List Json → Nat → List Json → Bool
  | [], _, _ => true
  | p :: l, i, a =>
    (match getIndex a i with
    | some x => matches? v caseless p x
    | none => false) && matchArray v caseless l (i + 1) a
/-- The loop of `match_object`, `/repo/source/json/h2_match.cpp:16-19`. -/
def matchObject (v : Env) (caseless : Bool) : List (Str × Json) → List (Str × Json) → Bool
  | [], _ => true
  | (k, p) :: l, a =>
    (match getKey a k caseless with
    | some x => matches? v caseless p x
    | none => false) && matchObject v caseless l a
end

end H2.Json
