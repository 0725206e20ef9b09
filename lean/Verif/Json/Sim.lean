import Verif.Json.Dual
import Verif.Diff.Model
import Verif.Round.Model
/-
Model of the likeness of two JSON nodes: `/repo/source/json/h2_match.cpp:47-81`, in `double`: every operation is rounded.  Exponents are not
bounded: likenesses that overflow, those of arrays and objects of a thousand elements and more, are not represented.
-/
namespace H2.Json.Dual
open H2.Json
open H2.Round (dbl)

/-- `value_string` of a node as the parser leaves it, `/repo/source/json/h2_syntax.cpp:65-85`: that of a number is cleared, those of
`null`, `true` and `false` are never set. -/
def valueString : Json → Str
  | .str s => s
  | .pat s => s
  | _ => []

/-- `h2_similarity::estimate`, `/repo/source/utils/h2_diff.cpp:19-24`: the distance and the number of characters are converted to `double`. -/
def estimate (caseless : Bool) (s t : Str) : Rat :=
  if s.length = 0 ∧ t.length = 0 then 1
  else
    dbl (1 - dbl (dbl (((H2.Diff.levenshtein caseless s t).getD 0 : Nat) : Rat) / dbl (dbl ((s.length + t.length : Nat) : Rat) * (1 / 2))))

/-- The last part of `similarity`, `/repo/source/json/h2_match.cpp:77-80`: the keys. -/
def withKeys (caseless : Bool) (ek ak : Str) (score : Rat) : Rat :=
  if ek ≠ [] ∨ ak ≠ [] then dbl (dbl (score * (1 / 2)) + dbl (1 / 2 * estimate caseless ek ak)) else score

/-- One step of the loops, `/repo/source/json/h2_match.cpp:51-52,60-61`; `i`, an `int`, is converted exactly. -/
def addScore (sub : Rat) (i : Nat) (score : Rat) : Rat := dbl (sub + dbl (dbl (dbl (sub * i) + score) / (i + 1)))

/-- `/repo/source/json/h2_match.cpp:49-50,53,58-59,62`; `0.3` and `0.7` are `double`s. -/
def sizeScore (n m : Nat) (sub : Rat) : Rat := dbl ((if n = m then dbl (3 / 10) else 0) + dbl (dbl (7 / 10) * sub))

mutual
/-- `similarity` without the keys, `/repo/source/json/h2_match.cpp:66-76`. -/
def valueScore (caseless : Bool) : Json → Json → Rat
  | .arr l, a => match a with
    | .arr m => sizeScore l.length m.length (arrayScore caseless l 0 m 0)
    | _ => 0
  | .obj l, a => match a with
    | .obj m => sizeScore l.length m.length (objectScore caseless l 0 m 0)
    | _ => 0
  | .absent, a => if kind a = .absent then estimate caseless [] [] else 0
  | .null, a => if kind a = .null then estimate caseless [] [] else 0
  | .bool _, a => if kind a = .boolean then estimate caseless [] [] else 0
  | .num _, a => if kind a = .number then estimate caseless [] [] else 0
  | .str s, a => if kind a = .string then estimate caseless s (valueString a) else 0
  | .pat s, a => if kind a = .pattern then estimate caseless s (valueString a) else 0
/-- The loop of `array_similarity`, `/repo/source/json/h2_match.cpp:51-52`. -/
def arrayScore (caseless : Bool) : List Json → Nat → List Json → Rat → Rat
  | [], _, _, sub => sub
  | p :: l, i, m, sub =>
    arrayScore caseless l (i + 1) m (addScore sub i (match m[i]? with
      | some a => withKeys caseless [] [] (valueScore caseless p a)
      | none => 0))
/-- The loop of `object_similarity`, `/repo/source/json/h2_match.cpp:60-61`. -/
def objectScore (caseless : Bool) : List (Str × Json) → Nat → List (Str × Json) → Rat → Rat
  | [], _, _, sub => sub
  | (k, p) :: l, i, m, sub =>
    objectScore caseless l (i + 1) m (addScore sub i (match m.find? fun c => H2.Str.equals c.1 k false with
      | some c => withKeys caseless k c.1 (valueScore caseless p c.2)
      | none => 0))
end

/-- `similarity`, `/repo/source/json/h2_match.cpp:66-81`. -/
def similarity (caseless : Bool) (e a : Kid) : Rat := withKeys caseless e.key a.key (valueScore caseless e.value a.value)

end H2.Json.Dual
