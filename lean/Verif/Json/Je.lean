import Verif.Json.Dual
import Verif.Json.Syntax
import Verif.Json.Select
import Verif.Stringify.Model
/-
Model of the matcher `Je` with a selector: the selected node is written as text, and that text is compared,
`/repo/source/matcher/h2_matches_json.cpp`, `/repo/source/json/h2_json.cpp`, `/repo/source/json/h2_node.cpp:58-107`.
-/
namespace H2.Json.Je
open H2.Json H2.Json.Dual

/-- How a number is written, `/repo/source/json/h2_node.cpp:63`: whole numbers through `long long` (`cast` is what the conversion gives if
they do not fit, which C++ leaves undefined), others with six decimals. -/
def number (cast : Rat → Int) : Dbl → Str
  | .nan => "nan".toList
  | .inf neg => if neg then "-inf".toList else "inf".toList
  | .fin q =>
    if q - q.floor = 0 then H2.Stringify.intText (if -(2 ^ 63) ≤ q.floor ∧ q.floor < 2 ^ 63 then q.floor else cast q)
    else H2.Stringify.floatText (decide (q < 0)) (H2.Stringify.nearest ((if q < 0 then -q else q) * 1000000)).toNat

/-- `format_value(quote)`, `/repo/source/json/h2_node.cpp:58-70`. -/
def formatValue (num : Dbl → Str) (quote : Str) : Json → Str
  | .null => "null".toList
  | .bool b => if b then "true".toList else "false".toList
  | .num d => num d
  | .str s => quote ++ s ++ quote
  | .pat s => ['/'] ++ s ++ ['/']
  | _ => []

/-- The key, `/repo/source/json/h2_node.cpp:84-85`. -/
def formatKey (quote key : Str) : Line := if key = [] then [] else [quote ++ key ++ quote ++ ": ".toList]

/-- What follows a node, `/repo/source/json/h2_node.cpp:103`. -/
def comma (next : Bool) : Line := if next then [", ".toList] else []

/-- Arrays and objects around their children, `/repo/source/json/h2_node.cpp:90-98` and the end, `:102-105`. -/
def around (fold : Bool) (depth : Nat) (line : Line) (opens closes : Char) (next : Bool) (children : Lines) : Lines :=
  if fold && foldable children then [line ++ [[opens]] ++ folds children ++ [[closes]] ++ comma next]
  else (line ++ [[opens]]) :: children ++ [indent (depth * 2) ++ [[closes]] ++ comma next]

mutual
/-- `format(fold, quote, depth, next)`, `/repo/source/json/h2_node.cpp:79-107`; `next` tells whether a sibling follows. -/
def format (num : Dbl → Str) (fold : Bool) (quote : Str) (depth : Nat) (next : Bool) (key : Str) : Json → Lines
  | .arr l => around fold depth (indent (depth * 2) ++ formatKey quote key) '[' ']' next (formatAll num fold quote (depth + 1) l)
  | .obj l => around fold depth (indent (depth * 2) ++ formatKey quote key) '{' '}' next (formatMembers num fold quote (depth + 1) l)
  | .absent => [indent (depth * 2) ++ formatKey quote key ++ [formatValue num quote .absent] ++ comma next]
  | .null => [indent (depth * 2) ++ formatKey quote key ++ [formatValue num quote .null] ++ comma next]
  | .bool b => [indent (depth * 2) ++ formatKey quote key ++ [formatValue num quote (.bool b)] ++ comma next]
  | .num d => [indent (depth * 2) ++ formatKey quote key ++ [formatValue num quote (.num d)] ++ comma next]
  | .str s => [indent (depth * 2) ++ formatKey quote key ++ [formatValue num quote (.str s)] ++ comma next]
  | .pat s => [indent (depth * 2) ++ formatKey quote key ++ [formatValue num quote (.pat s)] ++ comma next]
/-- The loop over the elements of an array, `/repo/source/json/h2_node.cpp:88-89`. -/
def formatAll (num : Dbl → Str) (fold : Bool) (quote : Str) (depth : Nat) : List Json → Lines
  | [] => []
  | x :: l => format num fold quote depth (decide (l ≠ [])) [] x ++ formatAll num fold quote depth l
/-- The same loop over the members of an object. -/
def formatMembers (num : Dbl → Str) (fold : Bool) (quote : Str) (depth : Nat) : List (Str × Json) → Lines
  | [] => []
  | (k, x) :: l => format num fold quote depth (decide (l ≠ [])) k x ++ formatMembers num fold quote depth l
end

/-- `h2_lines::string`, `/repo/source/utils/h2_line.cpp:176-184`. -/
def linesText (ls : Lines) : Str := (ls.flatten.filter fun w => !blank w && !isctrl w).flatten

/-- What `h2_json::select` leads to. -/
inductive Picked where
  | text (s : Str)
  | crash
  | undefined

/-- `h2_json::select`, `/repo/source/json/h2_json.cpp:22-29`; `fold` is the option. -/
def pick (m : Expr.Machine) (cast : Rat → Int) (fold : Bool) (a selector : Str) (caseless : Bool) : Picked :=
  match tree m a with
  | .illformed => .text a
  | .crash => .crash
  | .fuel => .crash
  | .ok j _ =>
    match select j selector caseless with
    | .undefined => .undefined
    | .nothing => .text []
    | .found x => .text (linesText (format (number cast) fold ['"'] 0 false [] x))

/-- What the matcher leads to: nothing, a failure, a failure about an ill-formed text, an exception, undefined behaviour. -/
inductive Verdict where
  | passes | fails | illformed | crash | undefined
deriving DecidableEq

/-- `h2_json::match`, `/repo/source/json/h2_json.cpp:31-36`, and the verdict, `/repo/source/matcher/h2_matches_json.cpp:5-8`. -/
def judge (m : Expr.Machine) (v : Env) (caseless negated : Bool) (e a : Str) : Verdict :=
  match tree m e, tree m a with
  | .crash, _ => .crash
  | .fuel, _ => .crash
  | _, .crash => .crash
  | _, .fuel => .crash
  | .illformed, _ => .illformed
  | _, .illformed => .illformed
  | .ok e _, .ok a _ => if matches? v caseless e a != negated then .passes else .fails

/-- `h2_matches_json::matches`, `/repo/source/matcher/h2_matches_json.cpp:1-9`: `Je(e, selector)` on `a`. -/
def je (m : Expr.Machine) (v : Env) (cast : Rat → Int) (fold caseless negated : Bool) (e selector a : Str) : Verdict :=
  if selector = [] then judge m v caseless negated e a
  else
    match pick m cast fold a selector caseless with
    | .text s => judge m v caseless negated e s
    | .crash => .crash
    | .undefined => .undefined

end H2.Json.Je
