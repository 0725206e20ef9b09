import Verif.Json.Je
import Verif.Layout.Model
/-
Model of how a value is printed for use in a program (`-S`), `/repo/source/json/h2_json.cpp:2-20`,
`/repo/source/report/h2_failure.cpp:183-194`.
-/
namespace H2.Json.Je
open H2.Json H2.Json.Dual
open H2.Layout (lineWidth padding)

/-- `lines.front() = "\"" + lines.front()`, `/repo/source/json/h2_json.cpp:9`. -/
def quoteFirst : Lines → Lines
  | [] => []
  | l :: ls => (['"'] :: l) :: ls

/-- `lines.back() = lines.back() + "\""`, `/repo/source/json/h2_json.cpp:10`. -/
def quoteLast : Lines → Lines
  | [] => []
  | [l] => [l ++ [['"']]]
  | l :: l' :: ls => l :: quoteLast (l' :: ls)

/-- `h2_lines::width`, `/repo/source/utils/h2_line.cpp:148-154`. -/
def linesWidth (ls : Lines) : Nat := ls.foldl (fun w l => max w (lineWidth l)) 0

/-- The loop, `/repo/source/json/h2_json.cpp:13-16`: lines of equal width, a backslash at the end of all but the last. -/
def padLines (w : Nat) : Lines → Lines
  | [] => []
  | [l] => [padding l (w - lineWidth l + 3)]
  | l :: l' :: ls => (padding l (w - lineWidth l + 3) ++ [['\\']]) :: padLines w (l' :: ls)

/-- `h2_json::dump`, `/repo/source/json/h2_json.cpp:2-20`, of a text that is read as `x`; `quote` is the option. -/
def dump (num : Dbl → Str) (fold : Bool) (quote : Str) (x : Json) : Lines :=
  if blank quote then format num fold quote 0 false [] x
  else padLines (linesWidth (quoteLast (quoteFirst (format num fold quote 0 false [] x)))) (quoteLast (quoteFirst (format num fold quote 0 false [] x)))

/-- All lines but the first are indented, `/repo/source/report/h2_failure.cpp:186-189`. -/
def indentRest : Lines → Lines
  | [] => []
  | l :: ls => l :: ls.map fun l => H2.Layout.indent l 8

/-- `printl`, `/repo/source/stdio/h2_console.cpp:36-45`.  Simplification: colours are not shown. -/
def printed (ls : Lines) : Str := (ls.map fun l => (l.filter fun w => !isctrl w).flatten ++ ['\n']).flatten

/-- What is printed behind `expect> ` or `actual> `, `/repo/source/report/h2_failure.cpp:183-194`. -/
def source (num : Dbl → Str) (fold : Bool) (quote : Str) (x : Json) : Str := printed (indentRest (dump num fold quote x))

end H2.Json.Je
