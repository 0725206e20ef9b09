import Verif.Abbrev.Model
import Verif.Str.Model
/-
Model of the line about a failed assertion: `h2_fail_normal`, `h2_fail_unexpect`, and the head of `h2_fail_json`
(`/repo/source/report/h2_failure.cpp:17-131,176-190`), with what `h2_assert::failing` (`/repo/source/assert/h2_assert.cpp:55-68`) and the
destructor of `h2_cout` (`/repo/source/stdio/h2_stdio.cpp:156-169`) set.

Lines are lists of words, as in `Verif.Layout.Model`; words that set styles are kept.
-/
namespace H2.Message
open H2.Layout (Word Line isctrl charWidth wordWidth lineWidth spaces indent brush)
open H2.Abbrev (escape abbreviate grayQuote dim)

/-- `VerboseDetail`, `/repo/source/option/h2_option.hpp:2`. -/
abbrev detail : Int := 5

/-- The fields of `h2_fail` and `h2_fail_unexpect`, `/repo/source/report/h2_failure.hpp:1-20`, `/repo/source/report/h2_failure.cpp:64-66`.
`filine` is the base of the place, `none` if it is blank. -/
structure Fail where
  type : String := "In"
  op : Word := [',']
  eExpr : Word := []
  aExpr : Word := []
  expection : Line := []
  represent : Line := []
  explain : Line := []
  user : Word := []
  seqno : Int := -1
  filine : Option Word := none

/-- `gray`, `/repo/source/utils/h2_line.hpp:36`. -/
def gray (w : Word) : Line := if w.isEmpty then [] else dim w

/-- `comma_if`, `/repo/source/utils/h2_misc.hpp:14`. -/
def commaIf (a : Bool) (t f : Word) : Word := if a then t else f

/-- `h2_line::string`, `/repo/source/utils/h2_line.cpp:125-132`. -/
def string (l : Line) : Word := (l.filter fun w => !isctrl w).flatten

/-- `locate`, `/repo/source/report/h2_failure.cpp:17-21`. -/
def locate (f : Fail) : Line :=
  match f.filine with
  | none => []
  | some p => gray " at ".toList ++ [p]

/-- `%d` -/
def decimal (n : Int) : Word := (toString n).toList

/-- `line.printf("dark gray", "%d. ", seqno)` -/
def number (n : Int) : Line := ["\x1b{dark gray}".toList, decimal n ++ ". ".toList, "\x1b{reset}".toList]

/-- `h2_fail_normal::print`, `/repo/source/report/h2_failure.cpp:32-39`. -/
def printNormal (f : Fail) (ci : Nat) : Line :=
  indent [] (ci * 2 + 1) ++ (if 0 ≤ f.seqno then number f.seqno else []) ++ f.explain ++ locate f

/-- `enclosed(left, right)`, `/repo/source/utils/h2_string.cpp:63-67`, of a text. -/
def enclosed (s : Word) (left right : Char) : Bool := s.head? == some left && s.getLast? == some right

/-- `unenclose`, `/repo/source/utils/h2_string.cpp:69-73`; `none` where the length, less two, is below zero and the constructor of the
string throws. -/
def unenclose (s : Word) (left right : Char) : Option Word :=
  if enclosed s left right then (if s.length < 2 then none else some (s.drop 1).dropLast) else some s

/-- One of the lists of `is_synonym`, `/repo/source/report/h2_failure.cpp:42-61`. -/
def nulls : List String := ["NULL", "nullptr", "null", "__null", "(null)", "(nil)", "((void *)0)", "0", "0x0", "00000000", "0000000000000000"]
/-- One of the lists of `is_synonym`, `/repo/source/report/h2_failure.cpp:42-61`. -/
def notNulls : List String := ["!NULL", "!nullptr", "Not(NULL)", "Not(nullptr)", "Nq(NULL)", "Nq(nullptr)", "Not(0)", "Nq(0)"]
/-- One of the lists of `is_synonym`, `/repo/source/report/h2_failure.cpp:42-61`. -/
def trues : List String := ["true", "TRUE", "True", "1"]
/-- One of the lists of `is_synonym`, `/repo/source/report/h2_failure.cpp:42-61`. -/
def falses : List String := ["false", "FALSE", "False", "0"]

/-- `h2_in`, `/repo/source/utils/h2_misc.cpp:137-145`. -/
def isIn (a : Word) (l : List String) : Bool := l.any fun x => x.toList == a

/-- `_a == "ListOf(" + _b.unenclose('[', ']') + ")"` -/
def isListOf (a b : Word) : Bool :=
  match unenclose b '[' ']' with
  | some c => a == "ListOf(".toList ++ c ++ ")".toList
  | none => false

/-- `is_synonym`, `/repo/source/report/h2_failure.cpp:42-61`. -/
def isSynonym (a b : Word) : Bool :=
  let a := escape a
  let b := escape b
  a == b || (isIn a nulls && isIn b nulls) || (isIn a notNulls && isIn b notNulls) || (isIn a trues && isIn b trues) || (isIn a falses && isIn b falses) ||
  a == "Eq(".toList ++ b ++ ")".toList || isListOf a b

/-- `print_OK1`, `/repo/source/report/h2_failure.cpp:67-73`. -/
def printOK1 (type : Word) (f : Fail) : Line :=
  [type] ++ gray "(".toList ++ brush (grayQuote [f.aExpr]) "cyan".toList ++ gray ")".toList ++
  (if !isSynonym f.aExpr (string f.represent) then [" is ".toList] ++ brush (abbreviate f.represent 10000 3) "bold,red".toList else [])

/-- `O.verbose >= VerboseDetail ? 10000 : n` -/
def limit (verbose : Int) (n : Nat) : Nat := if verbose ≥ detail then 10000 else n

/-- `e` of `print_OK2`, `/repo/source/report/h2_failure.cpp:79-87`. -/
def expectPart (verbose : Int) (f : Fail) : Line :=
  if lineWidth f.expection = 0 then brush (grayQuote (abbreviate [f.eExpr] 10000 3)) "green".toList
  else if isSynonym f.eExpr (string f.expection) then brush (abbreviate [f.eExpr] 10000 3) "green".toList
  else brush (grayQuote (abbreviate [f.eExpr] (limit verbose 120) 3)) "cyan".toList ++ gray "⟹  ".toList ++ brush (abbreviate f.expection 10000 3) "green".toList

/-- `a` of `print_OK2`, `/repo/source/report/h2_failure.cpp:89-95`. -/
def actualPart (verbose : Int) (f : Fail) : Line :=
  if lineWidth f.represent = 0 then brush (grayQuote (abbreviate [f.aExpr] 10000 3)) "bold,red".toList
  else if isSynonym f.aExpr (string f.represent) || f.aExpr.isEmpty then brush (abbreviate f.represent 10000 3) "bold,red".toList
  else brush (abbreviate f.represent 10000 3) "bold,red".toList ++ gray "⟸  ".toList ++ brush (grayQuote (abbreviate [f.aExpr] (limit verbose 120) 3)) "cyan".toList

/-- `print_OK2`, `/repo/source/report/h2_failure.cpp:74-98`. -/
def printOK2 (verbose : Int) (type : Word) (f : Fail) : Line :=
  [type] ++ gray "(".toList ++ expectPart verbose f ++ [" ".toList] ++ [f.op] ++ [" ".toList] ++ actualPart verbose f ++ gray ")".toList

/-- `unenclose('\"').unenclose('\'')` -/
def unquote (s : Word) : Option Word :=
  match unenclose s '"' '"' with
  | none => none
  | some t => unenclose t '\'' '\''

/-- `print_JE`, `/repo/source/report/h2_failure.cpp:99-104`. -/
def printJE (verbose : Int) (f : Fail) : Option Line :=
  match unquote f.eExpr, unquote f.aExpr with
  | some e, some a =>
    some (["JE".toList] ++ gray "(".toList ++ brush (abbreviate [e] (limit verbose 30) 2) "cyan".toList ++ [", ".toList] ++
      brush (abbreviate [a] (limit verbose 30) 2) "bold,red".toList ++ gray ")".toList)
  | _, _ => none

/-- `print_In`, `/repo/source/report/h2_failure.cpp:105-116`: what is added to the line and the new value of `c`. -/
def printIn (verbose : Int) (f : Fail) (c : Nat) : Line × Nat :=
  let seq := if 0 ≤ f.seqno then number f.seqno else []
  let (e, c) := if lineWidth f.expection ≠ 0 then
      ([commaIf (c ≠ 0) ", ".toList [] ++ "expect is ".toList] ++ brush (abbreviate f.expection (limit verbose 120) 3) "green".toList, c + 1)
    else ([], c)
  let (a, c) := if lineWidth f.represent ≠ 0 then
      ([commaIf (c ≠ 0) ", ".toList [] ++ "actual is ".toList] ++ brush (abbreviate f.represent (limit verbose 120) 3) "bold,red".toList, c + 1)
    else ([], c)
  (seq ++ e ++ a, c)

/-- `/repo/source/report/h2_failure.cpp:126-127`: the explanations. -/
def explanations (f : Fail) (c : Nat) : Line × Nat :=
  let (x, c) := if lineWidth f.explain ≠ 0 then ([commaIf (c ≠ 0) ", ".toList " ".toList] ++ f.explain, c + 1) else ([], c)
  let (u, c) := if f.user ≠ [] then ([commaIf (c ≠ 0) ", ".toList " ".toList, f.user], c + 1) else ([], c)
  (x ++ u, c)

/-- `h2_fail_unexpect::print`, `/repo/source/report/h2_failure.cpp:118-129`: the line printed and the new value of the field `c`; `none`
where the program ends with an exception. -/
def printUnexpect (verbose : Int) (f : Fail) (c : Nat) (ci : Nat) : Option (Line × Nat) :=
  let body : Option (Line × Nat) :=
    if f.type = "In" then some (printIn verbose f c)
    else if f.type = "OK1" then some (printOK1 "OK".toList f, c)
    else if f.type = "KO1" then some (printOK1 "KO".toList f, c)
    else if f.type = "OK2" then some (printOK2 verbose "OK".toList f, c)
    else if f.type = "KO2" then some (printOK2 verbose "KO".toList f, c)
    else if f.type = "JE" then (printJE verbose f).map fun l => (l, c)
    else some ([], c)
  body.map fun (l, c) =>
    let (x, c) := explanations f c
    (indent [] (ci * 2 + 1) ++ l ++ x ++ locate f, c)

/-- What a test program prints for a failure, beside the lines it writes itself: the line, and whether more follows. -/
structure Output where
  line : Line
  more : Bool

/-- `h2_fail_json::print`, `/repo/source/report/h2_failure.cpp:176-190`, up to the comparison of the two documents (`more`);
`eValue`, `aValue` are the documents. -/
def printJson (verbose : Int) (f : Fail) (eValue aValue : Word) (ci : Nat) : Option Output :=
  let f := { f with eExpr := H2.Str.squash f.eExpr true, aExpr := H2.Str.squash f.aExpr true }
  (printUnexpect verbose f 0 ci).map fun (l, _) => { line := l, more := !(wordWidth eValue < 16 || wordWidth aValue < 16) }

/-- What the destructor of `h2_cout` sets, `/repo/source/stdio/h2_stdio.cpp:161-166`. -/
def cout (f : Fail) (e place : Word) : Fail := { f with filine := some place, type := "OK", eExpr := e, aExpr := [], explain := ["COUT".toList] }

end H2.Message
