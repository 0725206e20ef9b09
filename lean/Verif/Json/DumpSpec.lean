import Verif.Json.Dump
import Verif.Json.JeSpec
/-
Specification of string literals of C and C++, as far as needed, and of the values that can be copied into a program.
-/
namespace H2.Json.Je
open H2.Json

/-- A backslash at the end of a line joins the line with the next one. -/
def splice : Str → Str
  | [] => []
  | [c] => [c]
  | c :: d :: s => if c = '\\' ∧ d = '\n' then splice s else c :: splice (d :: s)

/-- `Chars s t`: between quotation marks `s` means `t`.  (Escapes other than these are not needed.) -/
inductive Chars : Str → Str → Prop
  | nil : Chars [] []
  | plain {c s t} : c ≠ '"' → c ≠ '\\' → c ≠ '\n' → Chars s t → Chars (c :: s) (c :: t)
  | escape {c s t} : c = '"' ∨ c = '\'' ∨ c = '\\' → Chars s t → Chars ('\\' :: c :: s) (c :: t)

/-- `Literal s t`: the lines `s` are one string literal, with the value `t`, and white space behind. -/
def Literal (s t : Str) : Prop := ∃ b w, splice s = '"' :: b ++ '"' :: w ∧ Chars b t ∧ ∀ c ∈ w, c = ' ' ∨ c = '\n'

/-- Text without quotation marks, backslashes, new lines and the character `q`. -/
def Bare (q : Char) (s : Str) : Prop := ∀ c ∈ s, c ≠ q ∧ c ≠ '"' ∧ c ≠ '\\' ∧ c ≠ '\n'

/-- Values all of whose numbers are kept, whose texts are bare, and whose keys are not empty. -/
inductive Copyable (m : Expr.Machine) (q : Char) : Json → Prop
  | null : Copyable m q .null
  | bool (b) : Copyable m q (.bool b)
  | num {d} : Kept m d → Copyable m q (.num (.fin d))
  | str {s} : Bare q s → Copyable m q (.str s)
  | pat {p} : '/' ∉ p → Bare q p → Copyable m q (.pat p)
  | arr {l} : (∀ x ∈ l, Copyable m q x) → Copyable m q (.arr l)
  | obj {l : List (Str × Json)} : (∀ p ∈ l, p.1 ≠ [] ∧ Bare q p.1) → (∀ p ∈ l, Copyable m q p.2) → Copyable m q (.obj l)

end H2.Json.Je
