import Verif.Abbrev.Spec
import Verif.Message.Model
/-
What a user reads about a failed assertion.  `text` and `room` are those of `Verif.Layout.Spec`: what is seen of a line, and the
columns a text takes; `shown` and `Shortened` are those of `Verif.Abbrev.Spec`.
-/
namespace H2.Message
open H2.Layout (text room)
open H2.Abbrev (shown Shortened)

abbrev Text := List Char

/-- A text is shown in at most `w` columns: completely if it fits. -/
def ShownIn (w tail : Nat) (t out : Text) : Prop :=
  (room (shown t) ≤ w → out = shown t) ∧ (w < room (shown t) → ∃ marked, Shortened (shown t) w tail marked out)

/-- Literals that have the same value. -/
inductive Meaning where
  | null | notNull | yes | no
deriving DecidableEq

/-- The ways to write a value. -/
def spellings : Meaning → List String
  | .null => ["NULL", "nullptr", "null", "__null", "(null)", "(nil)", "((void *)0)", "0", "0x0", "00000000", "0000000000000000"]
  | .notNull => ["!NULL", "!nullptr", "Not(NULL)", "Not(nullptr)", "Nq(NULL)", "Nq(nullptr)", "Not(0)", "Nq(0)"]
  | .yes => ["true", "TRUE", "True", "1"]
  | .no => ["false", "FALSE", "False", "0"]

/-- An expression says what its value is: it is written like it, is another way to write it, or is a matcher for it. -/
def Obvious (expr value : Text) : Prop :=
  shown expr = shown value ∨ (∃ m, ∃ a ∈ spellings m, ∃ b ∈ spellings m, shown expr = a.toList ∧ shown value = b.toList) ∨
  shown expr = "Eq(".toList ++ shown value ++ ")".toList ∨
  shown expr = "ListOf(".toList ++ shown value ++ ")".toList ∧ ¬ (∃ l, shown value = '[' :: l ++ [']']) ∨
  ∃ l, shown value = '[' :: l ++ [']'] ∧ shown expr = "ListOf(".toList ++ l ++ ")".toList

/-- The columns an expression beside its value may take. -/
def exprRoom (verbose : Int) : Nat := if 5 ≤ verbose then 10000 else 120

/-- What is told of the expected operand: the expression, and the value unless there is none or it is obvious. -/
def TellsExpected (verbose : Int) (expr value out : Text) : Prop :=
  (value = [] ∨ Obvious expr value → ShownIn 10000 3 expr out) ∧
  (¬ (value = [] ∨ Obvious expr value) → ∃ a b, out = a ++ "⟹  ".toList ++ b ∧ ShownIn (exprRoom verbose) 3 expr a ∧ ShownIn 10000 3 value b)

/-- What is told of the actual operand: the value, and the expression unless it is empty or says no more. -/
def TellsActual (verbose : Int) (expr value out : Text) : Prop :=
  (value = [] → ShownIn 10000 3 expr out) ∧
  (value ≠ [] → Obvious expr value ∨ expr = [] → ShownIn 10000 3 value out) ∧
  (value ≠ [] → ¬ (Obvious expr value ∨ expr = []) → ∃ a b, out = a ++ "⟸  ".toList ++ b ∧ ShownIn 10000 3 value a ∧ ShownIn (exprRoom verbose) 3 expr b)

/-- What follows the assertion: the explanation, the message of the user and the place; `begun` tells whether there is something
before that a comma must separate. -/
def ending (begun : Bool) (explain user : Text) (place : Option Text) : Text :=
  (if explain = [] then [] else (if begun then ", ".toList else " ".toList) ++ explain) ++
  (if user = [] then [] else (if begun || !explain.isEmpty then ", ".toList else " ".toList) ++ user) ++
  (match place with
   | none => []
   | some p => " at ".toList ++ p)

/-- What is not shown by itself: no escape characters in what a failure is about, and no texts of 2^64 columns. -/
structure Ordinary (f : Fail) : Prop where
  eExpr : '\x1b' ∉ f.eExpr
  aExpr : '\x1b' ∉ f.aExpr
  op : '\x1b' ∉ f.op
  user : '\x1b' ∉ f.user
  place : ∀ p, f.filine = some p → '\x1b' ∉ p
  expection : '\x1b' ∉ text f.expection
  represent : '\x1b' ∉ text f.represent
  lengths : room (shown f.eExpr) < 2 ^ 64 ∧ room (shown f.aExpr) < 2 ^ 64 ∧ room (shown (text f.expection)) < 2 ^ 64 ∧ room (shown (text f.represent)) < 2 ^ 64

/-- `t` is `s` without a pair of these marks around it; a mark alone is not an expression. -/
def Without (q : Char) (s t : Text) : Prop := s = q :: t ++ [q] ∨ (s = t ∧ s ≠ [q] ∧ ¬ ∃ m, s = q :: m ++ [q])

/-- `t` is `s` without the quotation marks of a string or of a character around it. -/
def Unquoted (s t : Text) : Prop := ∃ m, Without '"' s m ∧ Without '\'' m t

/-- The columns an expression of `JE` may take. -/
def jsonRoom (verbose : Int) : Nat := if 5 ≤ verbose then 10000 else 30

end H2.Message
