/-
Specification of edit distance and common subsequences, independent of any table.
-/
namespace H2.Diff

/-- One edit: insert, delete or substitute a single character anywhere. -/
inductive Edit : List Char → List Char → Prop
  | ins (a b : List Char) (x : Char) : Edit (a ++ b) (a ++ x :: b)
  | del (a b : List Char) (x : Char) : Edit (a ++ x :: b) (a ++ b)
  | sub (a b : List Char) (x y : Char) : Edit (a ++ x :: b) (a ++ y :: b)

/-- `n` edits in a row. -/
inductive Edits : Nat → List Char → List Char → Prop
  | done (s : List Char) : Edits 0 s s
  | more {n : Nat} {s t u : List Char} : Edits n s t → Edit t u → Edits (n + 1) s u

/-- `n` is the least number of edits from `s` to `t`. -/
def IsDistance (s t : List Char) (n : Nat) : Prop := Edits n s t ∧ ∀ m, Edits m s t → n ≤ m

/-- What a caseless comparison looks at. -/
def folded (caseless : Bool) (s : List Char) : List Char := if caseless then s.map Char.toLower else s

/-- The elements of `s` at the positions marked. -/
def marked {α : Type} (l : List Bool) (s : List α) : List α := ((l.zip s).filter (·.1)).map (·.2)

/-- Two sequences of the same length, equal position by position. -/
inductive Same {α : Type} (eq : α → α → Bool) : List α → List α → Prop
  | nil : Same eq [] []
  | cons {x y : α} {u v : List α} : eq x y = true → Same eq u v → Same eq (x :: u) (y :: v)

end H2.Diff
