/-
The operands of a comparison, as they are written.
-/
namespace H2.Split

/-- Space, tab, newline, vertical tab, form feed, carriage return. -/
def blanks : List Char := [' ', '\t', '\n', Char.ofNat 11, Char.ofNat 12, '\r']

/-- The operators of `OK(left op right)`. -/
def operators : List (List Char) := ["==".toList, "!=".toList, ">=".toList, "<=".toList, ">".toList, "<".toList]

/-- `e` and `a` are the texts left and right of the operator without the blanks around it. -/
def Trimmed (left right e a : List Char) : Prop :=
  (∃ b, left = e ++ b ∧ ∀ c ∈ b, c ∈ blanks) ∧ (∀ c, e.getLast? = some c → c ∉ blanks) ∧
  (∃ b, right = b ++ a ∧ ∀ c ∈ b, c ∈ blanks) ∧ (∀ c, a.head? = some c → c ∉ blanks)

/-- A text that is followed by the operator `op` and does not contain it before, except in string literals. -/
inductive Clear (op : List Char) : List Char → Prop where
  | nothing : Clear op []
  | plain {c r} : c ≠ '"' → ¬ op <+: (c :: r ++ op) → Clear op r → Clear op (c :: r)
  | literal {s r} : '"' ∉ s → Clear op r → Clear op ('"' :: (s ++ '"' :: r))

/-- A text in which angle brackets outside of string literals belong together in pairs. -/
inductive Balanced : List Char → Prop where
  | nothing : Balanced []
  | plain {c r} : c ≠ '"' → c ≠ '<' → c ≠ '>' → Balanced r → Balanced (c :: r)
  | literal {s r} : '"' ∉ s → Balanced r → Balanced ('"' :: (s ++ '"' :: r))
  | angled {b r} : Balanced b → Balanced r → Balanced ('<' :: (b ++ '>' :: r))

/-- A text that does not contain `op` outside of string literals. -/
inductive Without (op : List Char) : List Char → Prop where
  | nothing : Without op []
  | plain {c r} : c ≠ '"' → ¬ op <+: (c :: r) → Without op r → Without op (c :: r)
  | literal {s r} : '"' ∉ s → Without op r → Without op ('"' :: (s ++ '"' :: r))

end H2.Split
