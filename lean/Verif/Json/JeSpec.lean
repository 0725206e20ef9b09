import Verif.Json.Je
import Verif.Json.MatchSpec
import Verif.Json.SelectSpec
/-
Specification of what survives being written and read again.
-/
namespace H2.Json.Je
open H2.Json

/-- The number without its sign. -/
def size (q : Rat) : Rat := if q < 0 then -q else q

/-- Numbers that survive: whole ones that the machine knows exactly, and those the machine makes of a number with six decimals,
less than half a millionth away. -/
inductive Kept (m : Expr.Machine) : Rat → Prop
  | whole {q : Rat} (n : Nat) : size q = n → n < 2 ^ 63 → m.fl n = .fin n → Kept m q
  | decimals {q : Rat} (n : Nat) : (∀ k : Int, q ≠ k) → m.fl ((n : Rat) / 1000000) = .fin (size q) →
      size (size q - (n : Rat) / 1000000) < 1 / 2000000 → Kept m q

/-- Texts without quotation mark and backslash. -/
def Clean (s : Str) : Prop := '"' ∉ s ∧ '\\' ∉ s

/-- Values all of whose numbers are kept, whose texts are clean, and whose keys are not empty. -/
inductive Simple (m : Expr.Machine) : Json → Prop
  | null : Simple m .null
  | bool (b) : Simple m (.bool b)
  | num {q} : Kept m q → Simple m (.num (.fin q))
  | str {s} : Clean s → Simple m (.str s)
  | pat {p} : '/' ∉ p → Simple m (.pat p)
  | arr {l} : (∀ x ∈ l, Simple m x) → Simple m (.arr l)
  | obj {l : List (Str × Json)} : (∀ p ∈ l, p.1 ≠ [] ∧ Clean p.1) → (∀ p ∈ l, Simple m p.2) → Simple m (.obj l)

/-- The machine negates. -/
def Negates (m : Expr.Machine) : Prop := ∀ q, m.apply .negate [.fin q] = .fin (-q)

end H2.Json.Je
