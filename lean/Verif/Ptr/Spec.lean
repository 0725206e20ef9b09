import Verif.Ptr.Model
/-
What comparing texts, pointers and integers should decide.
-/
namespace H2.Ptr
open H2.Typed (ITy)

/-- The value stands for this text: a `std::string`, or a `char*` that is not null. -/
def Text : Val → List Char → Prop
  | .chars p t, x => p ≠ 0 ∧ x = t
  | .str s, x => x = s
  | _, _ => False

/-- The value is `nullptr`, a `char*` or another raw pointer, with this address. -/
def Raw : Val → Nat → Prop
  | .nil, n => n = 0
  | .chars p _, n => n = p
  | .ptr _ p, n => n = p
  | _, _ => False

/-- The value is a raw or a shared pointer with this address. -/
def Pointer : Val → Nat → Prop
  | .smart _ p, n => n = p
  | v, n => Raw v n

/-- The value is of no type of texts: not a `char*`, not a `std::string`. -/
def NoText : Val → Prop
  | .chars _ _ | .str _ => False
  | _ => True

/-- One text stands before another in a dictionary. -/
def Before (x y : List Char) : Prop :=
  ∃ same, (x = same ∧ ∃ d t, y = same ++ d :: t) ∨
    ∃ c s d t, x = same ++ c :: s ∧ y = same ++ d :: t ∧ c.val < d.val

/-- The pairs of types that `OK(e, a)` takes. -/
def Takes : Val → Val → Prop
  | .nil, _ => True
  | .int _ _, a => ∀ s, a ≠ .str s
  | .chars _ _, a => ∀ k p, a ≠ .smart k p
  | .str _, a => a = .nil ∨ (∃ p t, a = .chars p t) ∨ ∃ s, a = .str s
  | .ptr _ _, a => (∃ n, Raw a n) ∨ ∃ t z, a = .int t z
  | .smart k _, a => a = .nil ∨ ∃ p, a = .smart k p

end H2.Ptr
