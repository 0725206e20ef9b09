import Verif.SuiteFn.Model
/-
Specification: which cases a suite has, and what the run of one of them should execute.
-/
namespace H2.SuiteFn

/-- The cases an item declares, in the order of the text, with the values written for them. -/
def declares (k : Nat) : Item V → List (Id × List V)
  | .one => [(⟨k, 0, 0⟩, [])]
  | .cases xs => xs.zipIdx.map fun p => (⟨k, p.2, 0⟩, [p.1])
  | .casess xs ys => xs.zipIdx.flatMap fun p => ys.zipIdx.map fun q => (⟨k, p.2, q.2⟩, [p.1, q.1])
  | _ => []

/-- The cases of a suite whose first item has the number `k`. -/
def declaredFrom (k : Nat) : List (Item V) → List (Id × List V)
  | [] => []
  | it :: r => declares k it ++ declaredFrom (k + 1) r

/-- The cases of a suite. -/
def declared (all : List (Item V)) : List (Id × List V) := declaredFrom 0 all

/-- The statements outside the blocks. -/
def codes (l : List (Item V)) : List (Event V) :=
  l.filterMap fun it => match it with
    | .code n => some (.code n)
    | _ => none

/-- The statements outside the blocks and the `Setup` blocks. -/
def setups (l : List (Item V)) : List (Event V) :=
  l.filterMap fun it => match it with
    | .code n => some (.code n)
    | .setup n => some (.setup n)
    | _ => none

/-- The item is a `Cleanup` block. -/
def Item.isCleanup : Item V → Bool
  | .cleanup _ => true
  | _ => false

/-- The values of a case have the types of the first ones in their lists. -/
def SameType (conv : V → V → V) : Item V → Prop
  | .cases xs => ∀ a, xs.head? = some a → ∀ x ∈ xs, conv a x = x
  | .casess xs ys => (∀ a, xs.head? = some a → ∀ x ∈ xs, conv a x = x) ∧ (∀ a, ys.head? = some a → ∀ y ∈ ys, conv a y = y)
  | _ => True

end H2.SuiteFn
