import Verif.FailTree.Model
/-
What a failure report is, independently of how it is linked together: a failure with the failures that explain
it, in order.
-/
namespace H2.FailTree

/-- A failure with the failures that explain it. -/
inductive Report (α : Type) where
  | mk (says : α) (because : List (Report α))

variable {α : Type}

/-- The chain holds exactly these reports, in this order. -/
inductive Holds : Chain α → List (Report α) → Prop where
  | nothing : Holds .null []
  | more {a c s because rest} : Holds c because → Holds s rest → Holds (.fail a c s) (.mk a because :: rest)

/-- What a report is to look like: every failure with its depth, the failures that explain it directly below it. -/
inductive Outline : Nat → List (Report α) → List (α × Nat) → Prop where
  | nothing {d} : Outline d [] []
  | more {d a because rest inner outer} : Outline (d + 1) because inner → Outline d rest outer →
      Outline d (.mk a because :: rest) ((a, d) :: (inner ++ outer))

/-- All failures of reports, in some order. -/
inductive Members : List (Report α) → List α → Prop where
  | nothing : Members [] []
  | more {a because rest xs ys zs} : Members because xs → Members rest ys → List.Perm zs (a :: (xs ++ ys)) →
      Members (.mk a because :: rest) zs

/-- A failure that is a warning says so itself; those that explain it do not matter. -/
def Report.says : Report α → α
  | .mk a _ => a

end H2.FailTree
