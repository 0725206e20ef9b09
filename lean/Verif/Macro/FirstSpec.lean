import Verif.Macro.Spec
import Verif.Macro.FirstOf
/-
The first of the values of a list, which can stand in parentheses, and its first element again.
-/
namespace H2.Macro

/-- `v` is the first value that is written in a list, inside of `n` pairs of parentheses: the first element when it does not stand in parentheses, and otherwise
the first value of the list in these parentheses.  For no values it is 0. -/
inductive FirstIn (T : String → Option Macro) : Nat → List (List Tok) → List Tok → Prop where
  | nothing : FirstIn T 0 [[]] [.num "0"]
  | value {x : List Tok} {xs : List (List Tok)} : x :: xs ≠ [[]] → Args63 T (x :: xs) → (∀ s, ¬ Enclosed x s) → FirstIn T 0 (x :: xs) x
  | inside {n : Nat} {x v : List Tok} {xs ys : List (List Tok)} : Args63 T (x :: xs) → ys ≠ [] → (∀ y ∈ ys, fits false 0 y = true) → Enclosed x (commas ys) → FirstIn T n ys v → FirstIn T (n + 1) (x :: xs) v

/-- The program does not define macros with these names. -/
def Kept (user : String → Option Macro) : Prop := user "_H2_An1_" = none ∧ user "_H2_An2_" = none

end H2.Macro
