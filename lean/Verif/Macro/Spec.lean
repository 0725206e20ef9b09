import Verif.Macro.Table
/-
What is said about the macros: arguments, lists, and the text that is to come out.
-/
namespace H2.Macro

/-- Arguments with commas between them. -/
def commas (as : List (List Tok)) : List Tok := List.intercalate [.comma] as

/-- The call of a macro or of a function. -/
def call (s : String) (as : List (List Tok)) : List Tok := [.id s, .lp] ++ commas as ++ [.rp]

/-- The parentheses match (`d` are open), and commas stand outside of them only where that is allowed. -/
def fits (c : Bool) : Nat → List Tok → Bool
  | d, [] => d == 0
  | d, .lp :: r => fits c (d + 1) r
  | 0, .rp :: _ => false
  | d + 1, .rp :: r => fits c d r
  | 0, .comma :: r => c && fits c 0 r
  | d + 1, .comma :: r => fits c (d + 1) r
  | d, _ :: r => fits c d r

/-- A text that can be an argument, and in which nothing is to be replaced. -/
structure Fixed (T : String → Option Macro) (x : List Tok) : Prop where
  fits : fits false 0 x = true
  quiet : ∀ s, .id s ∈ x → T s = none

/-- Arguments, of which there are at most 63: no more than that can be counted. -/
structure Args63 (T : String → Option Macro) (as : List (List Tok)) : Prop where
  some : as ≠ []
  each : ∀ a ∈ as, Fixed T a
  few : as.length ≤ 63

/-- The number of arguments; `()` has none. -/
def number (as : List (List Tok)) : Nat := if as = [[]] then 0 else as.length

/-- `a` is `s` in parentheses. -/
def Enclosed (a s : List Tok) : Prop := fits true 0 s = true ∧ a = [.lp] ++ s ++ [.rp]

/-- `s` is `a` without the parentheses around it, if there are any. -/
def Bare (a s : List Tok) : Prop := Enclosed a s ∨ (∀ s', ¬ Enclosed a s') ∧ s = a

/-- The elements of a list: an element that is empty cannot be the last one. -/
structure List63 (T : String → Option Macro) (xs : List (List Tok)) : Prop where
  each : ∀ x ∈ xs, Fixed T x
  last : xs.getLast? ≠ some []
  few : xs.length ≤ 63

/-- Names kept for the library. -/
def reserved (s : String) : Bool :=
  "H2PP_".toList.isPrefixOf s.toList || "_H2PP_".toList.isPrefixOf s.toList || "__H2PP_".toList.isPrefixOf s.toList || s == "__" ||
    s ∈ ["H2Foreach", "_H2ForeachMacro", "H2Fullmesh", "_H2FullmeshMacro"]

/-- The other macros of the program do not have such names. -/
def Apart (user : String → Option Macro) : Prop := ∀ s, reserved s = true → user s = none

/-- Macros that are not being replaced while a callback is called. -/
def helpers : List String := ["H2PP_REMOVE_PARENTHESES", "_H2PP_REMOVE_PARENTHESES", "H2PP_RESCAN", "H2PP_PROXY", "_H2PP_PROXY"]

/-- None of these names is being replaced. -/
def Away (own : List String) (D : List String) : Prop := ∀ s ∈ own ++ helpers, s ∉ D

/-- A text that is replaced by another wherever it stands. -/
def Writes (user : String → Option Macro) (own : List String) (X Y : List Tok) : Prop :=
  ∀ out r ts, Away own (out ++ marks r) → Becomes (defs user) out r ts → Becomes (defs user) out (toks X ++ r) (Y ++ ts)

/-- A name that is not a macro without parentheses: that of a function, or of a macro that takes arguments. -/
def Callable (user : String → Option Macro) (f : String) : Prop := ∀ m, defs user f = some m → m.params ≠ none

end H2.Macro
