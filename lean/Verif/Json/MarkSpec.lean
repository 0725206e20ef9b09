import Verif.Json.DualSpec
import Verif.Json.MatchSpec
/-
Specification of the colours in the comparison of two JSON trees.
-/
namespace H2.Json.Dual
open H2.Json

/-- The word that begins a colour. -/
def inColour (name : Str) : Str := '\x1b' :: '{' :: name ++ ['}']

/-- The colours of the left side, where what is expected stands. -/
def leftColours : List Str := ["green".toList, "light blue".toList]
/-- The colours of the right side, where what is there stands: of what differs, of what is not expected. -/
def differs : Str := "red,bold".toList
def unexpected : Str := "light purple".toList
def rightColours : List Str := [differs, unexpected]

/-- Some word that is seen is written in one of the colours. -/
def Marked (colours : List Str) (ls : List (List Str)) : Prop :=
  ∃ line ∈ ls, ∃ c ∈ colours, ∃ w, ¬ White w ∧ ¬ Colour w ∧ [inColour c, w, "\x1b{reset}".toList] <:+: line

/-- None of the colours is used. -/
def Plain (colours : List Str) (ls : List (List Str)) : Prop := ∀ line ∈ ls, ∀ c ∈ colours, inColour c ∉ line

/-- Nothing is missing inside the tree, no array or object is empty, no key is empty. -/
inductive Solid : Json → Prop
  | null : Solid .null
  | bool (b) : Solid (.bool b)
  | num (d) : Solid (.num d)
  | str (s) : Solid (.str s)
  | pat (s) : Solid (.pat s)
  | arr (l) : l ≠ [] → (∀ v ∈ l, Solid v) → Solid (.arr l)
  | obj (l : List (Str × Json)) : l ≠ [] → (∀ m ∈ l, m.1 ≠ []) → (∀ m ∈ l, Solid m.2) → Solid (.obj l)

end H2.Json.Dual
