import Verif.Layout.Spec
import Verif.FailTree.Model
import Verif.Message.Model
/-
What is said about mocks, as plain text.  `text` and `cells` are those of `Verif.Layout.Spec`: what is seen of a line.
-/
namespace H2.MockText.Spec

abbrev Text := List Char

/-- A number in decimal. -/
def dec (n : Int) : Text := (toString n).toList

/-- What a phrase says about the number of calls. -/
inductive Says : Text → (Int → Prop) → Prop
  | never : Says "never called".toList (fun c => c = 0)
  | any : Says "any number of times".toList (fun _ => True)
  | atMost (n : Int) : Says ("at most ".toList ++ dec n ++ " times".toList) (fun c => c ≤ n)
  | atLeast (n : Int) : Says ("at least ".toList ++ dec n ++ " times".toList) (fun c => n ≤ c)
  | exactly (n : Int) : Says ("exactly ".toList ++ dec n ++ " times".toList) (fun c => c = n)
  | between (m n : Int) : Says ("between ".toList ++ dec m ++ " and ".toList ++ dec n ++ " times".toList) (fun c => m ≤ c ∧ c ≤ n)

/-- A phrase for a number of calls. -/
def calls (n : Int) : Text := if n = 0 then "never".toList else dec n ++ " times".toList

/-- A position: the number and two letters. -/
def Position (n : Nat) (t : Text) : Prop := ∃ s ∈ ["st", "nd", "rd", "th"], t = dec n ++ s.toList

/-- A position as it is written in English. -/
def english (n : Nat) : Text :=
  dec n ++ (if n % 100 = 11 ∨ n % 100 = 12 ∨ n % 100 = 13 then "th" else if n % 10 = 1 then "st" else if n % 10 = 2 then "nd" else
    if n % 10 = 3 then "rd" else "th").toList

/-- ` when 2nd Once`: which of several expectations is meant, the `n`th, made by `name`; nothing if there is only one. -/
def Which (several : Prop) (n : Nat) (name out : Text) : Prop :=
  (several → ∃ p, Position n p ∧ out = " when ".toList ++ p ++ " ".toList ++ name) ∧ (¬ several → out = [])

/-- The names of types in parentheses. -/
def list (ts : List Text) : Text := "(".toList ++ List.intercalate ", ".toList ts ++ ")".toList

/-- Where something is. -/
def at_ : Option Text → Text
  | none => []
  | some p => " at ".toList ++ p

/-- The first line: which function is mocked, and where. -/
def title (ret fn : Text) (types : List Text) (place : Option Text) : Text :=
  " MOCK<".toList ++ ret ++ " ".toList ++ fn ++ list types ++ ">".toList ++ at_ place

/-- The line for the expectation with number `i` (from 0) of several or only one, that there are between `least` and `most` calls, after
`n` calls. -/
def Tells (several : Prop) (fn : Text) (i : Nat) (name : Text) (n least most : Int) (line : Text) : Prop :=
  ∃ phrase P w, Says phrase P ∧ (∀ c : Int, 0 ≤ c → c < 2 ^ 31 → (P c ↔ least ≤ c ∧ c ≤ most)) ∧ Which several (i + 1) name w ∧
    line = "   ".toList ++ dec i ++ ". ".toList ++ fn ++ "() expected ".toList ++ phrase ++ " but actually ".toList ++ calls n ++ " called".toList ++ w

/-- The characters of a line that are shown in a style. -/
def styled (style : Text) (l : H2.Layout.Line) : Text :=
  ((H2.Layout.cells l).filter fun x => x.1 = some style).map (·.2)

/-- The failures of a tree, each before those below it, with how far below. -/
def within (depth : Nat) : H2.FailTree.Chain H2.Message.Fail → List (H2.Message.Fail × Nat)
  | .null => []
  | .fail a below beside => (a, depth) :: (within (depth + 1) below ++ within depth beside)

/-- What the matchers say about the arguments, from the `j`th: each failure, how far below the mock it is, and, if it is the first one about
its argument, the argument's position. -/
def about : Nat → List (H2.FailTree.Chain H2.Message.Fail) → List (H2.Message.Fail × Nat × Option Nat)
  | _, [] => []
  | j, .null :: rs => about (j + 1) rs
  | j, .fail a below beside :: rs => (a, 1, some j) :: ((within 2 below ++ within 1 beside).map fun x => (x.1, x.2, none)) ++ about (j + 1) rs

/-- `f` is `g` with something added to what is explained: on which function with which arguments, and, of several expectations, on which;
and a number `n`. -/
def Added (several : Prop) (fn : Text) (types : List Text) (i : Nat) (name : Text) (n : Int) (g f : H2.Message.Fail) (more : H2.Layout.Line) : Prop :=
  f = { g with explain := g.explain ++ more, seqno := n } ∧
  ∃ w, Which several (i + 1) name w ∧ H2.Layout.text more = "on ".toList ++ fn ++ list types ++ w

end H2.MockText.Spec
