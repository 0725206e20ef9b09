import Verif.Layout.Spec
import Verif.Stringify.Model
/-
How values look in a failure, as plain text, and which values can be told from each other.  `text` is that of `Verif.Layout.Spec`.
-/
namespace H2.Stringify

abbrev Text := List Char

/-- `t` shows the number of so many millionths: an integer, and the decimals up to the last that is not zero. -/
def Shows (t : Text) (neg : Bool) (millionths : Nat) : Prop :=
  ∃ (whole : Nat) (ds : List Nat),
    t = (if neg then ['-'] else []) ++ Nat.toDigits 10 whole ++ (if ds = [] then [] else '.' :: ds.map Nat.digitChar) ∧
    ds.length ≤ 6 ∧ (∀ d ∈ ds, d < 10) ∧ ds.getLast? ≠ some 0 ∧
    millionths = whole * 10 ^ 6 + ds.foldl (fun n d => 10 * n + d) 0 * 10 ^ (6 - ds.length)

mutual
/-- `t` is how the value looks. -/
inductive Looks : Val → Text → Prop
  | int (n : Int) : Looks (.int n) (toString n).toList
  | float {neg m t} : Shows t neg m → Looks (.float neg m) t
  | special (w : Text) : Looks (.special w) w
  | yes : Looks (.bool true) "true".toList
  | no : Looks (.bool false) "false".toList
  | char (c : Char) : Looks (.char c) ['\'', c, '\'']
  | str (t : Text) : Looks (.str t) ('"' :: t ++ ['"'])
  | wstr (t : Text) : Looks (.wstr t) ('"' :: t ++ ['"'])
  | nullStr : Looks .nullStr "(null)".toList
  | nullPtr : Looks .nullPtr "nullptr".toList
  | unknown : Looks .unknown "?".toList
  | pair {a b s t} : Looks a s → Looks b t → Looks (.pair a b) ('(' :: s ++ ", ".toList ++ t ++ [')'])
  | tuple {vs ts} : AllLook vs ts → Looks (.tuple vs) ('(' :: List.intercalate ", ".toList ts ++ [')'])
  | list {vs ts} : AllLook vs ts → Looks (.list vs) ('[' :: List.intercalate ", ".toList ts ++ [']'])
/-- The texts are how the values look, one by one. -/
inductive AllLook : List Val → List Text → Prop
  | nil : AllLook [] []
  | cons {v t vs ts} : Looks v t → AllLook vs ts → AllLook (v :: vs) (t :: ts)
end

/-- Types of values. -/
inductive Ty where
  | int | float | bool | char | str | wstr
  | pair (a b : Ty)
  | tuple (ts : List Ty)
  | list (t : Ty)

/-- A character of a text that stands for itself: not the quotation mark, the escape character or the character 0. -/
def Plain (c : Char) : Prop := c ≠ '"' ∧ c ≠ '\x1b' ∧ c ≠ '\x00'

mutual
/-- The value has the type, and is printed whole: no container in it has more than a hundred elements, and no text other than plain
characters, which are no wider than a byte in wide texts. -/
inductive Whole : Ty → Val → Prop
  | int (n : Int) : Whole .int (.int n)
  | float (neg : Bool) (m : Nat) : Whole .float (.float neg m)
  | bool (b : Bool) : Whole .bool (.bool b)
  | char {c : Char} : c ≠ '\x1b' → Whole .char (.char c)
  | str {t : Text} : (∀ c ∈ t, Plain c) → Whole .str (.str t)
  | nullStr : Whole .str .nullStr
  | wstr {t : Text} : (∀ c ∈ t, Plain c ∧ c.toNat < 256) → Whole .wstr (.wstr t)
  | nullWstr : Whole .wstr .nullStr
  | pair {α β a b} : Whole α a → Whole β b → Whole (.pair α β) (.pair a b)
  | tuple {τs vs} : WholeEach τs vs → Whole (.tuple τs) (.tuple vs)
  | list {τ vs} : WholeAll τ vs → vs.length ≤ 100 → Whole (.list τ) (.list vs)
inductive WholeEach : List Ty → List Val → Prop
  | nil : WholeEach [] []
  | cons {τ v τs vs} : Whole τ v → WholeEach τs vs → WholeEach (τ :: τs) (v :: vs)
inductive WholeAll : Ty → List Val → Prop
  | nil {τ} : WholeAll τ []
  | cons {τ v vs} : Whole τ v → WholeAll τ vs → WholeAll τ (v :: vs)
end

mutual
/-- No container in the value has more than a hundred elements, no text has the escape character or the character 0, and wide texts
have no character wider than a byte. -/
def Fits : Val → Prop
  | .special w => w ∈ ["inf".toList, "-inf".toList, "nan".toList, "-nan".toList]
  | .char c => c ≠ '\x1b'
  | .str t => '\x1b' ∉ t ∧ '\x00' ∉ t
  | .wstr t => '\x1b' ∉ t ∧ '\x00' ∉ t ∧ ∀ c ∈ t, c.toNat < 256
  | .pair a b => Fits a ∧ Fits b
  | .tuple vs => AllFit vs
  | .list vs => vs.length ≤ 100 ∧ AllFit vs
  | _ => True
def AllFit : List Val → Prop
  | [] => True
  | v :: vs => Fits v ∧ AllFit vs
end

end H2.Stringify
