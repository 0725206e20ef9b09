import Verif.Json.Select
import Verif.Json.LexSpec
import Verif.Json.MatchSpec
/-
Specification of JSON selectors: what a selector says, and where it leads.
-/
namespace H2.Json

/-- One step of a path. -/
inductive Step where
  | key (k : Str)
  | index (i : Int)

/-- The value of digits. -/
def decimal : Str → Nat → Nat
  | [], n => n
  | c :: s, n => decimal s (10 * n + "0123456789".toList.idxOf c)

def IsDigits (s : Str) : Prop := ∀ c ∈ s, c ∈ "0123456789".toList

/-- What text of digits and minus signs says as a number: a sign, digits, and anything that does not continue the digits. -/
inductive Number : Str → Int → Prop
  | plain {ds r} : IsDigits ds → (∀ c ∈ r.head?, c = '-') → (ds = [] → r = []) → Number (ds ++ r) (decimal ds 0)
  | minus {ds r} : IsDigits ds → (∀ c ∈ r.head?, c = '-') → Number ('-' :: ds ++ r) (-(decimal ds 0 : Int))

/-- What stands between brackets: an index, a key with quotes, or a key without.  (White space around it has been left
away.)  An empty key is no step. -/
inductive Bracketed : Str → List Step → Prop
  | nothing : Bracketed [] []
  | index {t i} : t ≠ [] → (∀ c ∈ t, c = '-' ∨ c ∈ "0123456789".toList) → Number t i → Bracketed t [.index i]
  | quoted {q k} : q = '"' ∨ q = '\'' → k ≠ [] → Bracketed (q :: k ++ [q]) [.key k]
  | noKey {q t} : q = '"' ∨ q = '\'' → t = [q] ∨ t = [q, q] → Bracketed t []
  | bare {t} : t ≠ [] → (∃ c ∈ t, c ≠ '-' ∧ c ∉ "0123456789".toList) →
      (∀ q, q = '"' ∨ q = '\'' → ¬ (t.head? = some q ∧ t.getLast? = some q)) → Bracketed t [.key t]

/-- What stands behind a dot. -/
inductive Dotted : Str → List Step → Prop
  | nothing : Dotted [] []
  | key {t} : t ≠ [] → Dotted t [.key t]

/-- `Says s path`: the selector `s` says `path`. -/
inductive Says : Str → List Step → Prop
  | nil : Says [] []
  /-- text before the first part or behind a bracket is passed over -/
  | skip {c s p} : c ≠ '.' → c ≠ '[' → Says s p → Says (c :: s) p
  | dot {t k s p q} : '.' ∉ t → '[' ∉ t → (∀ c ∈ s.head?, c = '.' ∨ c = '[') → Stripped t k → Dotted k q → Says s p →
      Says ('.' :: t ++ s) (q ++ p)
  | bracket {t k s p q} : ']' ∉ t → Stripped t k → Bracketed k q → Says s p → Says ('[' :: t ++ ']' :: s) (q ++ p)
  /-- a bracket that is not closed is passed over -/
  | openBracket {t} : ']' ∉ t → Says ('[' :: t) []

/-- The members of an object, the elements of an array. -/
inductive HasChildren : Json → List (Option Str × Json) → Prop
  | arr (l) : HasChildren (.arr l) (l.map fun x => (none, x))
  | obj (l) : HasChildren (.obj l) (l.map fun m => (some m.1, m.2))

/-- One step from a value to one of its children. -/
inductive Child (caseless : Bool) : Json → Step → Json → Prop
  /-- the first member with the key -/
  | key {l₁ k' x l₂ k} : SameText caseless k' k → (∀ m ∈ l₁, ¬ SameText caseless m.1 k) →
      Child caseless (.obj (l₁ ++ (k', x) :: l₂)) (.key k) x
  /-- the i-th, from zero -/
  | index {j l₁ k x l₂} : HasChildren j (l₁ ++ (k, x) :: l₂) → Child caseless j (.index l₁.length) x
  /-- the i-th from the end -/
  | fromEnd {j l₁ k x l₂} : HasChildren j (l₁ ++ (k, x) :: l₂) → Child caseless j (.index (-(l₂.length + 1 : Int))) x

/-- Many steps. -/
inductive Leads (caseless : Bool) : Json → List Step → Json → Prop
  | here {j} : Leads caseless j [] j
  | step {j c x p y} : Child caseless j c x → Leads caseless x p y → Leads caseless j (c :: p) y

end H2.Json
