import Verif.Json.Node
/-
Specification of the comparison of two JSON trees.
-/
namespace H2.Json

/-- Equal texts, in upper or lower case if `caseless`. -/
def SameText (caseless : Bool) (s t : Str) : Prop :=
  s = t ∨ caseless = true ∧ s.map Char.toLower = t.map Char.toLower

/-- Numbers that agree: two NaNs, two infinities, or two numbers whose difference, as the machine computes it,
is less than 0.00001. -/
def Near (v : Env) (e a : Dbl) : Prop :=
  (e = .nan ∧ a = .nan) ∨ (∃ s t, e = .inf s ∧ a = .inf t) ∨
  ∃ p q d, e = .fin p ∧ a = .fin q ∧ v.fl (p - q) = .fin d ∧ -tolerance < d ∧ d < tolerance

/-- `Match v caseless e a`: the expected tree `e` accepts the actual tree `a`. -/
inductive Match (v : Env) (caseless : Bool) : Json → Json → Prop
  | null : Match v caseless .null .null
  | bool (b) : Match v caseless (.bool b) (.bool b)
  | num (d d') : Near v d d' → Match v caseless (.num d) (.num d')
  | str (s s') : SameText caseless s s' → Match v caseless (.str s) (.str s')
  | pat (p s) : v.pattern p s caseless = true → Match v caseless (.pat p) (.str s)
  /-- arrays: equal length, element by element -/
  | arr (l l' : List Json) : (h : l.length = l'.length) →
      (∀ i : Fin l.length, Match v caseless l[i] (l'[i.1]'(h ▸ i.2))) → Match v caseless (.arr l) (.arr l')
  /-- objects: no more members than the actual, and for every expected member the first actual member
  with its key matches -/
  | obj (l l' : List (Str × Json)) (at' : Fin l.length → Fin l'.length) : l.length ≤ l'.length →
      (∀ i, SameText caseless l'[at' i].1 l[i].1) →
      (∀ i (j : Fin l'.length), j < at' i → ¬ SameText caseless l'[j].1 l[i].1) →
      (∀ i, Match v caseless l[i].2 l'[at' i].2) → Match v caseless (.obj l) (.obj l')

/-- In every object inside, the keys are different from each other. -/
inductive Distinct (caseless : Bool) : Json → Prop
  | absent : Distinct caseless .absent
  | null : Distinct caseless .null
  | bool (b) : Distinct caseless (.bool b)
  | num (d) : Distinct caseless (.num d)
  | str (s) : Distinct caseless (.str s)
  | pat (s) : Distinct caseless (.pat s)
  | arr (l) : (∀ x ∈ l, Distinct caseless x) → Distinct caseless (.arr l)
  | obj (l : List (Str × Json)) : l.Pairwise (fun m m' => ¬ SameText caseless m.1 m'.1) →
      (∀ m ∈ l, Distinct caseless m.2) → Distinct caseless (.obj l)

/-- The same tree up to the order of the members of the objects inside: one exchange of two neighbours. -/
inductive Swap : Json → Json → Prop
  | here (l₁ m m' l₂) : Swap (.obj (l₁ ++ m :: m' :: l₂)) (.obj (l₁ ++ m' :: m :: l₂))
  | arr (l₁ x y l₂) : Swap x y → Swap (.arr (l₁ ++ x :: l₂)) (.arr (l₁ ++ y :: l₂))
  | obj (l₁ k x y l₂) : Swap x y → Swap (.obj (l₁ ++ (k, x) :: l₂)) (.obj (l₁ ++ (k, y) :: l₂))

/-- Any number of exchanges. -/
inductive Reorder : Json → Json → Prop
  | refl (x) : Reorder x x
  | step {x y z} : Reorder x y → Swap y z → Reorder x z

/-- One member with a new key is added to an object somewhere inside. -/
inductive Add (caseless : Bool) : Json → Json → Prop
  | here (l₁ l₂ k x) : (∀ m ∈ l₁ ++ l₂, ¬ SameText caseless k m.1) →
      Add caseless (.obj (l₁ ++ l₂)) (.obj (l₁ ++ (k, x) :: l₂))
  | arr (l₁ x y l₂) : Add caseless x y → Add caseless (.arr (l₁ ++ x :: l₂)) (.arr (l₁ ++ y :: l₂))
  | obj (l₁ k x y l₂) : Add caseless x y → Add caseless (.obj (l₁ ++ (k, x) :: l₂)) (.obj (l₁ ++ (k, y) :: l₂))

/-- Any number of members are added. -/
inductive Adds (caseless : Bool) : Json → Json → Prop
  | refl (x) : Adds caseless x x
  | step {x y z} : Adds caseless x y → Add caseless y z → Adds caseless x z

/-- Values of standard JSON: no pattern, nothing absent (and only finite numbers). -/
inductive Plain : Json → Prop
  | null : Plain .null
  | bool (b) : Plain (.bool b)
  | num (q) : Plain (.num (.fin q))
  | str (s) : Plain (.str s)
  | arr (l) : (∀ x ∈ l, Plain x) → Plain (.arr l)
  | obj (l : List (Str × Json)) : (∀ m ∈ l, Plain m.2) → Plain (.obj l)

end H2.Json
