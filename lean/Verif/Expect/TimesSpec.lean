import Verif.Expect.TimesModel
/-
How a reader understands the text of a container matcher with an amount.
-/
namespace H2.Times.Spec
open H2.Matcher (Val)

/-- What a text says of a value. -/
inductive Form where
  | num (z : Int)
  /-- `≥3`, `>3`, `≤3`, `<3`, with `!` before it or not -/
  | ord (o : Ord) (bang : Bool) (z : Int)
  /-- `Has(f) * n` and the like, `!` before it or not; without `* n`, `n` is 1 -/
  | node (kind : Kind) (bang : Bool) (f : Form) (n : Int)
  /-- `Has(f, g) * n` -/
  | both (bang : Bool) (f g : Form) (n : Int)
  /-- `Every(f, g)` -/
  | all (f g : Form)
  deriving DecidableEq, Repr

/-- How it is written. -/
def write : Form → List Char
  | .num z => (toString z).toList
  | .ord o b z =>
      (if b then "!".toList else []) ++
        (match o with
          | .ge => "≥".toList
          | .gt => ">".toList
          | .le => "≤".toList
          | .lt => "<".toList) ++ (toString z).toList
  | .node k b f n =>
      (if b then "!".toList else []) ++
        (match k with
          | .has => "Has".toList
          | .hasKey => "HasKey".toList
          | .hasValue => "HasValue".toList
          | .every => "Every".toList
          | .countOf => "CountOf".toList) ++
        "(".toList ++ write f ++ ")".toList ++ (if n = 1 then [] else " * ".toList ++ (toString n).toList)
  | .both b f g n =>
      (if b then "!".toList else []) ++ "Has(".toList ++ write f ++ ", ".toList ++ write g ++ ")".toList ++
        (if n = 1 then [] else " * ".toList ++ (toString n).toList)
  | .all f g => ['E', 'v', 'e', 'r', 'y', '('] ++ write f ++ ", ".toList ++ write g ++ ")".toList

/-- `P` is true of at least `n` elements of the list: of all of some `n` of them, taken in order. -/
def AtLeast (n : Int) (P : Val → Prop) (xs : List Val) : Prop := ∃ ys : List Val, ys.Sublist xs ∧ n ≤ ys.length ∧ ∀ y ∈ ys, P y

/-- Not, if `b`. -/
def Unless (b : Bool) (P : Prop) : Prop := if b then ¬ P else P

/-- The elements of a container. -/
def items : Val → List Val
  | .seq xs => xs
  | _ => []

/-- The text is true of the value.  `Has(f) * n` says that `f` is true of `n` elements or more,
`Has(f, g) * n` that there are `n` pairs or more with `f` true of the key and `g` of the value, `Every(f, g)` that every element is such a pair; behind `Every` and `CountOf` an
amount has nothing to say. -/
def Holds : Form → Val → Prop
  | .num z, a => a = .num z
  | .ord .ge b z, a => Unless b (∃ q : Rat, a = .num q ∧ z ≤ q)
  | .ord .gt b z, a => Unless b (∃ q : Rat, a = .num q ∧ z < q)
  | .ord .le b z, a => Unless b (∃ q : Rat, a = .num q ∧ q ≤ z)
  | .ord .lt b z, a => Unless b (∃ q : Rat, a = .num q ∧ q < z)
  | .node .has b f n, a => Unless b (AtLeast n (Holds f) (items a))
  | .node .hasKey b f n, a => Unless b (AtLeast n (fun x => ∃ k v, x = .pair k v ∧ Holds f k) (items a))
  | .node .hasValue b f n, a => Unless b (AtLeast n (fun x => ∃ k v, x = .pair k v ∧ Holds f v) (items a))
  | .node .every b f _, a => Unless b (∀ x ∈ items a, Holds f x)
  | .node .countOf b f _, a => Unless b (Holds f (.num (items a).length))
  | .both b f g n, a => Unless b (AtLeast n (fun x => ∃ k v, x = .pair k v ∧ Holds f k ∧ Holds g v) (items a))
  | .all f g, a => ∀ x ∈ items a, ∃ k v, x = .pair k v ∧ Holds f k ∧ Holds g v

/-- No range is written anywhere. -/
def NoRange : Mx → Prop
  | .num _ => True
  | .ord _ _ _ => True
  | .node _ _ _ r m => r = none ∧ NoRange m
  | .both _ _ r k v => r = none ∧ NoRange k ∧ NoRange v
  | .all _ r k v => r = none ∧ NoRange k ∧ NoRange v

/-- No container in the value, however deep, has more than 5413722 elements. -/
inductive Short : Val → Prop
  | num (q) : Short (.num q)
  | str (s) : Short (.str s)
  | pair {k v} : Short k → Short v → Short (.pair k v)
  | seq {xs} : xs.length ≤ 5413722 → (∀ x ∈ xs, Short x) → Short (.seq xs)

end H2.Times.Spec
