import Verif.Calls.Model
/-
What a user may say about the calls of their own functions, apart from how matching is carried out.
-/
namespace H2.Calls
open H2.Matcher

/-- What an observer of the user's functions sees. -/
inductive Event where
  /-- the body of an own matcher ran on a value and gave an answer -/
  | asked (id : Nat) (v : Val) (answer : Bool)
  /-- the message of an own matcher was made -/
  | explained (id : Nat) (v : Val)
  /-- a method of an object ran and gave a value -/
  | called (f : Nat) (v result : Val)

/-- All that the observer sees of a program, in order. -/
def events {σ α : Type} (e : Env σ) : Prog α → σ → List Event
  | .ret _, _ => []
  | .ask id v k, s => .asked id v (e.ask id v s).1 :: events e (k (e.ask id v s).1) (e.ask id v s).2
  | .explain id v k, s => .explained id v :: events e k (e.explain id v s)
  | .call f v k, s => .called f v (e.call f v s).1 :: events e (k (e.call f v s).1) (e.call f v s).2

/-- A function of the user: an own matcher or a method. -/
inductive Fn where
  | own (id : Nat)
  | method (f : Nat)
deriving DecidableEq, Repr

/-- The function that was called and what it was called on; the making of a message is not counted. -/
def Event.fn : Event → Option (Fn × Val)
  | .asked id v _ => some (.own id, v)
  | .explained _ _ => none
  | .called f v _ => some (.method f, v)

/-- The calls among what was seen, each with what it was called on. -/
def calls (l : List Event) : List (Fn × Val) := l.filterMap Event.fn

/-- The own matchers that were asked, with the values. -/
def asks (l : List Event) : List (Nat × Val) := l.filterMap fun
  | .asked id v _ => some (id, v)
  | _ => none

/-- The functions that were called, in order. -/
def fns (l : List Event) : List Fn := (calls l).map Prod.fst

mutual
/-- The functions as they stand in an expression, from left to right. -/
def written : X → List Fn
  | .own id => [.own id]
  | .plain _ => []
  | .member _ f m => .method f :: written m
  | .poly _ m => written m
  | .not m => written m
  | .cond b t f => if b then written t else written f
  | .and l r => written l ++ written r
  | .or l r => written l ++ written r
  | .allOf ms => writtens ms
  | .anyOf ms => writtens ms
  | .noneOf ms => writtens ms
  | .pair k v => written k ++ written v
  | .every _ m => written m
  | .has _ _ m => written m
  | .listOf _ ms => writtens ms
  | .stat _ _ m => written m
def writtens : Xs → List Fn
  | .nil => []
  | .cons m ms => written m ++ writtens ms
end

mutual
/-- Expressions about a single value: no container matcher, no `Pair`, and no `AnyOf` in them. -/
def straight : X → Bool
  | .own _ => true
  | .plain _ => true
  | .member _ _ m => straight m
  | .poly _ m => straight m
  | .not m => straight m
  | .cond _ t f => straight t && straight f
  | .and l r => straight l && straight r
  | .or l r => straight l && straight r
  | .allOf ms => straights ms
  | .anyOf _ => false
  | .noneOf ms => straights ms
  | .pair _ _ => false
  | .every _ _ => false
  | .has _ _ _ => false
  | .listOf _ _ => false
  | .stat _ _ _ => false
def straights : Xs → Bool
  | .nil => true
  | .cons m ms => straight m && straights ms
end

/-- The elements whose place is in `[lo, hi)` and in the range written in angle brackets: `<n>` is `[0, n)`, `<s, e>` is
`[s, e)`. -/
def within (lo hi : Int) (r : Rng) (xs : List Val) : List Val :=
  (xs.zipIdx.filter fun p => decide (lo ≤ p.2 ∧ (p.2 : Int) < hi ∧
    (if r.second = -1 then 0 ≤ (p.2 : Int) ∧ (p.2 : Int) < r.first else r.first ≤ p.2 ∧ (p.2 : Int) < r.second))).map Prod.fst

/-- The element at a place, if there is one. -/
def elementAt (xs : List Val) (i : Int) : Option Val := if i < 0 then none else xs[i.toNat]?

mutual
/-- The own matchers of an expression and the values they stand for, from left to right: `Every` sets its matcher against
every element in range, `ListOf` its matchers against one element each, `CountOf` its matcher against the number of elements,
`Pair` its two against the two parts.  `[lo, hi)` is the range written behind a matcher around this one. -/
def places : X → Int → Int → Val → List (Nat × Val)
  | .own id, _, _, a => [(id, a)]
  | .plain _, _, _, _ => []
  | .member _ _ _, _, _, _ => []
  | .poly g m, lo, hi, a =>
    if g.rangeStart = -1 ∨ g.rangeEnd = -1 then places m lo hi a else places m g.rangeStart g.rangeEnd a
  | .not m, lo, hi, a => places m lo hi a
  | .cond b t f, lo, hi, a => if b then places t lo hi a else places f lo hi a
  | .and l r, lo, hi, a => places l lo hi a ++ places r lo hi a
  | .or l r, lo, hi, a => places l lo hi a ++ places r lo hi a
  | .allOf ms, lo, hi, a => placesAll ms lo hi a
  | .anyOf _, _, _, _ => []
  | .noneOf ms, lo, hi, a => placesAll ms lo hi a
  | .pair k v, _, _, .pair ka va => places k 0 5413722 ka ++ places v 0 5413722 va
  | .pair _ _, _, _, _ => []
  | .every r m, lo, hi, .seq xs => (within lo hi r xs).flatMap fun x => places m 0 5413722 x
  | .every _ _, _, _, _ => []
  | .has _ _ _, _, _, _ => []
  | .listOf r ms, lo, _, .seq xs => placesList ms (max lo (if r.second = -1 then 0 else r.first)) xs
  | .listOf _ _, _, _, _ => []
  | .stat _ _ m, _, _, .seq xs => places m 0 5413722 (.num (xs.length : Nat))
  | .stat _ _ m, _, _, _ => places m 0 5413722 (.num (0 : Nat))
/-- The same for matchers that stand for the same value. -/
def placesAll : Xs → Int → Int → Val → List (Nat × Val)
  | .nil, _, _, _ => []
  | .cons m ms, lo, hi, a => places m lo hi a ++ placesAll ms lo hi a
/-- The same for matchers that stand for one element each, from a place on. -/
def placesList : Xs → Int → List Val → List (Nat × Val)
  | .nil, _, _ => []
  | .cons m ms, i, xs => ((elementAt xs i).toList.flatMap fun x => places m 0 5413722 x) ++ placesList ms (i + 1) xs
end

mutual
/-- Expressions without methods in which nothing is left out: no `AnyOf`, no `Has`, and no statistic but `CountOf`. -/
def thorough : X → Bool
  | .own _ => true
  | .plain _ => true
  | .member _ _ _ => false
  | .poly _ m => thorough m
  | .not m => thorough m
  | .cond _ t f => thorough t && thorough f
  | .and l r => thorough l && thorough r
  | .or l r => thorough l && thorough r
  | .allOf ms => thoroughs ms
  | .anyOf _ => false
  | .noneOf ms => thoroughs ms
  | .pair k v => thorough k && thorough v
  | .every _ m => thorough m
  | .has _ _ _ => false
  | .listOf _ ms => thoroughs ms
  | .stat s _ m => (s == .count) && thorough m
def thoroughs : Xs → Bool
  | .nil => true
  | .cons m ms => thorough m && thoroughs ms
end

mutual
/-- There is no `Pair` in the expression (it refuses what is not a pair, negated or not). -/
def noPair : X → Bool
  | .own _ => true
  | .plain _ => true
  | .member _ _ m => noPair m
  | .poly _ m => noPair m
  | .not m => noPair m
  | .cond _ t f => noPair t && noPair f
  | .and l r => noPair l && noPair r
  | .or l r => noPair l && noPair r
  | .allOf ms => noPairs ms
  | .anyOf ms => noPairs ms
  | .noneOf ms => noPairs ms
  | .pair _ _ => false
  | .every _ m => noPair m
  | .has _ _ m => noPair m
  | .listOf _ ms => noPairs ms
  | .stat _ _ m => noPair m
def noPairs : Xs → Bool
  | .nil => true
  | .cons m ms => noPair m && noPairs ms
end

/-- The matchers of a list. -/
def Xs.ofList : List X → Xs
  | [] => .nil
  | m :: ms => .cons m (Xs.ofList ms)

mutual
/-- An expression whose own matchers answer by a fixed test `p` and whose methods give a fixed value `q`, as an expression of
`Verif.Matcher.Model`. -/
def settled (p : Nat → Val → Bool) (q : Nat → Val → Val) : X → M
  | .own id => .leaf (fun _ _ v => p id v)
  | .plain test => .leaf test
  | .member clear f m => .proj clear (q f) (settled p q m)
  | .poly g m => .poly g (settled p q m)
  | .not m => .not (settled p q m)
  | .cond b t f => .cond b (settled p q t) (settled p q f)
  | .and l r => .and (settled p q l) (settled p q r)
  | .or l r => .or (settled p q l) (settled p q r)
  | .allOf ms => .allOf (settleds p q ms)
  | .anyOf ms => .anyOf (settleds p q ms)
  | .noneOf ms => .noneOf (settleds p q ms)
  | .pair k v => .pair (settled p q k) (settled p q v)
  | .every r m => .every r (settled p q m)
  | .has r keyOnly m => .has r keyOnly (settled p q m)
  | .listOf r ms => .listOf r (settleds p q ms)
  | .stat s r m => .stat s r (settled p q m)
def settleds (p : Nat → Val → Bool) (q : Nat → Val → Val) : Xs → Ms
  | .nil => .nil
  | .cons m ms => .cons (settled p q m) (settleds p q ms)
end

/-- What is seen of `OK(m, a)`: whether it passes, the calls and messages, and the state it leaves. -/
def sees {σ : Type} (e : Env σ) (m : X) (a : Val) (s : σ) : Bool × List Event × σ :=
  ((exec e (assertion false m a) s).1, events e (assertion false m a) s, (exec e (assertion false m a) s).2)

/-- What is seen of a row of assertions `OK(m, a)`, each made after the one before: which of them pass, all the calls and
messages, and the state in the end. -/
def inTurn {σ : Type} (e : Env σ) : List (X × Val) → σ → List Bool × List Event × σ
  | [], s => ([], [], s)
  | (m, a) :: rest, s =>
    let first := sees e m a s
    let others := inTurn e rest first.2.2
    (first.1 :: others.1, first.2.1 ++ others.2.1, others.2.2)

/-- The matchers of `ListOf` with the elements they are set against; where there is none, the matcher is left out. -/
def pairing (xs : List Val) : List X → Int → List (X × Val)
  | [], _ => []
  | m :: ms, i => ((elementAt xs i).toList.map (m, ·)) ++ pairing xs ms (i + 1)

/-- Making a message changes nothing. -/
def Quiet {σ : Type} (e : Env σ) : Prop := ∀ id v s, e.explain id v s = s

/-- An own matcher behind any number of `Not`, `!`, `~`, ranges and `Conditional`s; `n` is whether it stands negated. -/
inductive Wraps (id : Nat) : Bool → X → Prop where
  | own : Wraps id false (.own id)
  | not {n m} : Wraps id n m → Wraps id (!n) (.not m)
  | poly {n m} (g : Cfg) : Wraps id n m → Wraps id (n != g.negative) (.poly g m)
  | condT {n m} (f : X) : Wraps id n m → Wraps id n (.cond true m f)
  | condF {n m} (t : X) : Wraps id n m → Wraps id n (.cond false t m)

end H2.Calls
