import Verif.Matcher.Model
/-
What the matchers are supposed to mean, written without the negation flag, the failure
lists and the loops of the implementation.

A matcher gives a *verdict* on a value: `some true` (it describes the value), `some false`
(it does not) or `none` (it cannot be applied to the value, e.g. `Pair` on something that is
no pair, and then both the matcher and its negation reject).
-/
namespace H2.Matcher

/-- The part of the surroundings that the meaning of a matcher depends on. -/
structure Env where
  lo : Int
  hi : Int
  times : Int
  caseless : Bool
  squash : Bool

/-- What the user wrote around a matcher changes the surroundings. -/
def Env.under (e : Env) (g : Cfg) : Env :=
  { lo := if g.rangeStart ≠ -1 ∧ g.rangeEnd ≠ -1 then g.rangeStart else e.lo
    hi := if g.rangeStart ≠ -1 ∧ g.rangeEnd ≠ -1 then g.rangeEnd else e.hi
    times := e.times * g.times
    caseless := g.caseless || e.caseless
    squash := g.squash || e.squash }

/-- Surroundings of the elements of a container: the whole of an element is meant again. -/
def Env.inside (e : Env) : Env := { e with lo := 0, hi := 5413722 }

/-- The elements with index in `[lo, hi)`. -/
def slice (lo hi : Int) (xs : List Val) : List Val := (xs.take hi.toNat).drop lo.toNat

/-- Greatest number of a list: a member that no member exceeds. -/
def greatest (ys : List Rat) : Option Rat := ys.find? (fun q => ys.all (fun y => y ≤ q))

/-- Least number of a list: a member that no member undercuts. -/
def least (ys : List Rat) : Option Rat := ys.find? (fun q => ys.all (fun y => q ≤ y))

/-- A definite yes. -/
def yes (o : Option Bool) : Bool := o == some true

/-- The statistic: number of all elements, or greatest/least/mean of the selected ones. -/
def statSpec : Stat → List Val → List Val → Option Rat
  | .count, _, all => some (all.length : Nat)
  | .max, sel, _ => greatest (sel.map Val.toNum)
  | .min, sel, _ => least (sel.map Val.toNum)
  | .avg, sel, _ => if sel = [] then none else some ((sel.map Val.toNum).sum / (sel.length : Nat))

mutual
/-- The verdict of a matcher on a value. -/
def verdict : M → Env → Val → Option Bool
  | .leaf test, e, a => some (test e.caseless e.squash a)
  | .partialLeaf test, e, a => test e.caseless e.squash a
  | .poly g m, e, a => (verdict m (e.under g) a).map (fun b => if g.negative then !b else b)
  | .not m, e, a => (verdict m e a).map (!·)
  | .cond b t f, e, a => if b then verdict t e a else verdict f e a
  | .and l r, e, a => some (yes (verdict l e a) && yes (verdict r e a))
  | .or l r, e, a => some (yes (verdict l e a) || yes (verdict r e a))
  | .allOf ms, e, a => some (allYes ms e a)
  | .anyOf ms, e, a => some (anyYes ms e a)
  | .noneOf ms, e, a => some (!anyYes ms e a)
  | .proj clear f m, e, a => verdict m (if clear then e.inside else e) (f a)
  | .pair k v, e, a =>
    match a with
    | .pair ka va => some (yes (verdict k e.inside ka) && yes (verdict v e.inside va))
    | _ => none
  | .every r m, e, a =>
    some ((slice (max e.lo r.start) (min e.hi r.stop) a.elems).all (fun x => yes (verdict m e.inside x)))
  | .has r keyOnly m, e, a =>
    some (e.times ≤ ((slice (max e.lo r.start) (min e.hi r.stop) a.elems).countP
      (fun x => yes (verdict m e.inside (if keyOnly then x.key else x))) : Nat))
  | .listOf r ms, e, a => some (
    if max e.lo r.start < 0 then ms.length = 0  -- there is nothing before the first element
    else pointwise ms e.inside (a.elems.drop (max e.lo r.start).toNat))
  | .stat s r m, e, a =>
    some (match statSpec s (slice (max e.lo r.start) (min e.hi r.stop) a.elems) a.elems with
      | none => false
      | some q => yes (verdict m e.inside (.num q)))
/-- Every matcher of the tuple says yes. -/
def allYes : Ms → Env → Val → Bool
  | .nil, _, _ => true
  | .cons m ms, e, a => yes (verdict m e a) && allYes ms e a
/-- Some matcher of the tuple says yes. -/
def anyYes : Ms → Env → Val → Bool
  | .nil, _, _ => false
  | .cons m ms, e, a => yes (verdict m e a) || anyYes ms e a
/-- The n-th matcher says yes to the n-th value, and there are enough values. -/
def pointwise : Ms → Env → List Val → Bool
  | .nil, _, _ => true
  | .cons _ _, _, [] => false
  | .cons m ms, e, x :: xs => yes (verdict m e x) && pointwise ms e xs
end

end H2.Matcher
