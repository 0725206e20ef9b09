/-
Model of the matcher machinery of h2unit: the matching context, the polymorphic
wrapper, the Boolean combinators and the container matchers.

C++ templates are instantiated at compile time; the model works over one universe
`Val` of already-typed values, so a call that would not compile simply never
appears.  A `h2_fail*` result is `Option Fail`: `none` is `nullptr` (accepted).
Texts of failures are left out; their tree shape and sequence numbers are kept.
-/
namespace H2.Matcher

/-- The matching context handed down the matcher tree.
`/repo/source/matcher/h2_matches.hpp:1-4`.
Simplified: `no_compare_operator` is left out (it only affects printed text), the C
`int`s are unbounded integers. -/
structure C where
  dimension : Int := -1
  rangeStart : Int := 0
  rangeEnd : Int := 5413722
  times : Int := 1
  negative : Bool := false
  caseless : Bool := false
  squash : Bool := false
deriving DecidableEq, Repr

/-- `/repo/source/matcher/h2_matches.hpp:6` `C::in`. -/
def C.inRange (c : C) (i : Int) : Bool := c.rangeStart ≤ i && i < c.rangeEnd

/-- `/repo/source/matcher/h2_matches.hpp:7` `C::fit`. -/
def C.fit (c : C) (result : Bool) : Bool := result == !c.negative

/-- `/repo/source/matcher/h2_matches.hpp:8` `C::clear_size` (note: `times` is kept). -/
def C.clearSize (c : C) : C :=
  { c with dimension := -1, rangeStart := 0, rangeEnd := 5413722 }

/-- `/repo/source/matcher/h2_matches.hpp:9` `C::update_negative`. -/
def C.setNegative (c : C) (b : Bool) : C := { c with negative := b }

/-- The configuration a user puts on a matcher with `!`, `~`, `*`, `* n`, `(s,e)`, `/ e`.
`/repo/source/matcher/h2_matcher.hpp:26-27`. -/
structure Cfg where
  rangeStart : Int := -1
  rangeEnd : Int := -1
  times : Int := 1
  negative : Bool := false
  caseless : Bool := false
  squash : Bool := false
deriving DecidableEq, Repr

/-- `operator!`, `/repo/source/matcher/h2_matcher.hpp:29-33`. -/
def Cfg.bang (g : Cfg) : Cfg := { g with negative := !g.negative }
/-- `operator~`, `/repo/source/matcher/h2_matcher.hpp:34-38`. -/
def Cfg.tilde (g : Cfg) : Cfg := { g with caseless := true }
/-- unary `operator*`, `/repo/source/matcher/h2_matcher.hpp:39-43`. -/
def Cfg.star (g : Cfg) : Cfg := { g with squash := true }
/-- binary `operator*(int)`, `/repo/source/matcher/h2_matcher.hpp:44-48`. -/
def Cfg.timesBy (g : Cfg) (n : Int) : Cfg := { g with times := n }
/-- `operator()(int start, int end = -1)`, `/repo/source/matcher/h2_matcher.hpp:49-54`. -/
def Cfg.range (g : Cfg) (s : Int) (e : Int := -1) : Cfg :=
  if e = -1 then { g with rangeStart := 0, rangeEnd := s }
  else { g with rangeStart := s, rangeEnd := e }
/-- `operator/(int)`, `/repo/source/matcher/h2_matcher.hpp:55-59`. -/
def Cfg.slash (g : Cfg) (e : Int) : Cfg := { g with rangeStart := 0, rangeEnd := e }

/-- `H2_MATCHES_CONFIGURE`, `/repo/source/matcher/h2_matcher.hpp:60`: the context a wrapped
matcher sees. -/
def Cfg.configure (g : Cfg) (c : C) : C :=
  { dimension := c.dimension
    negative := g.negative != c.negative
    caseless := g.caseless || c.caseless
    squash := g.squash || c.squash
    rangeStart := if g.rangeStart ≠ -1 ∧ g.rangeEnd ≠ -1 then g.rangeStart else c.rangeStart
    rangeEnd := if g.rangeStart ≠ -1 ∧ g.rangeEnd ≠ -1 then g.rangeEnd else c.rangeEnd
    times := c.times * g.times }

/-- The compile-time range `h2_range<Start, End>` of a container matcher.
`/repo/source/matcher/h2_matches_range.hpp:1-6`; the default arguments `5413722, -1` are those
of `/repo/source/matcher/h2_matches_container.hpp:312-338`. -/
structure Rng where
  first : Int := 5413722
  second : Int := -1
deriving DecidableEq, Repr

/-- `h2_range::start`, `/repo/source/matcher/h2_matches_range.hpp:3`. -/
def Rng.start (r : Rng) : Int := if r.second = -1 then 0 else r.first
/-- `h2_range::end`, `/repo/source/matcher/h2_matches_range.hpp:4`. -/
def Rng.stop (r : Rng) : Int := if r.second = -1 then r.first else r.second
/-- `h2_range::in`, `/repo/source/matcher/h2_matches_range.hpp:5`. -/
def Rng.inRange (r : Rng) (i : Int) : Bool := r.start ≤ i && i < r.stop

/-- `range_in`, `/repo/source/matcher/h2_matches_container.hpp:85`. -/
def rangeIn (r : Rng) (c : C) (i : Int) : Bool := c.inRange i && r.inRange i

/-- Values under test.  Numbers are exact rationals (rounding of C doubles is not modelled);
`seq` is any iterable container in iteration order; `pair` is `std::pair`/a map entry. -/
inductive Val where
  | num (q : Rat)
  | str (s : List Char)
  | seq (xs : List Val)
  | pair (k v : Val)
deriving Repr

/-- Iteration order of a container, `for (auto const& ia : a)`,
`/repo/source/matcher/h2_matches_container.hpp:106`.  Other values are never iterated
(the call would not compile). -/
def Val.elems : Val → List Val
  | .seq xs => xs
  | _ => []

/-- `ia.first`, `/repo/source/matcher/h2_matches_container.hpp:144`; only map entries reach it. -/
def Val.key : Val → Val
  | .pair k _ => k
  | v => v

/-- The numbers a statistics matcher reads (`ia` used as a number),
`/repo/source/matcher/h2_matches_container.hpp:258-261,278-279`; non-numbers do not compile. -/
def Val.toNum : Val → Rat
  | .num q => q
  | _ => 0

/-- A failure report: `h2_fail` with its `seqno` and its children,
`/repo/source/report/h2_failure.hpp` `h2_fail` and `/repo/source/report/h2_failure.cpp:1-30`.
The sibling chain of the first child is the list of children. -/
inductive Fail where
  | mk (seqno : Option Nat) (children : List Fail)
deriving Repr

/-- `fail->seqno = (int)i`, `/repo/source/matcher/h2_matches_logic.hpp:118`. -/
def Fail.withSeq (i : Nat) : Fail → Fail
  | .mk _ cs => .mk (some i) cs

/-- A statistic of a sequence of numbers: `none` when there is no value to report.
Used for the `H2_MATCHES_STATS` family. -/
inductive Stat where
  | count | max | min | avg
deriving DecidableEq, Repr

/-- The elements of a container selected by the context range and the compile-time range, in
order: the `if (range_in(c, i++))` of
`/repo/source/matcher/h2_matches_container.hpp:105-107,141-143,156-158,256-259,277-279`. -/
def selectFrom (r : Rng) (c : C) : Int → List Val → List Val
  | _, [] => []
  | i, x :: xs => if rangeIn r c i then x :: selectFrom r c (i + 1) xs else selectFrom r c (i + 1) xs

/-- The running best value of MaxOf/MinOf,
`/repo/source/matcher/h2_matches_container.hpp:256-262`. -/
def bestOf (isMax : Bool) : List Rat → Option Rat → Option Rat
  | [], v => v
  | x :: xs, none => bestOf isMax xs (some x)
  | x :: xs, some v => bestOf isMax xs (some (if (if isMax then v < x else x < v) then x else v))

/-- The value a statistics matcher hands to its inner matcher, `none` when `prev_result` is
false.  CountOf counts the whole container and ignores ranges.
`/repo/source/matcher/h2_matches_container.hpp:240-241` (count), `256-263` (max/min),
`276-280` (avg; `sum` and `count` are exact here, doubles in C++). -/
def statValue (s : Stat) (r : Rng) (c : C) (xs : List Val) : Option Rat :=
  match s with
  | .count => some (xs.length : Nat)
  | .max => bestOf true ((selectFrom r c 0 xs).map Val.toNum) none
  | .min => bestOf false ((selectFrom r c 0 xs).map Val.toNum) none
  | .avg =>
    let ys := (selectFrom r c 0 xs).map Val.toNum
    if ys.length = 0 then none else some (ys.foldl (· + ·) 0 / (ys.length : Nat))

mutual
/-- Matcher expressions. -/
inductive M where
  /-- A base matcher whose body is `bool result = …; if (c.fit(result)) return nullptr;`
  (`h2_matches_any/null/bool` `/repo/source/matcher/h2_matches.hpp:28-76`, equations,
  inequations, string matchers).  `test caseless squash a` is `result`. -/
  | leaf (test : Bool → Bool → Val → Bool)
  /-- A base matcher that refuses a value whatever the polarity (`Pair` on a non-pair
  `/repo/source/matcher/h2_matches_container.hpp:46-50`, JSON/memory matchers on unusable
  operands); where it does not refuse it is as `leaf`. -/
  | partialLeaf (test : Bool → Bool → Val → Option Bool)
  /-- `h2_polymorphic_matcher`, `/repo/source/matcher/h2_matcher.hpp:22-71`. -/
  | poly (g : Cfg) (m : M)
  /-- `h2_not_matches`, `/repo/source/matcher/h2_matches_logic.hpp:1-15`. -/
  | not (m : M)
  /-- `h2_conditional_matches`, `/repo/source/matcher/h2_matches_logic.hpp:17-33`. -/
  | cond (b : Bool) (t f : M)
  /-- `h2_and_matches`, `/repo/source/matcher/h2_matches_logic.hpp:35-66`. -/
  | and (l r : M)
  /-- `h2_or_matches`, `/repo/source/matcher/h2_matches_logic.hpp:68-102`. -/
  | or (l r : M)
  /-- `h2_allof_matches`, `/repo/source/matcher/h2_matches_logic.hpp:104-135`. -/
  | allOf (ms : Ms)
  /-- `h2_anyof_matches`, `/repo/source/matcher/h2_matches_logic.hpp:137-173`. -/
  | anyOf (ms : Ms)
  /-- `h2_noneof_matches`, `/repo/source/matcher/h2_matches_logic.hpp:175-209`. -/
  | noneOf (ms : Ms)
  /-- `h2_pointee_matches` (`clear = true`, `/repo/source/matcher/h2_matches_pointee.hpp:6-10`),
  `h2_castof_matches` and `h2_member_*_matches` (`clear = false`,
  `/repo/source/matcher/h2_matches_cast.hpp:6-10`, `/repo/source/matcher/h2_matches_member.hpp:7-11,49-53`):
  match a projection of the value. -/
  | proj (clear : Bool) (f : Val → Val) (m : M)
  /-- `h2_pair_matches`, `/repo/source/matcher/h2_matches_container.hpp:26-55`. -/
  | pair (k v : M)
  /-- `h2_every1_matches`, `/repo/source/matcher/h2_matches_container.hpp:96-120`. -/
  | every (r : Rng) (m : M)
  /-- `h2_has1_matches`, `/repo/source/matcher/h2_matches_container.hpp:133-172`; `keyOnly` is
  the HasKey scenario. -/
  | has (r : Rng) (keyOnly : Bool) (m : M)
  /-- `h2_listof_matches`, `/repo/source/matcher/h2_matches_container.hpp:191-230`. -/
  | listOf (r : Rng) (ms : Ms)
  /-- `h2_countof_matches`, `h2_maxmin_matches`, `h2_avg_matches`,
  `/repo/source/matcher/h2_matches_container.hpp:232-283`. -/
  | stat (s : Stat) (r : Rng) (m : M)
/-- The matchers of a `h2_matcher_tuple`, in order,
`/repo/source/matcher/h2_matches_container.hpp:1-24`. -/
inductive Ms where
  | nil
  | cons (m : M) (ms : Ms)
end

/-- Number of matchers of a tuple (`matchers.size()`). -/
def Ms.length : Ms → Nat
  | .nil => 0
  | .cons _ ms => ms.length + 1

/-- `if (c.fit(ok)) { delete fails; return nullptr; } … append_child(fail, fails); return fail;`
the common tail of the composite matchers,
`/repo/source/matcher/h2_matches_logic.hpp:47-53,79-90,122-128,160-166,196-202`. -/
def conclude (c : C) (ok : Bool) (fails : List Fail) : Option Fail :=
  if c.fit ok then none else some (.mk none fails)

/-- The counting loop of Has with its early `break`,
`/repo/source/matcher/h2_matches_container.hpp:156-163`.  `hit` says whether the inner matcher
accepted.  Returns `found`. -/
def hasLoop (hit : Val → Bool) (times : Int) : List Val → Int → Int
  | [], found => found
  | x :: xs, found =>
    if hit x then
      if found + 1 ≥ times then found + 1 else hasLoop hit times xs (found + 1)
    else hasLoop hit times xs found

/-- The element of the container ListOf compares with matcher number `i`: the inner loop
`if (j++ == i + max(c.range_start, Range::start))`,
`/repo/source/matcher/h2_matches_container.hpp:205-212`.  `none` is `count == 0`. -/
def pick (target : Int) : Int → List Val → Option Val
  | _, [] => none
  | j, x :: xs => if j = target then some x else pick target (j + 1) xs

mutual
/-- `h2_matcher<A>::matches(a, c)` for every kind of matcher; line references on the
constructors of `M`. -/
def matchesM : M → Val → C → Option Fail
  | .leaf test, a, c => conclude c (test c.caseless c.squash a) []
  | .partialLeaf test, a, c =>
    match test c.caseless c.squash a with
    | none => some (.mk none [])
    | some r => conclude c r []
  | .poly g m, a, c => matchesM m a (g.configure c)
  | .not m, a, c => matchesM m a (c.setNegative (!c.negative))
  | .cond b t f, a, c => if b then matchesM t a c else matchesM f a c
  | .and l r, a, c =>
    let fails := (matchesM l a (c.setNegative false)).toList ++ (matchesM r a (c.setNegative false)).toList
    conclude c fails.isEmpty fails
  | .or l r, a, c =>
    let f1 := matchesM l a (c.setNegative false)
    let f2 := matchesM r a (c.setNegative false)
    conclude c (f1.isNone || f2.isNone) (f1.toList ++ f2.toList)
  | .allOf ms, a, c =>
    let fails := allFails ms a (c.setNegative false) 0
    conclude c fails.isEmpty fails
  | .anyOf ms, a, c =>
    let r := anyFails ms a (c.setNegative false) 0
    conclude c r.1 r.2
  | .noneOf ms, a, c =>
    let fails := noneFails ms a (c.setNegative false) 0
    conclude c fails.isEmpty fails
  | .proj clear f m, a, c => matchesM m (f a) (if clear then c.clearSize else c)
  | .pair k v, a, c =>
    match a with
    | .pair ka va =>
      let fails := (matchesM k ka (c.clearSize.setNegative false)).toList ++
        (matchesM v va (c.clearSize.setNegative false)).toList
      conclude c fails.isEmpty fails
    | _ => some (.mk none [])
  | .every r m, a, c =>
    let fails := (selectFrom r c 0 a.elems).filterMap (fun x => matchesM m x (c.clearSize.setNegative false))
    conclude c fails.isEmpty fails
  | .has r keyOnly m, a, c =>
    let found := hasLoop
      (fun x => (matchesM m (if keyOnly then x.key else x) (c.clearSize.setNegative false)).isNone)
      c.times (selectFrom r c 0 a.elems) 0
    conclude c (found ≥ c.times) []
  | .listOf r ms, a, c =>
    let fails := listFails ms a.elems (max c.rangeStart r.start) (c.clearSize.setNegative false) 0
    conclude c fails.isEmpty fails
  | .stat s r m, a, c =>
    let ok := match statValue s r c a.elems with
      | none => false
      | some q => (matchesM m (.num q) (c.clearSize.setNegative false)).isNone
    conclude c ok []
/-- The loop of AllOf, `/repo/source/matcher/h2_matches_logic.hpp:115-120`. -/
def allFails : Ms → Val → C → Nat → List Fail
  | .nil, _, _, _ => []
  | .cons m ms, a, c, i => ((matchesM m a c).map (Fail.withSeq i)).toList ++ allFails ms a c (i + 1)
/-- The loop of AnyOf with its early `break`: (`0 < count`, failures so far),
`/repo/source/matcher/h2_matches_logic.hpp:148-158`. -/
def anyFails : Ms → Val → C → Nat → Bool × List Fail
  | .nil, _, _, _ => (false, [])
  | .cons m ms, a, c, i =>
    match matchesM m a c with
    | none => (true, [])
    | some f => ((anyFails ms a c (i + 1)).1, f.withSeq i :: (anyFails ms a c (i + 1)).2)
/-- The loop of NoneOf, `/repo/source/matcher/h2_matches_logic.hpp:186-195`. -/
def noneFails : Ms → Val → C → Nat → List Fail
  | .nil, _, _, _ => []
  | .cons m ms, a, c, i =>
    match matchesM m a c with
    | none => .mk (some i) [] :: noneFails ms a c (i + 1)
    | some _ => noneFails ms a c (i + 1)
/-- The outer loop of ListOf, `/repo/source/matcher/h2_matches_container.hpp:202-216`. -/
def listFails : Ms → List Val → Int → C → Nat → List Fail
  | .nil, _, _, _, _ => []
  | .cons m ms, xs, start, c, i =>
    (match pick (i + start) 0 xs with
      | none => [Fail.mk (some i) []]
      | some x => ((matchesM m x c).map (Fail.withSeq i)).toList) ++ listFails ms xs start c (i + 1)
end

/-- `OK(e, a)`: does the assertion pass?  `h2_ok2`, `/repo/source/assert/h2_assert.hpp:27-39`;
`dimension` is the extent of a native array, −1 otherwise.
`KO(e, a)` is the same call with `oppose` set. -/
def stash (oppose : Bool) (fail : Option Fail) : Option Fail :=
  -- `/repo/source/assert/h2_assert.cpp:36-53`; a failure that is a single node stays as it is
  if oppose then (match fail with
    | some _ => none
    | none => some (.mk none []))
  else fail

/-- `OK(m, a)` passes, `/repo/source/assert/h2_assert.hpp:27-32,90-91`. -/
def okPasses (m : M) (a : Val) (dimension : Int := -1) : Bool :=
  (stash false (matchesM m a { dimension := dimension })).isNone

/-- `KO(m, a)` passes, `/repo/source/assert/h2_assert.hpp:27-32,96-97`. -/
def koPasses (m : M) (a : Val) (dimension : Int := -1) : Bool :=
  (stash true (matchesM m a { dimension := dimension })).isNone

end H2.Matcher
