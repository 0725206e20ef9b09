import Verif.Typed.Model
import Verif.Message.Model
/-
Model of the text by which a failure describes what was expected: the functions `expection` of the
matchers, beside what the matchers accept.

Matchers of integers, of texts and of containers of them, with the modifiers `~` (`CaseLess`) and `*`
(`SpaceLess`); ranges and `times` are not modelled here, see `TimesModel.lean`.  Lines are lists of words, words that set colours
included.
-/
namespace H2.Expect
open H2.Typed (Ord fit)
open H2.Layout (Word Line)
open H2.Message (gray decimal)

/-- A value under test. -/
inductive Val where
  | num (z : Int)
  | text (s : Word)
  | seq (xs : List Val)
  | pair (k v : Val)

/-- The elements of a container. -/
def Val.elems : Val → List Val
  | .seq xs => xs
  | .num _ => []
  | .text _ => []
  | .pair _ _ => []

/-- The value is a pair, and `p` is true of its parts. -/
def Val.parts (p : Val → Val → Bool) : Val → Bool
  | .pair k v => p k v
  | .num _ => false
  | .text _ => false
  | .seq _ => false

/-- `Substr`, `StartsWith`, `EndsWith`, `We` and `Re`, `/repo/source/matcher/h2_matches_strcmp.hpp:8-38`. -/
inductive Find where
  | substr
  | startsWith
  | endsWith
  | we
  | re
  deriving DecidableEq

mutual
/-- A matcher as it is written. -/
inductive Mx where
  /-- a number where a matcher is expected -/
  | plain (z : Int)
  /-- a text where a matcher is expected -/
  | str (s : Word)
  /-- `Eq(z)` -/
  | eq (z : Int)
  /-- `Eq(s)` of a text, `Se(s)` -/
  | se (s : Word)
  /-- `Substr(s)` and the like -/
  | find (k : Find) (s : Word)
  /-- `Ge(z)`, `Gt(z)`, `Le(z)`, `Lt(z)` -/
  | ord (o : Ord) (z : Int)
  /-- `_` -/
  | any
  /-- `IsTrue`, `IsFalse` -/
  | flag (e : Bool)
  /-- a matcher of `H2MATCHER` with these arguments -/
  | user (name : Word) (args : List Int)
  /-- `Not(m)`; `Nq(z)` is `Not(z)`, `/repo/source/matcher/h2_matches_inequation.hpp:69-70` -/
  | not (m : Mx)
  /-- `!m` -/
  | bang (m : Mx)
  /-- `CaseLess(m)`, `~m` -/
  | caseless (m : Mx)
  /-- `SpaceLess(m)`, `*m` -/
  | spaceless (m : Mx)
  /-- `Conditional(cond, t, f)` -/
  | cond (b : Bool) (t f : Mx)
  /-- `l && r` -/
  | and (l r : Mx)
  /-- `l || r` -/
  | or (l r : Mx)
  /-- `AllOf(...)` -/
  | allOf (ms : Ms)
  /-- `AnyOf(...)` -/
  | anyOf (ms : Ms)
  /-- `NoneOf(...)` -/
  | noneOf (ms : Ms)
  /-- `Every(m)` -/
  | every (m : Mx)
  /-- `Has(m)` -/
  | has (m : Mx)
  /-- `CountOf(m)` -/
  | countOf (m : Mx)
  /-- `ListOf(...)` -/
  | listOf (ms : Ms)
  /-- `Pair(k, v)` -/
  | pair (k v : Mx)
  /-- `Has(k, v)` -/
  | hasPair (k v : Mx)
  /-- `HasKey(k)` -/
  | hasKey (k : Mx)
  /-- `HasValue(v)` -/
  | hasValue (v : Mx)
  /-- `Every(k, v)` -/
  | everyPair (k v : Mx)

/-- Several of them. -/
inductive Ms where
  | nil
  | cons (m : Mx) (ms : Ms)
end

/-- What is given from outside. -/
structure Env where
  /-- what the bodies of the matchers of `H2MATCHER` return -/
  user : Word → List Int → Val → Bool
  /-- `h2_pattern::regex_match` (`true`) and `wildcard_match` of a pattern, without regard to case or with it, and a text -/
  pattern : Bool → Word → Bool → Word → Bool

/-- The fields of `C` that matter here, `/repo/source/matcher/h2_matches.hpp:1-12`: `no_compare_operator`, `negative`,
`case_insensitive`, `squash_whitespace`. -/
structure C where
  bare : Bool := false
  neg : Bool := false
  ci : Bool := false
  sq : Bool := false

/-- `a == z` of a number. -/
def Val.is : Val → Int → Bool
  | .num x, z => x == z
  | _, _ => false

/-- `a >= z` of a number, and the like. -/
def Val.cmp : Ord → Val → Int → Bool
  | o, .num x, z => o.ints x z
  | _, _, _ => false

/-- `!!a` -/
def Val.truth : Val → Bool
  | .num x => x != 0
  | _ => false

/-- The comparison of `h2_equation` of texts and of `h2_matches_strcmp`,
`/repo/source/matcher/h2_matches_equation.hpp:48-56`, `h2_matches_strcmp.cpp:1-7`. -/
def Val.same (ci sq : Bool) (s : Word) : Val → Bool
  | .text t => Str.strTest .se s ci sq t
  | _ => false

/-- The comparisons of `/repo/source/matcher/h2_matches_strcmp.cpp:18-56`: only the actual text is squashed. -/
def finds (E : Env) (ci sq : Bool) : Find → Word → Word → Bool
  | .substr, s, t => Str.strTest .substr s ci sq t
  | .startsWith, s, t => Str.strTest .startsWith s ci sq t
  | .endsWith, s, t => Str.strTest .endsWith s ci sq t
  | .we, s, t => E.pattern false s ci (if sq then Str.squash t else t)
  | .re, s, t => E.pattern true s ci (if sq then Str.squash t else t)

/-- The same of a value. -/
def Val.found (E : Env) (c : C) (k : Find) (s : Word) : Val → Bool
  | .text t => finds E c.ci c.sq k s t
  | _ => false

mutual
/-- Does `m.matches(a, c)` return no failure?  The functions `matches` of
`/repo/source/matcher/h2_matches.hpp:29-35,65-71`, `h2_matches_equation.hpp:48-56,139-143`, `h2_matches_strcmp.hpp:45,55`,
`h2_matches_inequation.hpp:6-60`, `h2_matcher_customize.hpp:4-7`,
`h2_matches_logic.hpp:6-10,26-30,41-54,76-92,112-130,148-170,186-207`,
`h2_matches_container.hpp:32-50,101-131,154-166,174-180,195-227,239-245,312-327`, `h2_matcher.hpp:28-32,38-47,60,66`.  `HasKey` sets values
against `_`, `HasValue` keys. -/
def fits (E : Env) : Mx → Val → C → Bool
  | .plain z, a, c => fit c.neg (a.is z)
  | .str s, a, c => fit c.neg (a.same c.ci c.sq s)
  | .eq z, a, c => fit c.neg (a.is z)
  | .se s, a, c => fit c.neg (a.same c.ci c.sq s)
  | .find k s, a, c => fit c.neg (a.found E c k s)
  | .ord o z, a, c => fit c.neg (a.cmp o z)
  | .any, _, c => fit c.neg true
  | .flag e, a, c => fit c.neg (if e then a.truth else !a.truth)
  | .user w zs, a, c => fit c.neg (E.user w zs a)
  | .not m, a, c => fits E m a { c with neg := !c.neg }
  | .bang m, a, c => fits E m a { c with neg := !c.neg }
  | .caseless m, a, c => fits E m a { c with ci := true }
  | .spaceless m, a, c => fits E m a { c with sq := true }
  | .cond b t f, a, c => if b then fits E t a c else fits E f a c
  | .and l r, a, c => fit c.neg (fits E l a { c with neg := false } && fits E r a { c with neg := false })
  | .or l r, a, c => fit c.neg (fits E l a { c with neg := false } || fits E r a { c with neg := false })
  | .allOf ms, a, c => fit c.neg (allFit E ms a { c with neg := false })
  | .anyOf ms, a, c => fit c.neg (anyFit E ms a { c with neg := false })
  | .noneOf ms, a, c => fit c.neg (noneFit E ms a { c with neg := false })
  | .every m, a, c => fit c.neg (a.elems.all fun x => fits E m x { c with neg := false })
  | .has m, a, c => fit c.neg (a.elems.any fun x => fits E m x { c with neg := false })
  | .countOf m, a, c => fit c.neg (fits E m (.num a.elems.length) { c with neg := false })
  | .listOf ms, a, c => fit c.neg (listFit E ms a.elems { c with neg := false })
  | .pair k v, .pair x y, c => fit c.neg (fits E k x { c with neg := false } && fits E v y { c with neg := false })
  | .pair _ _, _, _ => false
  | .hasPair k v, a, c => fit c.neg (a.elems.any fun x => x.parts fun y z => fits E k y { c with neg := false } && fits E v z { c with neg := false })
  | .hasKey k, a, c => fit c.neg (a.elems.any fun x => x.parts fun y _ => fits E k y { c with neg := false })
  | .hasValue v, a, c => fit c.neg (a.elems.any fun x => x.parts fun _ z => fits E v z { c with neg := false })
  | .everyPair k v, a, c => fit c.neg (a.elems.all fun x => x.parts fun y z => fits E k y { c with neg := false } && fits E v z { c with neg := false })
/-- All of them accept. -/
def allFit (E : Env) : Ms → Val → C → Bool
  | .nil, _, _ => true
  | .cons m ms, a, c => fits E m a c && allFit E ms a c
/-- One of them accepts. -/
def anyFit (E : Env) : Ms → Val → C → Bool
  | .nil, _, _ => false
  | .cons m ms, a, c => fits E m a c || anyFit E ms a c
/-- None of them accepts. -/
def noneFit (E : Env) : Ms → Val → C → Bool
  | .nil, _, _ => true
  | .cons m ms, a, c => !fits E m a c && noneFit E ms a c
/-- Each accepts the element in its place; a place beyond the end is a failure. -/
def listFit (E : Env) : Ms → List Val → C → Bool
  | .nil, _, _ => true
  | .cons _ _, [], _ => false
  | .cons m ms, x :: xs, c => fits E m x c && listFit E ms xs c
end

/-- `OK(m, a)`. -/
def ok (E : Env) (m : Mx) (a : Val) : Bool := fits E m a {}

/-! ### The text -/

/-- `C::pre`, `/repo/source/matcher/h2_matches.hpp:13-20`. -/
def pre (c : C) (ns : Word) : Line :=
  (if !c.bare && c.neg then [ns] else []) ++ (if c.ci then [['~']] else []) ++ (if c.sq then [['*']] else [])

/-- `h2_line::has`, `/repo/source/utils/h2_line.cpp:61-66`. -/
def hasWord (l : Line) (w : Word) : Bool := l.any (· == w)

/-- `gray("(") + l + gray(")")` -/
def paren (l : Line) : Line := gray ['('] ++ l ++ gray [')']

/-- `h2_stringify` of an integer. -/
def number (z : Int) : Line := [decimal z]

/-- `h2_stringify(s, true)` of a text, up to a character 0, `/repo/source/utils/h2_stringify.hpp:41-51`. -/
def quoted (s : Word) : Line := gray ['"'] ++ [s.takeWhile (· ≠ '\x00')] ++ gray ['"']

/-- The sign of an order relation, `/repo/source/matcher/h2_matches_inequation.hpp:12-14,29-31,46-48,63-65`. -/
def sign : Ord → Word
  | .ge => ['≥']
  | .gt => ['>']
  | .le => ['≤']
  | .lt => ['<']

/-- `h2_equation::expection` of a number, `/repo/source/matcher/h2_matches_equation.hpp:148-158`. -/
def eqText (c : C) (z : Int) : Line := pre { c with ci := false } ['≠'] ++ number z

/-- `h2_equation::expection` of a text and `h2_matches_strcmp::expection`,
`/repo/source/matcher/h2_matches_equation.hpp:58-61,84-88`, `h2_matches_strcmp.cpp:8-11`. -/
def seText (c : C) (s : Word) : Line := pre c ['≠'] ++ quoted (if c.sq then Str.squash s else s)

/-- The name of a matcher of texts, `/repo/source/matcher/h2_matches_strcmp.hpp:15-38`. -/
def Find.name : Find → Word
  | .substr => "Substr".toList
  | .startsWith => "StartsWith".toList
  | .endsWith => "EndsWith".toList
  | .we => "We".toList
  | .re => "Re".toList

/-- `h2_and_matches::expection`, `/repo/source/matcher/h2_matches_logic.hpp:56-65`. -/
def andText (c : C) (sl sr : Line) : Line :=
  let sl := if hasWord sl " or ".toList then paren sl else sl
  let sr := if hasWord sr " and ".toList || hasWord sr " or ".toList then paren sr else sr
  let s := sl ++ [" and ".toList] ++ sr
  pre { c with ci := false } ['!'] ++ (if c.neg then paren s else s)

/-- `h2_or_matches::expection`, `/repo/source/matcher/h2_matches_logic.hpp:94-102`. -/
def orText (c : C) (sl sr : Line) : Line :=
  let sr := if hasWord sr " or ".toList then paren sr else sr
  let s := sl ++ [" or ".toList] ++ sr
  pre { c with ci := false } ['!'] ++ (if c.neg then paren s else s)

/-- `name(inner)` -/
def callText (c : C) (name : Word) (inner : Line) : Line := pre c ['!'] ++ [name] ++ paren inner

/-- The arguments of a matcher of `H2MATCHER`, `/repo/source/matcher/h2_matcher_customize.hpp:26-83`. -/
def argsText : List Int → Line
  | [] => [[]]
  | [z] => number z
  | z :: zs => number z ++ gray ", ".toList ++ argsText zs

/-- An operand of `&&`, `||`, `CaseLess` or `SpaceLess`: a number or a text becomes an `h2_matcher`, whose text is that
of `Eq`, `/repo/source/matcher/h2_matches_logic.hpp:224-238`, `h2_matches_strcmp.hpp:40-68`; `other` is the text of any other. -/
def operand : Mx → C → Line → Line
  | .plain z, c, _ => eqText c z
  | .str s, c, _ => seText c s
  | _, _, other => other

mutual
/-- `h2_matches_expection(m, c)`, `/repo/source/matcher/h2_matches.hpp:73-74`, and the functions `expection`:
`/repo/source/matcher/h2_matches.hpp:36-39,72-75`, `h2_matches_inequation.hpp:12-14`, `h2_matches_logic.hpp:11-14,31-34,131-134,171-174,208-211`,
`h2_matches_strcmp.cpp:13-16`, `h2_matches_strcmp.hpp:46,56`,
`h2_matcher_customize.hpp:13`, `h2_matches_container.hpp:51-54,79-84,127-130,181-188,228-231`. -/
def expect : Mx → C → Line
  | .plain z, _ => number z
  | .str s, _ => quoted s
  | .eq z, c => eqText c z
  | .se s, c => seText c s
  | .find k s, c => callText c k.name (quoted s)
  | .ord o z, c => pre { c with ci := false } ['!'] ++ (if c.bare then [[]] else [sign o]) ++ number z
  | .any, c => if c.neg then ["!Any".toList] else ["Any".toList]
  | .flag e, c => if (if e then c.neg else !c.neg) then ["false".toList] else ["true".toList]
  | .user w zs, c => callText c w (argsText zs)
  | .not m, c => expect m { c with neg := !c.neg }
  | .bang m, c => expect m { c with neg := !c.neg }
  | .caseless m, c => operand m { c with ci := true } (expect m { c with ci := true })
  | .spaceless m, c => operand m { c with sq := true } (expect m { c with sq := true })
  | .cond b t f, c => if b then expect t c else expect f c
  | .and l r, c => andText c (operand l { c with neg := false } (expect l { c with neg := false })) (operand r { c with neg := false } (expect r { c with neg := false }))
  | .or l r, c => orText c (operand l { c with neg := false } (expect l { c with neg := false })) (operand r { c with neg := false } (expect r { c with neg := false }))
  | .allOf ms, c => callText { c with ci := false } "AllOf".toList (list ms { c with neg := false })
  | .anyOf ms, c => callText { c with ci := false } "AnyOf".toList (list ms { c with neg := false })
  | .noneOf ms, c => callText { c with ci := false } "NoneOf".toList (list ms { c with neg := false })
  | .every m, c => callText { c with ci := false } "Every".toList (expect m { c with ci := false, neg := false })
  | .has m, c => callText { c with ci := false } "Has".toList (expect m { c with ci := false, neg := false })
  | .countOf m, c => callText { c with ci := false } "CountOf".toList (expect m { c with ci := false, neg := false })
  | .listOf ms, c => pre { c with ci := false } ['!'] ++ gray ['['] ++ list ms { c with neg := false } ++ gray [']']
  | .pair k v, c => pre { c with ci := false } ['!'] ++ gray ['('] ++ expect k c ++ gray ", ".toList ++ expect v c ++ gray [')']
  | .hasPair k v, c => callText { c with ci := false } "Has".toList (expect k { c with neg := false } ++ [", ".toList] ++ expect v { c with neg := false })
  | .hasKey k, c => callText { c with ci := false } "HasKey".toList (expect k { c with neg := false })
  | .hasValue v, c => callText { c with ci := false } "HasValue".toList (expect v { c with neg := false })
  | .everyPair k v, c => callText { c with ci := false } "Every".toList (expect k c ++ gray ", ".toList ++ expect v c)
/-- `h2_matcher_tuple::expection`, `/repo/source/matcher/h2_matches_container.hpp:17-24`; the comma stands
before each but the first. -/
def list : Ms → C → Line
  | .nil, _ => []
  | .cons m ms, c => expect m c ++ tail ms c
/-- The rest of them. -/
def tail : Ms → C → Line
  | .nil, _ => []
  | .cons m ms, c => gray ", ".toList ++ expect m c ++ tail ms c
end

/-- The expectation in the failure that `m.matches(a, c)` returns: `Not`, `!`, `CaseLess`, `SpaceLess` and `Conditional` hand
over to the matcher inside, a number or a text has become an `h2_equation` there,
`/repo/source/matcher/h2_matches_logic.hpp:6-10,26-30`, `h2_matches_strcmp.hpp:40-58`, `h2_matcher_cast.hpp:3-21`; every other
matcher makes the failure itself, of its own `expection`. -/
def failure : Mx → C → Line
  | .plain z, c => eqText c z
  | .str s, c => seText c s
  | .not m, c => failure m { c with neg := !c.neg }
  | .bang m, c => failure m { c with neg := !c.neg }
  | .caseless m, c => failure m { c with ci := true }
  | .spaceless m, c => failure m { c with sq := true }
  | .cond b t f, c => if b then failure t c else failure f c
  | m, c => expect m c

/-- The text of the failure of `OK(m, a)` without colours. -/
def text (m : Mx) : Word := Message.string (failure m {})

end H2.Expect
