import Verif.Matcher.Model
import Verif.Message.Model
/-
The text of the container matchers with the amount `* n` and the range `(start, end)` or `/ end` that a user
puts behind them; what these matchers accept is modelled in `Verif/Matcher/Model.lean`.  `Has(m)` here is that of containers
other than maps; the product of amounts is an unbounded integer.
-/
namespace H2.Times
open H2.Layout (Word Line)
open H2.Message (gray decimal)
open H2.Matcher (M Val Cfg)

/-- The container matchers of one argument, `/repo/source/matcher/h2_matches_container.hpp:312-330`. -/
inductive Kind where
  | has
  | hasKey
  | hasValue
  | every
  | countOf
  deriving DecidableEq, Repr

/-- `Ge`, `Gt`, `Le`, `Lt`, `/repo/source/matcher/h2_matches_inequation.hpp:71-78`. -/
inductive Ord where
  | ge
  | gt
  | le
  | lt
  deriving DecidableEq, Repr

/-- A matcher as it is written: an integer, an order relation to one, or a container matcher with the marks behind it. -/
inductive Mx where
  | num (z : Int)
  /-- `Ge(z)` and the like; `!` before it (`bang`) -/
  | ord (o : Ord) (bang : Bool) (z : Int)
  /-- `K(m)`; `!` before it (`bang`), `* times` behind it (1 if there is none), and `(start, end)` or `/ end`. -/
  | node (kind : Kind) (bang : Bool) (times : Int) (range : Option (Int × Int)) (m : Mx)
  /-- `Has(k, v)` with the same marks -/
  | both (bang : Bool) (times : Int) (range : Option (Int × Int)) (k v : Mx)
  /-- `Every(k, v)` with the same marks but for `!` (C89 has what is wrong with it) -/
  | all (times : Int) (range : Option (Int × Int)) (k v : Mx)
  deriving DecidableEq, Repr

/-- `_`, `/repo/source/matcher/h2_matches.hpp:28-40`. -/
def anyM : M := .poly {} (.leaf fun _ _ _ => true)

/-- `h2_equation` of an integer, `/repo/source/matcher/h2_matches_equation.hpp:139-143`; the comparison is exact here. -/
def same (z : Int) : Val → Bool
  | .num q => q == z
  | .str _ => false
  | .seq _ => false
  | .pair _ _ => false

/-- The functions `matches` of `/repo/source/matcher/h2_matches_inequation.hpp:6-60`; the comparison is exact here. -/
def Ord.test : Ord → Int → Val → Bool
  | .ge, z, .num q => decide (q ≥ z)
  | .gt, z, .num q => decide (q > z)
  | .le, z, .num q => decide (q ≤ z)
  | .lt, z, .num q => decide (q < z)
  | _, _, .str _ => false
  | _, _, .seq _ => false
  | _, _, .pair _ _ => false

/-- `h2_polymorphic_matcher` with `!`, `* n` and a range, `/repo/source/matcher/h2_matcher.hpp:26-59`. -/
def marks (bang : Bool) (times : Int) : Option (Int × Int) → Cfg
  | none => { negative := bang, times := times }
  | some (s, e) => { negative := bang, times := times, rangeStart := s, rangeEnd := e }

/-- The matcher objects: `Has`, `HasKey`, `HasValue`, `Every`, `CountOf`,
`/repo/source/matcher/h2_matches_container.hpp:174-180,312-330`. -/
def inner : Kind → M → M
  | .has, m => .has {} false m
  | .hasKey, m => .has { first := 0, second := 5413722 } false (.poly {} (.pair m anyM))
  | .hasValue, m => .has { first := 0, second := 5413722 } false (.poly {} (.pair anyM m))
  | .every, m => .every {} m
  | .countOf, m => .stat .count { first := 0, second := 5413722 } m

/-- The matcher object of what is written; `Has(k, v)` is `Has(Pair(k, v))`, and so it is with `Every`,
`/repo/source/matcher/h2_matches_container.hpp:122-126,174-179,314-315,326-327`. -/
def build : Mx → M
  | .num z => .leaf fun _ _ a => same z a
  | .ord o b z => .poly { negative := b } (.leaf fun _ _ a => o.test z a)
  | .node k b n r m => .poly (marks b n r) (inner k (build m))
  | .both b n r k v => .poly (marks b n r) (.has { first := 0, second := 5413722 } false (.poly {} (.pair (build k) (build v))))
  | .all n r k v => .poly (marks false n r) (.every {} (.poly {} (.pair (build k) (build v))))

/-- `OK(m, a)`. -/
def ok (m : Mx) (a : Val) : Bool := Matcher.okPasses (build m) a

/-- The name in the text, `/repo/source/matcher/h2_matches_container.hpp:119,171,181-188,246,318-319`. -/
def Kind.name : Kind → Word
  | .has => ['H', 'a', 's']
  | .hasKey => ['H', 'a', 's', 'K', 'e', 'y']
  | .hasValue => ['H', 'a', 's', 'V', 'a', 'l', 'u', 'e']
  | .every => ['E', 'v', 'e', 'r', 'y']
  | .countOf => ['C', 'o', 'u', 'n', 't', 'O', 'f']

/-- The sign, `/repo/source/matcher/h2_matches_inequation.hpp:12-14,29-31,46-48,63-65`. -/
def Ord.sign : Ord → Word
  | .ge => ['≥']
  | .gt => ['>']
  | .le => ['≤']
  | .lt => ['<']

/-- `C::pre` without `~` and `*`, `/repo/source/matcher/h2_matches.hpp:13-20`. -/
def pre (bang : Bool) : Line := if bang then [['!']] else []

/-- `C::post`, `/repo/source/matcher/h2_matches.hpp:21`. -/
def post (times : Int) : Line := if times = 1 then [] else [[' ', '*', ' '], decimal times]

/-- `h2_matches_expection(m, c)` where `c.times` is `t`: the functions `expection` of
`/repo/source/matcher/h2_matches_container.hpp:79-84,127-130,181-188`, `h2_matches_inequation.hpp:12-14`, and `H2_MATCHES_CONFIGURE`,
`/repo/source/matcher/h2_matcher.hpp:60,69`.  The range is handed on too, but no text looks at it. -/
def expect : Mx → Int → Line
  | .num z, _ => [decimal z]
  | .ord o b z, _ => pre b ++ [o.sign] ++ [decimal z]
  | .node k b n _ m, t => pre b ++ [k.name] ++ gray ['('] ++ expect m (t * n) ++ gray [')'] ++ post (t * n)
  | .both b n _ k v, t =>
      pre b ++ [Kind.has.name] ++ gray ['('] ++ (expect k (t * n) ++ [[',', ' ']] ++ expect v (t * n)) ++ gray [')'] ++ post (t * n)
  | .all n _ k v, t =>
      [Kind.every.name] ++ gray ['('] ++ expect k (t * n) ++ gray [',', ' '] ++ expect v (t * n) ++ gray [')']

/-- The text in the failure of `OK(m, a)`, colours taken away; a number alone is an `h2_equation`, whose text is the number. -/
def text (m : Mx) : Word := Message.string (expect m 1)

end H2.Times
