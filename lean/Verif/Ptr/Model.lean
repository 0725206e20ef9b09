import Verif.Typed.Model
import Verif.Str.Model
/-
Model of what comparing texts, pointers and integers with one another decides: which of the
overloads and conversions of the templates is taken for which types.

Modelled types: `std::nullptr_t`; `const char*` (`char*` and arrays of `char` decay to it,
`/repo/source/utils/h2_template.hpp:13-20`); `std::string`; pointers to other types, none of them
`const`, `void*` among them; `std::shared_ptr`; the integer types.  Texts here may contain NUL,
unlike elsewhere.  An address is a number, that of a null pointer is 0.
-/
namespace H2.Ptr
open H2.Typed (ITy Res Ord fit toITy numberfy commonI Cmp)
open H2.Str (Kind)

/-- A value with its type. -/
inductive Val where
  /-- `nullptr` -/
  | nil
  /-- a `const char*`: the address, and the text there up to the first NUL -/
  | chars (p : Nat) (t : List Char)
  /-- a `std::string` -/
  | str (s : List Char)
  /-- a pointer to type number `k`, or a `void*` (`none`) -/
  | ptr (k : Option Nat) (p : Nat)
  /-- a `std::shared_ptr` to type number `k` -/
  | smart (k : Nat) (p : Nat)
  /-- an integer -/
  | int (t : ITy) (z : Int)
deriving DecidableEq, Repr

/-- `assign(fmt ? fmt : "(null)")`, `/repo/source/utils/h2_string.hpp:6`. -/
def nullText : List Char := "(null)".toList

/-- The constructors of `h2_string` with one argument, `/repo/source/utils/h2_string.hpp:3-6`:
`nullptr` is taken for a `const char*`; no other type is convertible to `h2_string`. -/
def toText : Val → Res (List Char)
  | .nil => .is nullText
  | .chars p t => .is (if p = 0 then nullText else t)
  | .str s => .is s
  | _ => .ill

/-- `(void*)a`. -/
def toAddr : Val → Res Int
  | .nil => .is 0
  | .chars p _ => .is p
  | .ptr _ p => .is p
  | .int _ z => .is (numberfy z)
  | _ => .ill

/-- `h2_numberfy<std::uintptr_t>(a)`, `/repo/source/utils/h2_numberfy.hpp:2-34`. -/
def toNumber : Val → Res Int
  | .nil => .is 0
  | .chars p _ => .is p
  | .ptr _ p => .is p
  | .smart _ p => .is p
  | .int _ z => .is (numberfy z)
  | .str _ => .ill

/-- `result` of `h2_matches_null`, `/repo/source/matcher/h2_matches.hpp:41-55`. -/
def isNull : Val → Bool
  | .nil => true
  | .chars p _ | .ptr _ p | .smart _ p => p == 0
  | .int _ z => z == 0
  | .str _ => false

/-- `!!a`; a `std::string` has no truth. -/
def truth : Val → Res Bool
  | .str _ => .ill
  | a => .is (!isNull a)

/-- `substr(a, b - a + 1).c_str()` assigned to a string ends at the first NUL,
`/repo/source/utils/h2_string.cpp:107`. -/
def cut (s : List Char) : List Char := s.takeWhile (· ≠ '\x00')

/-- `squash`, `/repo/source/utils/h2_string.cpp:102-124`, of a text that may contain NUL. -/
def squash (s : List Char) : List Char := Str.squashLoop false (cut (Str.trim s)) false false 0

/-- Text as the configuration has it: squashed or not. -/
def dress (squashed : Bool) (s : List Char) : List Char := if squashed then squash s else s

/-- What of the configuration `C` matters here: `negative`, `case_insensitive`,
`squash_whitespace`, `/repo/source/matcher/h2_matches.hpp:1-7`. -/
structure Cfg where
  neg : Bool := false
  caseless : Bool := false
  squashed : Bool := false
deriving DecidableEq, Repr

/-- `h2_equation` of a text, `/repo/source/matcher/h2_matches_equation.hpp:46-53`. -/
def textEquals (c : Cfg) (e a : List Char) : Bool :=
  fit c.neg (Str.equals (dress c.squashed a) (dress c.squashed e) c.caseless)

/-- `h2_equation<const char*>`, `/repo/source/matcher/h2_matches_equation.hpp:66-79`: texts when the
actual value is convertible to one, addresses otherwise. -/
def charsEquals (c : Cfg) (p : Nat) (t : List Char) (a : Val) : Res Bool :=
  match toText a with
  | .is x => .is (if p = 0 then fit c.neg (isNull a) else textEquals c t x)
  | _ => (toAddr a).map fun x => if p = 0 then fit c.neg (isNull a) else fit c.neg (x == (p : Int))

/-- `h2_equation` of a pointer, `/repo/source/matcher/h2_matches_equation.hpp:28-34`. -/
def ptrEquals (c : Cfg) (p : Nat) (a : Val) : Res Bool :=
  (toAddr a).map fun x => if p = 0 then fit c.neg (isNull a) else fit c.neg (x == (p : Int))

/-- `a == e` of a `std::shared_ptr` `e`, `/repo/source/matcher/h2_matches_equation.hpp:22-27`; with a
raw pointer `/repo/source/matcher/h2_matches_equation.hpp:28-34` is taken, which does not compile. -/
def smartEquals (c : Cfg) (k p : Nat) (a : Val) : Res Bool :=
  match a with
  | .nil => .is (fit c.neg (p == 0))
  | .smart j q => if j = k then .is (fit c.neg (q == p)) else .ill
  | _ => .ill

/-- `Equals(e)` applied to `a`, `/repo/source/matcher/h2_matches_equation.hpp:165-172`:
`h2_matches_null`, `/repo/source/matcher/h2_matches.hpp:41-55`; `h2_matches_bool`,
`/repo/source/matcher/h2_matches.hpp:62-71`; integers,
`/repo/source/matcher/h2_matches_equation.hpp:139-147`; the others as above. -/
def equals (c : Cfg) (e a : Val) : Res Bool :=
  match e with
  | .nil => .is (fit c.neg (isNull a))
  | .int .bool z => (truth a).map fun t => fit c.neg (if z ≠ 0 then t else !t)
  | .int _ z => (toNumber a).map fun x => fit c.neg (numberfy z == x)
  | .chars p t => charsEquals c p t a
  | .str s => (toText a).map fun x => textEquals c s x
  | .ptr _ p => ptrEquals c p a
  | .smart k p => smartEquals c k p a

/-- What becomes of a value `e` in `h2_matcher_cast<A>(e)` for an actual value `a`,
`/repo/source/matcher/h2_matcher_cast.hpp:3-21`: `nullptr` and `bool` stay; what converts to the type
of `a` by a standard conversion is converted by the constructor `h2_matcher<A>(A value)`,
`/repo/source/matcher/h2_matcher.cpp:4-5` (integers to integers, `T*` to `void*`, pointers to
`bool`); a `const char*` becomes a `std::string`, undefined for a null pointer; anything else stays. -/
def become (e a : Val) : Res Val :=
  match e, a with
  | .int .bool z, _ => .is (.int .bool z)
  | .int _ z, .int t _ => .is (.int t (toITy t z))
  | .ptr _ p, .ptr none _ => .is (.ptr none p)
  | .ptr _ p, .int .bool _ => .is (.int .bool (if p = 0 then 0 else 1))
  | .chars p _, .int .bool _ => .is (.int .bool (if p = 0 then 0 else 1))
  | .chars p t, .str _ => if p = 0 then .ub else .is (.str t)
  | e, _ => .is e

/-- A value where a matcher is expected. -/
def plain (c : Cfg) (e a : Val) : Res Bool := (become e a).bind fun e' => equals c e' a

/-- `<` of texts, lexicographic. -/
def textLt : List Char → List Char → Bool
  | [], [] => false
  | [], _ :: _ => true
  | _ :: _, [] => false
  | x :: s, y :: t => if x = y then textLt s t else decide (x.val < y.val)

/-- The four order relations of texts. -/
def ordTexts : Ord → List Char → List Char → Bool
  | .ge, x, y => !textLt x y
  | .gt, x, y => textLt y x
  | .le, x, y => !textLt y x
  | .lt, x, y => textLt x y

/-- A `const char*` beside a `std::string`: undefined if null. -/
def textOf : Val → Res (List Char)
  | .chars p t => if p = 0 then .ub else .is t
  | .str s => .is s
  | _ => .ill

/-- Can two pointers be compared by `<`?  They have the same type or one is `void*`. -/
def comparable : Val → Val → Bool
  | .ptr j _, .ptr k _ => j == k || j == none || k == none
  | .ptr j _, .chars _ _ => j == none
  | .chars _ _, .ptr k _ => k == none
  | _, _ => false

/-- The C++ expression `a >= e` (or the like) in `Ge(e)`, `Gt(e)`, `Le(e)`, `Lt(e)`,
`/repo/source/matcher/h2_matches_inequation.hpp:6-60`: addresses for two pointers, whatever they
point to; texts if one is a `std::string`. -/
def order (o : Ord) (a e : Val) : Res Bool :=
  match a, e with
  | .int s x, .int t y => .is (o.ints (toITy (commonI s t) x) (toITy (commonI s t) y))
  | .chars p _, .chars q _ => .is (o.ints p q)
  | .smart j p, .smart k q => if j = k then .is (o.ints p q) else .ill
  | .smart _ p, .nil => .is (o.ints p 0)
  | .nil, .smart _ q => .is (o.ints 0 q)
  | .str s, e => (textOf e).map fun t => ordTexts o s t
  | a, .str t => (textOf a).map fun s => ordTexts o s t
  | a, e => if comparable a e then (toAddr a).bind fun p => (toAddr e).map fun q => o.ints p q else .ill

/-- `result` of `Se`, `Substr`, `StartsWith` and `EndsWith`: `Se` squashes both texts, the others
only the actual one, `/repo/source/matcher/h2_matches_strcmp.cpp:1-7,34-56`. -/
def kindTest (k : Kind) (c : Cfg) (e a : List Char) : Bool :=
  match k with
  | .se => Str.equals (dress c.squashed a) (dress c.squashed e) c.caseless
  | .substr => Str.contains (dress c.squashed a) e c.caseless
  | .startsWith => Str.startswith (dress c.squashed a) e c.caseless
  | .endsWith => Str.endswith (dress c.squashed a) e c.caseless

/-- A matcher of texts: both operands become an `h2_string`,
`/repo/source/matcher/h2_matches_strcmp.hpp:1-38,59-65`. -/
def kind (k : Kind) (c : Cfg) (e a : Val) : Res Bool :=
  (toText e).bind fun t => (toText a).map fun s => fit c.neg (kindTest k c t s)

/-- A matcher as it is written. -/
inductive Mx where
  /-- a value where a matcher is expected -/
  | plain (e : Val)
  /-- `Eq(e)` -/
  | equals (e : Val)
  /-- `Nq(e)` -/
  | nq (e : Val)
  /-- `Ge(e)`, `Gt(e)`, `Le(e)`, `Lt(e)` -/
  | ord (o : Ord) (e : Val)
  /-- `Se(e)`, `Substr(e)`, `StartsWith(e)`, `EndsWith(e)` -/
  | kind (k : Kind) (e : Val)
  /-- `CaseLess(m)` of one of the last; `CaseLess(e)` is `CaseLess(Se(e))` -/
  | caseLess (k : Kind) (e : Val)
  /-- `SpaceLess(m)` likewise -/
  | spaceLess (k : Kind) (e : Val)
  /-- `Not(m)` -/
  | not (m : Mx)
  /-- `!m` -/
  | bang (m : Mx)
  /-- `~m` -/
  | tilde (m : Mx)
  /-- `*m` -/
  | star (m : Mx)
deriving DecidableEq, Repr

/-- Is it a matcher of the library (an `h2_polymorphic_matcher`)? -/
def Mx.poly : Mx → Bool
  | .plain _ => false
  | _ => true

/-- Does `m.matches(a, c)` return no failure?  `Nq` and `Not`:
`/repo/source/matcher/h2_matches_logic.hpp:6-10`, `/repo/source/matcher/h2_matches_inequation.hpp:69-70`;
`!`, `~`, `*`: `/repo/source/matcher/h2_matcher.hpp:28-42,60,66`; `CaseLess` and `SpaceLess`:
`/repo/source/matcher/h2_matches_strcmp.hpp:40-57,67-70`. -/
def fits : Mx → Val → Cfg → Res Bool
  | .plain e, a, c => Ptr.plain c e a
  | .equals e, a, c => Ptr.equals c e a
  | .nq e, a, c => Ptr.plain { c with neg := !c.neg } e a
  | .ord o e, a, c => (order o a e).map (fit c.neg)
  | .kind k e, a, c => Ptr.kind k c e a
  | .caseLess k e, a, c => Ptr.kind k { c with caseless := true } e a
  | .spaceLess k e, a, c => Ptr.kind k { c with squashed := true } e a
  | .not m, a, c => fits m a { c with neg := !c.neg }
  | .bang m, a, c => if m.poly then fits m a { c with neg := !c.neg } else .ill
  | .tilde m, a, c => if m.poly then fits m a { c with caseless := true } else .ill
  | .star m, a, c => if m.poly then fits m a { c with squashed := true } else .ill

/-- `OK(m, a)`, `/repo/source/assert/h2_assert.hpp:27-40`. -/
def ok (m : Mx) (a : Val) : Res Bool := fits m a {}

/-- `KO(m, a)`, `/repo/source/assert/h2_assert.cpp:36-41`. -/
def ko (m : Mx) (a : Val) : Res Bool := (fits m a {}).map (!·)

/-- The matcher made of the left operand of a comparison, `/repo/source/assert/h2_assert.hpp:49-65`. -/
def cmpMatcher : Cmp → Val → Mx
  | .eq, l => .equals l
  | .ne, l => .nq l
  | .gt, l => .ord .lt l
  | .lt, l => .ord .gt l
  | .ge, l => .ord .le l
  | .le, l => .ord .ge l

/-- `OK(l op r)`, `/repo/source/assert/h2_assert.hpp:73-78`. -/
def okCmp (c : Cmp) (l r : Val) : Res Bool := fits (cmpMatcher c l) r {}

end H2.Ptr
