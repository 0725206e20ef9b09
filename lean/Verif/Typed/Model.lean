/-
Model of the matchers of numbers with the C++ types of the numbers: which conversions the
templates of the library make before they compare.

An LP64 machine with a signed `char` is modelled.  Floating values are a rational number, an
infinity or NaN; `rnd k q` is the value of floating type `k` that the rational `q` is converted
to, a parameter, so that nothing depends on how it rounds.  `long double` subtraction is exact.
-/
namespace H2.Typed

/-- Widths of the integer types of C++ in bits: `char`, `short`, `int`, `long` (and `long long`). -/
inductive Width where
  | w8 | w16 | w32 | w64
deriving DecidableEq, Repr

/-- Number of bits. -/
def Width.bits : Width → Nat
  | .w8 => 8 | .w16 => 16 | .w32 => 32 | .w64 => 64

/-- Integer types: `bool` and the signed and unsigned types of each width.  (`long` and
`long long` are one type here.)  Enumerations are their underlying types:
`/repo/source/utils/h2_template.hpp:13-20`. -/
inductive ITy where
  | bool
  | num (signed : Bool) (w : Width)
deriving DecidableEq, Repr

/-- `float`, `double`, `long double`. -/
inductive FTy where
  | f32 | f64 | f80
deriving DecidableEq, Repr

/-- Arithmetic types. -/
inductive Ty where
  | int (t : ITy)
  | flt (k : FTy)
deriving DecidableEq, Repr

/-- A floating value. -/
inductive Fl where
  | fin (q : Rat)
  | inf (neg : Bool)
  | nan
deriving DecidableEq, Repr

/-- A value with its type. -/
inductive Val where
  | int (t : ITy) (z : Int)
  | flt (k : FTy) (x : Fl)
deriving DecidableEq, Repr

/-- The type of a value, as `decltype` has it. -/
def Val.ty : Val → Ty
  | .int t _ => .int t
  | .flt k _ => .flt k

/-- Conversion of an integer to an integer type other than `bool`: modulo 2ⁿ. -/
def wrap (signed : Bool) (w : Width) (z : Int) : Int :=
  if signed then (z + 2 ^ (w.bits - 1)) % 2 ^ w.bits - 2 ^ (w.bits - 1) else z % 2 ^ w.bits

/-- Conversion of an integer to an integer type; to `bool` it asks whether it is not zero. -/
def toITy : ITy → Int → Int
  | .bool, z => if z = 0 then 0 else 1
  | .num s w, z => wrap s w z

/-- Drop the fraction. -/
def trunc (q : Rat) : Int := if q < 0 then -(-q).floor else q.floor

/-- `!!x` of a floating value. -/
def Fl.truth : Fl → Bool
  | .fin q => decide (q ≠ 0)
  | _ => true

/-- Conversion of a floating value to an integer type: the fraction is dropped; undefined
(`none`) when the rest is not a value of the type. -/
def flToInt : ITy → Fl → Option Int
  | .bool, x => some (if x.truth then 1 else 0)
  | .num s w, .fin q => if wrap s w (trunc q) = trunc q then some (trunc q) else none
  | .num _ _, _ => none

/-- Conversion of a floating value to a floating type. -/
def flToFl (rnd : FTy → Rat → Fl) (k : FTy) : Fl → Fl
  | .fin q => rnd k q
  | x => x

/-- Conversion of a value to a type (`static_cast`, an implicit conversion, initialisation). -/
def convert (rnd : FTy → Rat → Fl) : Ty → Val → Option Val
  | .int t, .int _ z => some (.int t (toITy t z))
  | .int t, .flt _ x => (flToInt t x).map (.int t)
  | .flt k, .int _ z => some (.flt k (rnd k z))
  | .flt k, .flt k' x => some (.flt k (if k = k' then x else flToFl rnd k x))

/-- Integral promotion. -/
def promote : ITy → ITy
  | .bool | .num _ .w8 | .num _ .w16 => .num true .w32
  | t => t

/-- The type both operands of an operator are converted to, integers. -/
def commonI (s t : ITy) : ITy :=
  match promote s, promote t with
  | .num a .w32, .num b .w32 => .num (a && b) .w32
  | .num a .w64, .num b .w64 => .num (a && b) .w64
  | .num a .w64, _ => .num a .w64
  | _, .num b .w64 => .num b .w64
  | p, _ => p

/-- The larger of two floating types. -/
def FTy.max : FTy → FTy → FTy
  | .f80, _ | _, .f80 => .f80
  | .f64, _ | _, .f64 => .f64
  | .f32, .f32 => .f32

/-- The usual arithmetic conversions. -/
def common : Ty → Ty → Ty
  | .int s, .int t => .int (commonI s t)
  | .flt k, .flt l => .flt (k.max l)
  | .flt k, .int _ | .int _, .flt k => .flt k

/-- `a <= b` of floating values. -/
def Fl.le : Fl → Fl → Bool
  | .nan, _ | _, .nan => false
  | .inf true, _ | _, .inf false => true
  | .inf false, _ | _, .inf true => false
  | .fin p, .fin q => decide (p ≤ q)

/-- `a < b` of floating values. -/
def Fl.lt : Fl → Fl → Bool
  | .nan, _ | _, .nan => false
  | .inf true, .inf true | .inf false, .inf false => false
  | .inf true, _ | _, .inf false => true
  | .inf false, _ | _, .inf true => false
  | .fin p, .fin q => decide (p < q)

/-- `a - b` of floating values (exact). -/
def Fl.sub : Fl → Fl → Fl
  | .nan, _ | _, .nan => .nan
  | .inf a, .inf b => if a = b then .nan else .inf a
  | .inf a, .fin _ => .inf a
  | .fin _, .inf b => .inf (!b)
  | .fin p, .fin q => .fin (p - q)

/-- `std::fabs`. -/
def Fl.abs : Fl → Fl
  | .fin q => .fin (if q < 0 then -q else q)
  | .inf _ => .inf false
  | .nan => .nan

/-- `::floor`. -/
def Fl.floor : Fl → Fl
  | .fin q => .fin (q.floor : Int)
  | x => x

/-- `a == b` of floating values. -/
def Fl.eq (x y : Fl) : Bool := x.le y && y.le x

/-- `!!a` -/
def Val.truth : Val → Bool
  | .int _ z => decide (z ≠ 0)
  | .flt _ x => x.truth

/-- What becomes of evaluating something: a value; undefined behaviour; or the program does not
compile. -/
inductive Res (α : Type) where
  | is (v : α)
  | ub
  | ill
deriving DecidableEq, Repr

/-- Apply a function to the value, if there is one. -/
def Res.map {α β : Type} (f : α → β) : Res α → Res β
  | .is v => .is (f v)
  | .ub => .ub
  | .ill => .ill

/-- Go on with the value, if there is one. -/
def Res.bind {α β : Type} (r : Res α) (f : α → Res β) : Res β :=
  match r with
  | .is v => f v
  | .ub => .ub
  | .ill => .ill

/-- A conversion as a result. -/
def Res.ofOption {α : Type} : Option α → Res α
  | some v => .is v
  | none => .ub

/-- The four order relations. -/
inductive Ord where
  | ge | gt | le | lt
deriving DecidableEq, Repr

/-- The relation between integers. -/
def Ord.ints : Ord → Int → Int → Bool
  | .ge, x, y => decide (y ≤ x)
  | .gt, x, y => decide (y < x)
  | .le, x, y => decide (x ≤ y)
  | .lt, x, y => decide (x < y)

/-- The relation between floating values. -/
def Ord.fls : Ord → Fl → Fl → Bool
  | .ge, x, y => y.le x
  | .gt, x, y => y.lt x
  | .le, x, y => x.le y
  | .lt, x, y => x.lt y

/-- Two values of the same type compared. -/
def ordSame (o : Ord) : Val → Val → Res Bool
  | .int _ x, .int _ y => .is (o.ints x y)
  | .flt _ x, .flt _ y => .is (o.fls x y)
  | _, _ => .ill

/-- The C++ expression `a >= e`, `a > e`, `a <= e` or `a < e`: both operands are converted to the
common type, then compared. -/
def order (rnd : FTy → Rat → Fl) (o : Ord) (a e : Val) : Res Bool :=
  (Res.ofOption (convert rnd (common a.ty e.ty) a)).bind fun a' =>
    (Res.ofOption (convert rnd (common a.ty e.ty) e)).bind fun e' => ordSame o a' e'

/-- `h2_numberfy<std::uintptr_t>` of an integer, `/repo/source/utils/h2_numberfy.hpp:3-5`. -/
def numberfy (z : Int) : Int := wrap false .w64 z

/-- The value as `long double`. -/
def toLong (rnd : FTy → Rat → Fl) : Val → Fl
  | .int _ z => rnd .f80 z
  | .flt .f80 x => x
  | .flt _ x => flToFl rnd .f80 x

/-- `result` of `Equals(e)` for `a`, by the type of `e`: `h2_matches_bool` for a `bool`,
`/repo/source/matcher/h2_matches.hpp:56-71`; otherwise `h2_equation<E>` without a margin, with a
floating operand `/repo/source/matcher/h2_matches_equation.hpp:123-137`, without one
`/repo/source/matcher/h2_matches_equation.hpp:139-143`.  Which of them:
`/repo/source/matcher/h2_matches_equation.hpp:165-172`. -/
def equalsResult (rnd : FTy → Rat → Fl) (e a : Val) : Bool :=
  match e, a with
  | .int .bool e, a => if e ≠ 0 then a.truth else !a.truth
  | .int _ e, .int _ a => numberfy e == numberfy a
  | e, a => ((toLong rnd a).sub (toLong rnd e)).abs.le (.fin (1 / 100000))

/-- `C::fit`, `/repo/source/matcher/h2_matches.hpp:7`. -/
def fit (negative result : Bool) : Bool := result == !negative

/-- A matcher of numbers as it is written. -/
inductive Mx where
  /-- a number where a matcher is expected -/
  | plain (e : Val)
  /-- `Eq(e)` -/
  | equals (e : Val)
  /-- `Nq(e)` -/
  | nq (e : Val)
  /-- `Ge(e)`, `Gt(e)`, `Le(e)`, `Lt(e)` -/
  | ord (o : Ord) (e : Val)
  /-- `_` or `Any()` -/
  | any
  /-- `CastOf<D>(m)` -/
  | castOf (d : Ty) (m : Mx)
  /-- a variable of type `h2_matcher<U>`, made of `m` -/
  | held (u : Ty) (m : Mx)
  /-- `Not(m)` -/
  | not (m : Mx)
  /-- `!m` -/
  | bang (m : Mx)
  /-- `l && r` -/
  | and (l r : Mx)
  /-- `l || r` -/
  | or (l r : Mx)
  /-- a matcher of `H2MATCHER`, with the body that follows it -/
  | user (body : Val → Res Bool)

/-- Is it a matcher of the library (an `h2_polymorphic_matcher`)? -/
def Mx.poly : Mx → Bool
  | .plain _ | .held _ _ => false
  | _ => true

/-- A matcher of type `h2_matcher<U>`: the actual value is converted to `U`,
`/repo/source/matcher/h2_matcher_cast.hpp:23-37`.  A number is made one by the constructor
`h2_matcher<U>(U value)`, `/repo/source/matcher/h2_matcher.cpp:4-5`; `inner` applies any other
matcher. -/
def heldFits (rnd : FTy → Rat → Fl) (u : Ty) (m : Mx) (a : Val) (n : Bool) (inner : Val → Res Bool) : Res Bool :=
  (Res.ofOption (convert rnd u a)).bind fun a' =>
    match m with
    | .plain e => (Res.ofOption (convert rnd u e)).map fun e' => fit n (equalsResult rnd e' a')
    | _ => inner a'

/-- An operand of `&&` or `||`: a matcher stays as it is (`inner` is what it says), a number
becomes an `h2_matcher` of its own type, `/repo/source/matcher/h2_matches_logic.hpp:224-236`.
(A variable that is an `h2_matcher` is not modelled there.) -/
def side (rnd : FTy → Rat → Fl) (m : Mx) (a : Val) (inner : Res Bool) : Res Bool :=
  match m with
  | .plain e => heldFits rnd e.ty (.plain e) a false (fun _ => inner)
  | .held _ _ => .ill
  | _ => inner

/-- Does `m.matches(a, c)` find the value fitting (return no failure)?  `m` has been cast to
`h2_matcher<A>`, `A` the type of `a`.
* a number: `/repo/source/matcher/h2_matcher_cast.hpp:3-21`: a `bool` becomes `Equals(from)`; any
  other is first converted to `A` by the constructor `h2_matcher<A>(A value)`,
  `/repo/source/matcher/h2_matcher.cpp:4-5`
* `Nq`: `h2_not_matches<E>`, `/repo/source/matcher/h2_matches_inequation.hpp:69-70`,
  `/repo/source/matcher/h2_matches_logic.hpp:6-10`
* order: `/repo/source/matcher/h2_matches_inequation.hpp:6-60`
* any: `/repo/source/matcher/h2_matches.hpp:29-40`
* `CastOf`: `/repo/source/matcher/h2_matches_cast.hpp:6-10`
* `h2_matcher<U>`: `/repo/source/matcher/h2_matcher_cast.hpp:23-37`; a number becomes one by the
  constructor `h2_matcher<U>(U value)`
* `!m`: `/repo/source/matcher/h2_matcher.hpp:28-32,60,66`
* `&&`, `||`: `/repo/source/matcher/h2_matches_logic.hpp:41-54,76-92`
* user: `/repo/source/matcher/h2_matcher_customize.hpp:4-7` -/
def fits (rnd : FTy → Rat → Fl) : Mx → Val → Bool → Res Bool
  | .plain e, a, n =>
    if e.ty = .int .bool then .is (fit n (equalsResult rnd e a))
    else (Res.ofOption (convert rnd a.ty e)).map fun e' => fit n (equalsResult rnd e' a)
  | .equals e, a, n => .is (fit n (equalsResult rnd e a))
  | .nq e, a, n =>
    if e.ty = .int .bool then .is (fit (!n) (equalsResult rnd e a))
    else (Res.ofOption (convert rnd a.ty e)).map fun e' => fit (!n) (equalsResult rnd e' a)
  | .ord o e, a, n => (order rnd o a e).map (fit n)
  | .any, _, n => .is (fit n true)
  | .castOf d m, a, n => (Res.ofOption (convert rnd d a)).bind fun a' => fits rnd m a' n
  | .held u m, a, n => heldFits rnd u m a n (fun a' => fits rnd m a' n)
  | .not m, a, n => fits rnd m a (!n)
  | .bang m, a, n => if m.poly then fits rnd m a (!n) else .ill
  | .and l r, a, n =>
    if l.poly || r.poly then
      (side rnd l a (fits rnd l a false)).bind fun x =>
        (side rnd r a (fits rnd r a false)).map fun y => fit n (x && y)
    else .ill
  | .or l r, a, n =>
    if l.poly || r.poly then
      (side rnd l a (fits rnd l a false)).bind fun x =>
        (side rnd r a (fits rnd r a false)).map fun y => fit n (x || y)
    else .ill
  | .user body, a, n => (body a).map (fit n)
/-- `OK(m, a)`: it passes when `matches` returns no failure,
`/repo/source/assert/h2_assert.hpp:27-32`. -/
def ok (rnd : FTy → Rat → Fl) (m : Mx) (a : Val) : Res Bool := fits rnd m a false

/-- `KO(m, a)`: it passes when there is a failure, `/repo/source/assert/h2_assert.cpp:36-41`. -/
def ko (rnd : FTy → Rat → Fl) (m : Mx) (a : Val) : Res Bool := (fits rnd m a false).map (!·)

/-- A comparison written inside `OK`. -/
inductive Cmp where
  | eq | ne | gt | lt | ge | le
deriving DecidableEq, Repr

/-- The matcher made of the left operand, `/repo/source/assert/h2_assert.hpp:49-65`. -/
def cmpMatcher : Cmp → Val → Mx
  | .eq, l => .equals l
  | .ne, l => .nq l
  | .gt, l => .ord .lt l
  | .lt, l => .ord .gt l
  | .ge, l => .ord .le l
  | .le, l => .ord .ge l

/-- `OK(l op r)`, `/repo/source/assert/h2_assert.hpp:73-78`. -/
def okCmp (rnd : FTy → Rat → Fl) (c : Cmp) (l r : Val) : Res Bool := fits rnd (cmpMatcher c l) r false

/-- `OK(x)`, `/repo/source/assert/h2_assert.hpp:80-86`. -/
def ok1 (x : Val) : Bool := x.truth

/-! ### The matchers of `h2_matcher_aux.hpp` -/

/-- The C++ expression `a % e`, for integers: the remainder has the sign of the dividend;
dividing by zero, or the least value by −1, is undefined.  It does not compile for floating
operands. -/
def rem (a e : Val) : Res (ITy × Int) :=
  match a, e with
  | .int s x, .int t y =>
    let c := commonI s t
    let x' := toITy c x
    let y' := toITy c y
    if y' = 0 then .ub
    else if y' = -1 ∧ toITy c (-x') ≠ -x' then .ub
    else .is (c, x'.tmod y')
  | _, _ => .ill

/-- `H2MATCHER(IsEven) { return a % 2 == 0; }`, `/repo/source/matcher/h2_matcher_aux.hpp:15`. -/
def isEven : Mx := .user fun a => (rem a (.int (.num true .w32) 2)).map fun r => r.2 == 0

/-- `H2MATCHER(IsOdd) { return a % 2 != 0; }`, `/repo/source/matcher/h2_matcher_aux.hpp:16`. -/
def isOdd : Mx := .user fun a => (rem a (.int (.num true .w32) 2)).map fun r => r.2 != 0

/-- `H2MATCHER(IsDivable, expect) { return a % expect == 0; }`,
`/repo/source/matcher/h2_matcher_aux.hpp:17`. -/
def isDivable (e : Val) : Mx := .user fun a => (rem a e).map fun r => r.2 == 0

/-- `H2MATCHER(IsInteger) { return ::floor(a) == a; }`, `/repo/source/matcher/h2_matcher_aux.hpp:18`;
`::floor` of an integer is that of the `double` it is converted to. -/
def isInteger (rnd : FTy → Rat → Fl) : Mx := .user fun a =>
  match a with
  | .int _ z => .is ((rnd .f64 z).floor.eq (rnd .f64 z))
  | .flt _ x => .is (x.floor.eq x)

/-- `H2MATCHER(IsNaN) { return std::isnan(a); }`, `/repo/source/matcher/h2_matcher_aux.hpp:19`. -/
def isNaN (rnd : FTy → Rat → Fl) : Mx := .user fun a =>
  match a with
  | .int _ z => .is (rnd .f64 z == .nan)
  | .flt _ x => .is (x == .nan)

end H2.Typed
