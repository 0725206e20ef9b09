import Verif.Json.Expr
/-
Specification of the arithmetic in JSON values: how expressions are written, and what they mean.
-/
namespace H2.Json.Expr
open H2.Json

/-- Expressions. -/
inductive Ex where
  | num (q : Rat)
  | add (a b : Ex) | sub (a b : Ex)
  | mul (a b : Ex) | div (a b : Ex) | mod (a b : Ex)
  | pow (a b : Ex)
  | neg (a : Ex)
  | fac (a : Ex)
  /-- a function of the table applied to its arguments -/
  | app (f : CFn) (args : List Ex)
  /-- `a, b` -/
  | seq (a b : Ex)

mutual
/-- The value of an expression. -/
def Ex.value (m : Machine) : Ex → Dbl
  | .num q => m.fl q
  | .add a b => m.apply .add [a.value m, b.value m]
  | .sub a b => m.apply .sub [a.value m, b.value m]
  | .mul a b => m.apply .mul [a.value m, b.value m]
  | .div a b => m.apply .div [a.value m, b.value m]
  | .mod a b => m.apply .fmod [a.value m, b.value m]
  | .pow a b => m.apply .pow [a.value m, b.value m]
  | .neg a => m.apply .negate [a.value m]
  | .fac a => m.apply .factorial [a.value m]
  | .app f as => m.apply f (values m as)
  | .seq a b => m.apply .comma [a.value m, b.value m]
def values (m : Machine) : List Ex → List Dbl
  | [] => []
  | a :: as => a.value m :: values m as
end

/-- The named functions: name, number of arguments, meaning. -/
def documented : List (String × Nat × CFn) := [
  ("pi", 0, .pi), ("e", 0, .e), ("nan", 0, .nan), ("inf", 0, .inf),
  ("negate", 1, .negate), ("factorial", 1, .factorial), ("abs", 1, .fabs), ("sqrt", 1, .sqrt),
  ("ln", 1, .log), ("log", 1, .log), ("log10", 1, .log10), ("log2", 1, .log2),
  ("floor", 1, .floor), ("ceil", 1, .ceil), ("exp", 1, .exp),
  ("cos", 1, .cos), ("acos", 1, .acos), ("cosh", 1, .cosh),
  ("sin", 1, .sin), ("asin", 1, .asin), ("sinh", 1, .sinh),
  ("tan", 1, .tan), ("atan", 1, .atan), ("tanh", 1, .tanh),
  ("C", 2, .cnm), ("P", 2, .pnm), ("A", 2, .pnm), ("fmod", 2, .fmod), ("pow", 2, .pow), ("atan2", 2, .atan2),
  ("comma", 2, .comma)]

/-- Symbols an expression is written with. -/
inductive Sym where
  | num (q : Rat)
  | name (arity : Nat) (f : CFn)
  | plus | minus | times | slash | percent | caret | bang | lparen | rparen | comma
deriving DecidableEq

/-- The levels of the grammar, from what binds most. -/
inductive Level where
  | atom | postfix | prefix | signed | powers | products | sums | sequence | arguments
deriving DecidableEq

/-- Minus signs are odd in number. -/
def odd (signs : List Sym) : Bool := signs.count .minus % 2 == 1

/-- The grammar.  `Writes l ss es`: at level `l` the symbols `ss` write the expression (at level
`arguments`: the expressions) `es`. -/
inductive Writes : Level → List Sym → List Ex → Prop
  | num (q) : Writes .atom [.num q] [.num q]
  | paren {ss e} : Writes .sequence ss [e] → Writes .atom (.lparen :: ss ++ [.rparen]) [e]
  | constant (f) : Writes .atom [.name 0 f] [.app f []]
  | constant' (f) : Writes .atom [.name 0 f, .lparen, .rparen] [.app f []]
  | apply {ss es} (k f) : 2 ≤ k → k ≤ 4 → Writes .arguments ss es → es.length = k →
      Writes .atom (.name k f :: .lparen :: ss ++ [.rparen]) [.app f es]
  | atom {ss e} : Writes .atom ss [e] → Writes .postfix ss [e]
  /-- `!` binds most -/
  | fac {ss e} : Writes .postfix ss [e] → Writes .postfix (ss ++ [.bang]) [.fac e]
  | postfix {ss e} : Writes .postfix ss [e] → Writes .prefix ss [e]
  /-- a function of one argument needs no parentheses; it takes `!` and signs with it -/
  | apply1 {ss e} (f) : Writes .signed ss [e] → Writes .prefix (.name 1 f :: ss) [.app f [e]]
  | signed {signs ss e} : (∀ s ∈ signs, s = .plus ∨ s = .minus) → Writes .prefix ss [e] →
      Writes .signed (signs ++ ss) [if odd signs then .neg e else e]
  | power {ss e} : Writes .signed ss [e] → Writes .powers ss [e]
  /-- `^` binds from the left, after signs -/
  | caret {ss tt a b} : Writes .powers ss [a] → Writes .signed tt [b] → Writes .powers (ss ++ .caret :: tt) [.pow a b]
  | product {ss e} : Writes .powers ss [e] → Writes .products ss [e]
  | times {ss tt a b} : Writes .products ss [a] → Writes .powers tt [b] → Writes .products (ss ++ .times :: tt) [.mul a b]
  | slash {ss tt a b} : Writes .products ss [a] → Writes .powers tt [b] → Writes .products (ss ++ .slash :: tt) [.div a b]
  | percent {ss tt a b} : Writes .products ss [a] → Writes .powers tt [b] → Writes .products (ss ++ .percent :: tt) [.mod a b]
  | sum {ss e} : Writes .products ss [e] → Writes .sums ss [e]
  | plus {ss tt a b} : Writes .sums ss [a] → Writes .products tt [b] → Writes .sums (ss ++ .plus :: tt) [.add a b]
  | minus {ss tt a b} : Writes .sums ss [a] → Writes .products tt [b] → Writes .sums (ss ++ .minus :: tt) [.sub a b]
  | single {ss e} : Writes .sums ss [e] → Writes .sequence ss [e]
  | comma {ss tt a b} : Writes .sequence ss [a] → Writes .sums tt [b] → Writes .sequence (ss ++ .comma :: tt) [.seq a b]
  | argument {ss e} : Writes .sums ss [e] → Writes .arguments ss [e]
  | arguments {ss tt es e} : Writes .arguments ss es → Writes .sums tt [e] →
      Writes .arguments (ss ++ .comma :: tt) (es ++ [e])

/-! ### Characters -/

def isDecimal (c : Char) : Bool := "0123456789".toList.contains c
def isHex (c : Char) : Bool := "0123456789abcdefABCDEF".toList.contains c
def isLetter (c : Char) : Bool := "abcdefghijklmnopqrstuvwxyzABCDEFGHIJKLMNOPQRSTUVWXYZ".toList.contains c

/-- The value of a digit. -/
def digitValue (c : Char) : Nat :=
  let i := "0123456789abcdefABCDEF".toList.idxOf c
  if i < 16 then i else i - 6

/-- The number that digits write. -/
def number (base : Nat) : Str → Nat → Nat
  | [], n => n
  | d :: ds, n => number base ds (base * n + digitValue d)

/-- Digits with or without a point: `Digits base isD s n k` says `s` writes `n` with `k` digits behind the point. -/
inductive Digits (base : Nat) (isD : Char → Bool) : Str → Nat → Nat → Prop
  | whole {ds} : ds ≠ [] → (∀ d ∈ ds, isD d = true) → Digits base isD ds (number base ds 0) 0
  | point {ds fs} : ds ≠ [] ∨ fs ≠ [] → (∀ d ∈ ds, isD d = true) → (∀ d ∈ fs, isD d = true) →
      Digits base isD (ds ++ '.' :: fs) (number base (ds ++ fs) 0) fs.length

/-- Exponents: nothing, or a letter, a sign, digits. -/
inductive Exponent (letters : List Char) : Str → Int → Prop
  | none : Exponent letters [] 0
  | plain {c ds} : c ∈ letters → ds ≠ [] → (∀ d ∈ ds, isDecimal d = true) →
      Exponent letters (c :: ds) (number 10 ds 0)
  | plus {c ds} : c ∈ letters → ds ≠ [] → (∀ d ∈ ds, isDecimal d = true) →
      Exponent letters (c :: '+' :: ds) (number 10 ds 0)
  | minus {c ds} : c ∈ letters → ds ≠ [] → (∀ d ∈ ds, isDecimal d = true) →
      Exponent letters (c :: '-' :: ds) (-(number 10 ds 0 : Int))

/-- Literals and the numbers they write: `12`, `1.5`, `.5`, `2.`, `1e-3`, `0x1F`. -/
inductive Literal : Str → Rat → Prop
  | decimal {s n k x e} : Digits 10 isDecimal s n k → Exponent ['e', 'E'] x e →
      Literal (s ++ x) ((n : Rat) * (10 : Rat) ^ (e - (k : Int)))
  | hexadecimal {c s n k x e} : c = 'x' ∨ c = 'X' → Digits 16 isHex s n k → Exponent ['p', 'P'] x e →
      Literal ('0' :: c :: s ++ x) ((n : Rat) * (2 : Rat) ^ (e - 4 * (k : Int)))

/-- The next character, if there is one, belongs to no name. -/
def WordEnds (s : Str) : Prop := ∀ c ∈ s.head?, isDecimal c = false ∧ isLetter c = false ∧ c ≠ '_'

/-- The next character, if there is one, belongs to no number and no name. -/
def NumberEnds (s : Str) : Prop := WordEnds s ∧ s.head? ≠ some '.'

def operator : Char → Option Sym
  | '+' => some .plus
  | '-' => some .minus
  | '*' => some .times
  | '/' => some .slash
  | '%' => some .percent
  | '^' => some .caret
  | '!' => some .bang
  | '(' => some .lparen
  | ')' => some .rparen
  | ',' => some .comma
  | _ => none

/-- `Spells s ss`: the text `s` spells the symbols `ss`. -/
inductive Spells : Str → List Sym → Prop
  | nil : Spells [] []
  | blank {c s ss} : c = ' ' ∨ c = '\t' → Spells s ss → Spells (c :: s) ss
  | operator {c x s ss} : operator c = some x → Spells s ss → Spells (c :: s) (x :: ss)
  | number {l q s ss} : Literal l q → NumberEnds s → Spells s ss → Spells (l ++ s) (.num q :: ss)
  | name {w k f s ss} : (w, k, f) ∈ documented → WordEnds s → Spells s ss →
      Spells (w.toList ++ s) (.name k f :: ss)

/-! ### Values in exact arithmetic -/

/-- `n!` -/
def fact : Nat → Nat
  | 0 => 1
  | n + 1 => (n + 1) * fact n

/-- `n (n - 1) ... (n - m + 1)` -/
def falling : Nat → Nat → Nat
  | _, 0 => 1
  | 0, _ + 1 => 0
  | n + 1, m + 1 => (n + 1) * falling n m

/-- The number of ways to choose `m` of `n`. -/
def choose : Nat → Nat → Nat
  | _, 0 => 1
  | 0, _ + 1 => 0
  | n + 1, m + 1 => choose n m + choose n (m + 1)

/-- `Exactly fl e q`: in exact arithmetic the value of `e` is `q`, and no rounding happens on the way. -/
inductive Exactly (fl : Rat → Dbl) : Ex → Rat → Prop
  | num {q} : fl q = .fin q → Exactly fl (.num q) q
  | add {a b x y} : Exactly fl a x → Exactly fl b y → fl (x + y) = .fin (x + y) → Exactly fl (.add a b) (x + y)
  | sub {a b x y} : Exactly fl a x → Exactly fl b y → fl (x - y) = .fin (x - y) → Exactly fl (.sub a b) (x - y)
  | mul {a b x y} : Exactly fl a x → Exactly fl b y → fl (x * y) = .fin (x * y) → Exactly fl (.mul a b) (x * y)
  | div {a b x y} : Exactly fl a x → Exactly fl b y → y ≠ 0 → fl (x / y) = .fin (x / y) → Exactly fl (.div a b) (x / y)
  | neg {a x} : Exactly fl a x → Exactly fl (.neg a) (-x)
  | seq {a b x y} : Exactly fl a x → Exactly fl b y → Exactly fl (.seq a b) y
  | fac {a} {n : Nat} : Exactly fl a n → fact n ≤ 2 ^ 53 → Exactly fl (.fac a) (fact n)
  | permutations {a b} {n m : Nat} : Exactly fl a n → Exactly fl b m → m ≤ n → n < 2 ^ 53 → falling n m ≤ 2 ^ 53 →
      Exactly fl (.app .pnm [a, b]) (falling n m)
  | combinations {a b} {n m : Nat} : Exactly fl a n → Exactly fl b m → m ≤ n → n < 2 ^ 53 → falling n m ≤ 2 ^ 53 →
      Exactly fl (.app .cnm [a, b]) (choose n m)

end H2.Json.Expr
