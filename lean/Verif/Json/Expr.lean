import Verif.Json.Node
/-
Model of the arithmetic in JSON values: `/repo/source/json/h2_tinyexpr.cpp`.

What the C functions compute on doubles (the C library, rounding) is a parameter; which of them is called on
which arguments is modelled.
-/
namespace H2.Json.Expr
open H2.Json

/-- The C functions in the table, `/repo/source/json/h2_tinyexpr.cpp:89-123`. -/
inductive CFn where
  | add | sub | mul | div | negate | comma | pi | e | nan | inf | factorial | cnm | pnm
  | fabs | sqrt | log | log10 | log2 | floor | ceil | fmod | pow | exp
  | cos | acos | cosh | sin | asin | sinh | tan | atan | atan2 | tanh
deriving DecidableEq

/-- `function_spec`, `/repo/source/json/h2_tinyexpr.cpp:12-16`. -/
structure FnSpec where
  parameters : Nat
  fp : CFn
deriving DecidableEq

/-- The table, `/repo/source/json/h2_tinyexpr.cpp:88-124`. -/
def functions : List (Str × FnSpec) := [
  ("+".toList, ⟨2, .add⟩),
  ("-".toList, ⟨2, .sub⟩),
  ("*".toList, ⟨2, .mul⟩),
  ("/".toList, ⟨2, .div⟩),
  ("negate".toList, ⟨1, .negate⟩),
  ("comma".toList, ⟨2, .comma⟩),
  ("pi".toList, ⟨0, .pi⟩),
  ("e".toList, ⟨0, .e⟩),
  ("nan".toList, ⟨0, .nan⟩),
  ("inf".toList, ⟨0, .inf⟩),
  ("factorial".toList, ⟨1, .factorial⟩),
  ("C".toList, ⟨2, .cnm⟩),
  ("P".toList, ⟨2, .pnm⟩),
  ("A".toList, ⟨2, .pnm⟩),
  ("abs".toList, ⟨1, .fabs⟩),
  ("sqrt".toList, ⟨1, .sqrt⟩),
  ("ln".toList, ⟨1, .log⟩),
  ("log".toList, ⟨1, .log⟩),
  ("log10".toList, ⟨1, .log10⟩),
  ("log2".toList, ⟨1, .log2⟩),
  ("floor".toList, ⟨1, .floor⟩),
  ("ceil".toList, ⟨1, .ceil⟩),
  ("fmod".toList, ⟨2, .fmod⟩),
  ("pow".toList, ⟨2, .pow⟩),
  ("exp".toList, ⟨1, .exp⟩),
  ("cos".toList, ⟨1, .cos⟩),
  ("acos".toList, ⟨1, .acos⟩),
  ("cosh".toList, ⟨1, .cosh⟩),
  ("sin".toList, ⟨1, .sin⟩),
  ("asin".toList, ⟨1, .asin⟩),
  ("sinh".toList, ⟨1, .sinh⟩),
  ("tan".toList, ⟨1, .tan⟩),
  ("atan".toList, ⟨1, .atan⟩),
  ("atan2".toList, ⟨2, .atan2⟩),
  ("tanh".toList, ⟨1, .tanh⟩)]

/-- `get_function`, `/repo/source/json/h2_tinyexpr.cpp:125-129`. -/
def getFunction (name : Str) : Option FnSpec := (functions.find? (·.1 == name)).map (·.2)

/-- `get_function` of a name that is in the table. -/
def fnOf (name : Str) : FnSpec := (getFunction name).getD ⟨0, .nan⟩

/-- `syntax_tree`, `/repo/source/json/h2_tinyexpr.cpp:18-28`; a constant is the number as written, rounded
when it is evaluated. -/
inductive Tree where
  | const (q : Rat)
  | call (f : FnSpec) (parameters : List Tree)

/-- What the machine computes: a literal, and the C functions. -/
structure Machine where
  fl : Rat → Dbl
  apply : CFn → List Dbl → Dbl

mutual
/-- `syntax_tree::evaluate`, `/repo/source/json/h2_tinyexpr.cpp:29-40`. -/
def Tree.evaluate (m : Machine) : Tree → Dbl
  | .const q => m.fl q
  | .call f ps => if f.parameters ≤ 4 then m.apply f.fp ((evaluateAll m ps).take f.parameters) else .nan
def evaluateAll (m : Machine) : List Tree → List Dbl
  | [] => []
  | t :: ts => t.evaluate m :: evaluateAll m ts
end

/-- Tokens, `/repo/source/json/h2_tinyexpr.cpp:43`; `TOK_END` is the end of the list. -/
inductive Tok where
  | error | comma | open_ | close
  | number (q : Rat)
  | function (f : FnSpec)
  | add (f : FnSpec) | sub (f : FnSpec) | mmd (f : FnSpec) | pow (f : FnSpec) | fac (f : FnSpec)
deriving DecidableEq

/-- `::isdigit`, `::isalpha`, in the C locale. -/
def digit (c : Char) : Bool := '0'.toNat ≤ c.toNat && c.toNat ≤ '9'.toNat
def alpha (c : Char) : Bool :=
  ('a'.toNat ≤ c.toNat && c.toNat ≤ 'z'.toNat) || ('A'.toNat ≤ c.toNat && c.toNat ≤ 'Z'.toNat)

/-- Characters of names, `/repo/source/json/h2_tinyexpr.cpp:144`. -/
def wordChar (c : Char) : Bool := alpha c || digit c || c == '_'

/-- Hexadecimal digits. -/
def hexDigit (c : Char) : Bool :=
  digit c || ('a'.toNat ≤ c.toNat && c.toNat ≤ 'f'.toNat) || ('A'.toNat ≤ c.toNat && c.toNat ≤ 'F'.toNat)
def hexValue (c : Char) : Nat :=
  if digit c then c.toNat - '0'.toNat
  else if 'a'.toNat ≤ c.toNat then c.toNat - 'a'.toNat + 10 else c.toNat - 'A'.toNat + 10

/-- The number written with digits. -/
def natOf (base : Nat) (ds : Str) : Nat := ds.foldl (fun n d => base * n + hexValue d) 0

/-- The sign of an exponent, and what follows. -/
def signOf : Str → Bool × Str
  | '-' :: r => (true, r)
  | '+' :: r => (false, r)
  | r => (false, r)

/-- The exponent of a literal after one of the letters `l`: its value and the rest.  Without digits there is none. -/
def exponent (l : Str) (s : Str) : Int × Str :=
  match s with
  | c :: r =>
    if c ∈ l then
      if (signOf r).2.takeWhile digit = [] then (0, s)
      else ((if (signOf r).1 then -(natOf 10 ((signOf r).2.takeWhile digit) : Int)
             else (natOf 10 ((signOf r).2.takeWhile digit) : Int)), (signOf r).2.dropWhile digit)
    else (0, s)
  | [] => (0, s)

/-- A mantissa: the digits before and behind the point, and the rest; nothing without any digit. -/
def mantissa (isD : Char → Bool) (s : Str) : Option (Str × Str × Str) :=
  match s.dropWhile isD with
  | '.' :: r =>
    if s.takeWhile isD = [] ∧ r.takeWhile isD = [] then none
    else some (s.takeWhile isD, r.takeWhile isD, r.dropWhile isD)
  | r => if s.takeWhile isD = [] then none else some (s.takeWhile isD, [], r)

/-- A hexadecimal number, behind `0x`. -/
def hexNumber (s : Str) : Option (Rat × Str) :=
  (mantissa hexDigit s).map fun (ds, fs, r) =>
    ((natOf 16 (ds ++ fs) : Rat) * (2 : Rat) ^ ((exponent ['p', 'P'] r).1 - 4 * (fs.length : Int)), (exponent ['p', 'P'] r).2)

/-- A decimal number. -/
def decNumber (s : Str) : Option (Rat × Str) :=
  (mantissa digit s).map fun (ds, fs, r) =>
    ((natOf 10 (ds ++ fs) : Rat) * (10 : Rat) ^ ((exponent ['e', 'E'] r).1 - (fs.length : Int)), (exponent ['e', 'E'] r).2)

/-- What follows `0x`. -/
def hexPrefix : Str → Option Str
  | '0' :: 'x' :: r => some r
  | '0' :: 'X' :: r => some r
  | _ => none

/-- `strtod` of the C library on a text that begins with a digit or a point: the exact value written, and what
follows; nothing if there is no number.  (The value is rounded when it is evaluated.) -/
def strtod (s : Str) : Option (Rat × Str) :=
  match (hexPrefix s).bind hexNumber with
  | some x => some x
  | none => decNumber s

/-- Tokens of one character, `/repo/source/json/h2_tinyexpr.cpp:149-159`. -/
def single : Char → Option Tok
  | '+' => some (.add (fnOf "+".toList))
  | '-' => some (.sub (fnOf "-".toList))
  | '*' => some (.mmd (fnOf "*".toList))
  | '/' => some (.mmd (fnOf "/".toList))
  | '%' => some (.mmd (fnOf "fmod".toList))
  | '^' => some (.pow (fnOf "pow".toList))
  | '!' => some (.fac (fnOf "factorial".toList))
  | '(' => some .open_
  | ')' => some .close
  | ',' => some .comma
  | _ => none

/-- The tokens one after the other, `lexical_token`, `/repo/source/json/h2_tinyexpr.cpp:132-167`.  The code reads
them one at a time, and keeps nothing but the place where the next begins.  After an error nothing is read any
more.  A point without digits is a number that the code would read again and again; as no number may follow a
number, here it is an error after the first.  The fuel is more than the number of characters. -/
def tokensLoop : Nat → Str → List Tok
  | 0, _ => [.error]
  | _ + 1, [] => []
  | n + 1, c :: s =>
    if digit c || c == '.' then
      match strtod (c :: s) with
      | some (q, r) => .number q :: tokensLoop n r
      | none => [.number 0, .error]
    else if alpha c then
      match getFunction ((c :: s).takeWhile wordChar) with
      | some f => .function f :: tokensLoop n ((c :: s).dropWhile wordChar)
      | none => [.error]
    else
      match single c with
      | some t => t :: tokensLoop n s
      | none => if c = ' ' ∨ c = '\t' then tokensLoop n s else [.error]

def tokens (s : Str) : List Tok := tokensLoop (s.length + 1) s

/-- The functions of the parser, and their loops as functions of what the loop variables hold. -/
inductive Goal where
  | list | listLoop (st : Tree)
  | expr | exprLoop (st : Tree)
  | term | termLoop (st : Tree)
  | factor | factorLoop (st : Tree)
  | power | sign (negative : Bool)
  | factorial | factorialLoop (st : Tree)
  | base | args (f : FnSpec) (ps : List Tree) | argsNext (f : FnSpec) (ps : List Tree)

/-- What parsing leads to: the tree and the tokens left, or an error, after which no token is taken any more
(`TOK_ERROR`) and the text is rejected. -/
inductive Res where
  | ok (t : Tree) (rest : List Tok)
  | error
  /-- the fuel is used up (which the proofs show never to happen) -/
  | fuel

def Res.bind (r : Res) (f : Tree → List Tok → Res) : Res :=
  match r with
  | .ok t rest => f t rest
  | .error => .error
  | .fuel => .fuel

/-- `ps->type != TOK_CLOSE` after the list in parentheses, `/repo/source/json/h2_tinyexpr.cpp:178-179`. -/
def closed (t : Tree) : List Tok → Res
  | .close :: r => .ok t r
  | _ => .error

/-- The parser, `/repo/source/json/h2_tinyexpr.cpp:169-275`. -/
def parse : Nat → Goal → List Tok → Res
  | 0, _, _ => .fuel
  | n + 1, g, ts =>
    match g with
    /- `list`, 267-275 -/
    | .list => (parse n .expr ts).bind fun st r => parse n (.listLoop st) r
    | .listLoop st =>
      match ts with
      | .comma :: r => (parse n .expr r).bind fun st' r => parse n (.listLoop (.call (fnOf "comma".toList) [st, st'])) r
      | _ => .ok st ts
    /- `expr`, 256-265 -/
    | .expr => (parse n .term ts).bind fun st r => parse n (.exprLoop st) r
    | .exprLoop st =>
      match ts with
      | .add f :: r => (parse n .term r).bind fun st' r => parse n (.exprLoop (.call f [st, st'])) r
      | .sub f :: r => (parse n .term r).bind fun st' r => parse n (.exprLoop (.call f [st, st'])) r
      | _ => .ok st ts
    /- `term`, 245-254 -/
    | .term => (parse n .factor ts).bind fun st r => parse n (.termLoop st) r
    | .termLoop st =>
      match ts with
      | .mmd f :: r => (parse n .factor r).bind fun st' r => parse n (.termLoop (.call f [st, st'])) r
      | _ => .ok st ts
    /- `factor`, 234-243 -/
    | .factor => (parse n .power ts).bind fun st r => parse n (.factorLoop st) r
    | .factorLoop st =>
      match ts with
      | .pow f :: r => (parse n .power r).bind fun st' r => parse n (.factorLoop (.call f [st, st'])) r
      | _ => .ok st ts
    /- `power`, 222-232 -/
    | .power => parse n (.sign false) ts
    | .sign neg =>
      match ts with
      | .add _ :: r => parse n (.sign neg) r
      | .sub _ :: r => parse n (.sign (!neg)) r
      | _ => (parse n .factorial ts).bind fun st r => .ok (if neg then .call (fnOf "negate".toList) [st] else st) r
    /- `factorial`, 212-220 -/
    | .factorial => (parse n .base ts).bind fun st r => parse n (.factorialLoop st) r
    | .factorialLoop st =>
      match ts with
      | .fac _ :: r => parse n (.factorialLoop (.call (fnOf "factorial".toList) [st])) r
      | _ => .ok st ts
    /- `base`, 169-210 -/
    | .base =>
      match ts with
      | .number q :: r => .ok (.const q) r
      | .open_ :: r => (parse n .list r).bind closed
      | .function f :: r =>
        if f.parameters = 0 then
          match r with
          | .open_ :: .close :: r => .ok (.call f []) r
          | .open_ :: _ => .error
          | r => .ok (.call f []) r
        else if f.parameters = 1 then (parse n .power r).bind fun st r => .ok (.call f [st]) r
        else
          match r with
          | .open_ :: r => parse n (.args f []) r
          | _ => .error
      | _ => .error
    /- the loop over the arguments, 195-202 -/
    | .args f ps => (parse n .expr ts).bind fun st r => parse n (.argsNext f (ps ++ [st])) r
    | .argsNext f ps =>
      match ts with
      | .comma :: r => if ps.length < 4 then parse n (.args f ps) r else .error
      | .close :: r => if ps.length = f.parameters then .ok (.call f ps) r else .error
      | _ => .error

/-- `compile`, `/repo/source/json/h2_tinyexpr.cpp:277-285`. -/
def compile (s : Str) : Option Tree :=
  match parse (10 * (tokens s).length + 20) .list (tokens s) with
  | .ok t [] => some t
  | _ => none

/-- `evaluate`, `/repo/source/json/h2_tinyexpr.cpp:3-10`. -/
def evaluate (m : Machine) (s : Str) : Option Dbl := (compile s).map (Tree.evaluate m)

/-! ### The functions of the file -/

/-- The product of the loops `for (unsigned long i = lo; i <= hi; ++i) result *= i`,
`/repo/source/json/h2_tinyexpr.cpp:66, 73`, with 64 bits. -/
def productC (lo hi : Nat) : Nat := (List.range' lo (hi + 1 - lo)).foldl (fun r i => r * i % 2 ^ 64) 1

/-- `_factorial`, `/repo/source/json/h2_tinyexpr.cpp:62-68`. -/
def factorialC (m : Machine) : Dbl → Dbl
  | .fin n => if n < 0 then .nan else m.fl (productC 1 n.floor.toNat : Nat)
  | x => m.apply .factorial [x]

/-- `Pnm`, `/repo/source/json/h2_tinyexpr.cpp:69-75`. -/
def pnmC (m : Machine) : Dbl → Dbl → Dbl
  | .fin a, .fin b =>
    if a < 0 ∨ b < 0 then .nan
    else
      match m.fl (max a b - min a b) with
      | .fin d =>
        match m.fl (d + 1) with
        | .fin lo => m.fl (productC lo.floor.toNat (max a b).floor.toNat : Nat)
        | x => m.apply .pnm [x]
      | x => m.apply .pnm [x]
  | x, y => m.apply .pnm [x, y]

/-- `_div`, `/repo/source/json/h2_tinyexpr.cpp:54`. -/
def divC (m : Machine) : Dbl → Dbl → Dbl
  | .fin a, .fin b => if b = 0 then m.apply .div [.fin a, .fin b] else m.fl (a / b)
  | x, y => m.apply .div [x, y]

/-- `std::min` of doubles. -/
def minD : Dbl → Dbl → Dbl
  | .fin a, .fin b => .fin (min a b)
  | x, _ => x

/-- The functions defined in the file itself, `/repo/source/json/h2_tinyexpr.cpp:51-79`, on finite numbers (zeros
have no sign in the model); the rest as `m` has it. -/
def builtin (m : Machine) : Machine where
  fl := m.fl
  apply
    | .add, [.fin a, .fin b] => m.fl (a + b)
    | .sub, [.fin a, .fin b] => m.fl (a - b)
    | .mul, [.fin a, .fin b] => m.fl (a * b)
    | .div, [a, b] => divC m a b
    | .negate, [.fin a] => .fin (-a)
    | .comma, [_, b] => b
    | .factorial, [a] => factorialC m a
    | .pnm, [a, b] => pnmC m a b
    | .cnm, [a, b] => divC m (pnmC m a b) (factorialC m (minD a b))
    | f, l => m.apply f l

end H2.Json.Expr
