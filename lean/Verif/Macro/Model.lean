/-
Model of the preprocessor, as far as the macros of `/repo/source/utils/h2_macro.hpp` and `/repo/source/utils/h2_macro.in.hpp`
need it: the replacement of macros by the rules of the C++ standard ([cpp.replace], [cpp.rescan]), in the way in which gcc and clang
do it where the standard leaves it open.  White space, strings made with `#` and predefined macros are left out.
-/
namespace H2.Macro

/-- Preprocessing tokens.  `dead` is the name of a macro that was found while that macro was being replaced: it is never replaced
again ([cpp.rescan]/3). -/
inductive Tok where
  | id (s : String)
  | dead (s : String)
  | num (s : String)
  | lp
  | rp
  | comma
  | other (s : String)
  deriving DecidableEq, Repr

/-- An operand of `##`. -/
inductive Op where
  | tok (t : Tok)
  | raw (i : Nat)
  deriving DecidableEq, Repr

/-- A part of a replacement list: a token, a parameter (the last one stands for `__VA_ARGS__`), or operands joined by `##`. -/
inductive Elem where
  | tok (t : Tok)
  | arg (i : Nat)
  | cat (ops : List Op)
  deriving DecidableEq, Repr

/-- A macro: `params` is `none` for one without parentheses, otherwise the number of named parameters and whether `...` follows. -/
structure Macro where
  params : Option (Nat × Bool)
  body : List Elem
  deriving DecidableEq, Repr

/-- What is still to be scanned: tokens, and the places where the replacement of a macro ends. -/
inductive Item where
  | tok (t : Tok)
  | mark (s : String)
  deriving DecidableEq, Repr

/-- The macros whose replacement has not been left. -/
def marks : List Item → List String
  | [] => []
  | .mark s :: r => s :: marks r
  | .tok _ :: r => marks r

/-- Tokens to be scanned. -/
def toks (ts : List Tok) : List Item := ts.map .tok

/-- `##` of two tokens: names and numbers only. -/
def glue : Tok → Tok → Option Tok
  | .id s, .id t => some (.id (s ++ t))
  | .id s, .dead t => some (.id (s ++ t))
  | .id s, .num t => some (.id (s ++ t))
  | .dead s, .id t => some (.id (s ++ t))
  | .dead s, .dead t => some (.id (s ++ t))
  | .dead s, .num t => some (.id (s ++ t))
  | .num s, .id t => some (.num (s ++ t))
  | .num s, .dead t => some (.num (s ++ t))
  | .num s, .num t => some (.num (s ++ t))
  | _, _ => none

/-- `##` of two operands, which can be empty. -/
def paste (x y : List Tok) : Option (List Tok) :=
  match x.getLast?, y with
  | none, y => some y
  | some _, [] => some x
  | some a, b :: r => (glue a b).map fun t => x.dropLast ++ t :: r

/-- `##` of several operands, from the left. -/
def pastes : List Tok → List (List Tok) → Option (List Tok)
  | x, [] => some x
  | x, y :: ys => (paste x y).bind fun z => pastes z ys

/-- An operand. -/
def operand (raw : Nat → List Tok) : Op → List Tok
  | .tok t => [t]
  | .raw i => raw i

/-- The replacement list with its arguments: replaced ones (`ex`), and beside `##` the ones that were written (`raw`). -/
def build (ex : Nat → Option (List Tok)) (raw : Nat → List Tok) : List Elem → Option (List Tok)
  | [] => some []
  | .tok t :: es => (build ex raw es).map (t :: ·)
  | .arg i :: es => (ex i).bind fun a => (build ex raw es).map (a ++ ·)
  | .cat ops :: es => (pastes [] (ops.map (operand raw))).bind fun a => (build ex raw es).map (a ++ ·)

/-- What is behind a parenthesis, if one is next; the ends of replacements are passed. -/
def opens : List Item → Option (List Item)
  | .mark _ :: r => opens r
  | .tok .lp :: r => some r
  | _ => none

/-- The arguments up to the closing parenthesis, and what is behind it.  The ends of replacements are passed. -/
def grab : Nat → List Item → List Tok → List (List Tok) → Option (List (List Tok) × List Item)
  | _, [], _, _ => none
  | d, .mark _ :: r, cur, done => grab d r cur done
  | d, .tok .lp :: r, cur, done => grab (d + 1) r (cur ++ [.lp]) done
  | 0, .tok .rp :: r, cur, done => some (done ++ [cur], r)
  | d + 1, .tok .rp :: r, cur, done => grab d r (cur ++ [.rp]) done
  | 0, .tok .comma :: r, cur, done => grab 0 r [] (done ++ [cur])
  | d + 1, .tok .comma :: r, cur, done => grab (d + 1) r (cur ++ [.comma]) done
  | d, .tok t :: r, cur, done => grab d r (cur ++ [t]) done

/-- Arguments with commas between them. -/
def join : List (List Tok) → List Tok
  | [] => []
  | [a] => a
  | a :: b :: r => a ++ .comma :: join (b :: r)

/-- The arguments as values of the parameters; all that are left for `...`. -/
def bind : Nat × Bool → List (List Tok) → Option (List (List Tok))
  | (0, false), args => if args = [[]] then some [] else none
  | (k, false), args => if args.length = k then some args else none
  | (k, true), args => if k ≤ args.length then some (args.take k ++ [join (args.drop k)]) else none

/-- Replacing all macros, [cpp.replace].  `T` are the definitions, `out` the macros that are being replaced around this text; the
result is `none` when a program is ill-formed, or when the number of steps is not enough. -/
def scan (T : String → Option Macro) : Nat → List String → List Item → Option (List Tok)
  | 0, _, _ => none
  | _ + 1, _, [] => some []
  | n + 1, out, .mark _ :: r => scan T n out r
  | n + 1, out, .tok (.id s) :: r =>
    match T s with
    | none => (scan T n out r).map (.id s :: ·)
    | some m =>
      if s ∈ out ++ marks r then (scan T n out r).map (.dead s :: ·)
      else
        match m.params with
        | none => (build (fun _ => none) (fun _ => []) m.body).bind fun b => scan T n out (toks b ++ .mark s :: r)
        | some p =>
          match opens r with
          | none => (scan T n out r).map (.id s :: ·)
          | some r1 =>
            (grab 0 r1 [] []).bind fun a => (bind p a.1).bind fun bs =>
              (build (fun i => scan T n (out ++ marks a.2) (toks (bs.getD i []))) (fun i => bs.getD i []) m.body).bind fun b =>
                scan T n out (toks b ++ .mark s :: a.2)
  | n + 1, out, .tok t :: r => (scan T n out r).map (t :: ·)

/-- The text that becomes of a text: for enough steps. -/
def Becomes (T : String → Option Macro) (out : List String) (is : List Item) (ts : List Tok) : Prop :=
  ∃ n, scan T n out is = some ts

end H2.Macro
