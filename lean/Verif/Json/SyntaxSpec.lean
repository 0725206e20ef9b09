import Verif.Json.Syntax
import Verif.Json.LexSpec
import Verif.Json.ExprSpec
/-
Specification of JSON texts, and of the token sequences that are well formed.
-/
namespace H2.Json

/-! ### Texts -/

/-- White space. -/
def White (s : Str) : Prop := ∀ c ∈ s, c = ' ' ∨ c = '\t' ∨ c = '\n' ∨ c = '\r'

/-- Escapes: the letter behind the backslash, and the character meant. -/
def escapes : List (Char × Char) := [('b', '\x08'), ('f', '\x0c'), ('n', '\n'), ('r', '\r'), ('t', '\t'), ('"', '"')]

/-- `Escaped q t e`: between quotes `q` the text `t` may be written `e`. -/
inductive Escaped (q : Char) : Str → Str → Prop
  | nil : Escaped q [] []
  | plain {c t e} : c ≠ q → c ≠ '\\' → Escaped q t e → Escaped q (c :: t) (c :: e)
  | escape {x c t e} : (x, c) ∈ escapes → Escaped q t e → Escaped q (c :: t) ('\\' :: x :: e)
  /-- a backslash, when what follows does not begin with one of the letters of the escapes -/
  | backslash {t e} : (∀ x ∈ e.head?, x ∉ escapes.map (·.1)) → Escaped q t e → Escaped q ('\\' :: t) ('\\' :: '\\' :: e)

/-- A quoted string. -/
inductive Quoted : Str → Str → Prop
  | double {t e} : Escaped '"' t e → Quoted t ('"' :: e ++ ['"'])
  | single {t e} : Escaped '\'' t e → Quoted t ('\'' :: e ++ ['\''])

/-- A word that needs no quotes: no structural character and no backslash in it, no white space at its ends, no
quote and no slash at its beginning. -/
def Word (w : Str) : Prop :=
  w ≠ [] ∧ (∀ c ∈ w, isPunct c = false ∧ c ≠ '\\') ∧
    (∀ c ∈ w.head?, isSpace c = false ∧ c ≠ '"' ∧ c ≠ '\'' ∧ c ≠ '/') ∧ (∀ c ∈ w.getLast?, isSpace c = false)

/-- Numbers: an optional minus sign and a literal. -/
inductive Numeral (m : Expr.Machine) : Str → Dbl → Prop
  | plain {s q} : Expr.Literal s q → Numeral m s (m.fl q)
  | minus {s q} : Expr.Literal s q → Numeral m ('-' :: s) (m.apply .negate [m.fl q])

/-- What a piece of text stands for. -/
inductive Piece where
  | value (j : Json)
  | bare (j : Json)
  | key (k : Str)
  | elements (l : List Json)
  | members (l : List (Str × Json))

/-- `Text m p s`: the text `s` stands for `p`.  Standard JSON, and in addition single quotes, words without
quotes, patterns between slashes. -/
inductive Text (m : Expr.Machine) : Piece → Str → Prop
  | value {j a s b} : White a → Text m (.bare j) s → White b → Text m (.value j) (a ++ s ++ b)
  | null : Text m (.bare .null) "null".toList
  | true : Text m (.bare (.bool true)) "true".toList
  | false : Text m (.bare (.bool false)) "false".toList
  | number {s d} : Numeral m s d → Text m (.bare (.num d)) s
  | string {t s} : Quoted t s → Text m (.bare (.str t)) s
  | word {w} : Word w → w ∉ ["null".toList, "true".toList, "false".toList] → Expr.evaluate m w = none →
      Text m (.bare (.str w)) w
  | pattern {p} : '/' ∉ p → Text m (.bare (.pat p)) ('/' :: p ++ ['/'])
  | emptyArray {a} : White a → Text m (.bare (.arr [])) ('[' :: a ++ [']'])
  | array {l s} : Text m (.elements l) s → Text m (.bare (.arr l)) ('[' :: s ++ [']'])
  | emptyObject {a} : White a → Text m (.bare (.obj [])) ('{' :: a ++ ['}'])
  | object {l s} : Text m (.members l) s → Text m (.bare (.obj l)) ('{' :: s ++ ['}'])
  | element {j s} : Text m (.value j) s → Text m (.elements [j]) s
  | elements {j l s t} : Text m (.value j) s → Text m (.elements l) t → Text m (.elements (j :: l)) (s ++ ',' :: t)
  | key {k a s b} : White a → Quoted k s → White b → Text m (.key k) (a ++ s ++ b)
  | keyWord {a w b} : White a → Word w → White b → Text m (.key w) (a ++ w ++ b)
  | member {k j s t} : Text m (.key k) s → Text m (.value j) t → Text m (.members [(k, j)]) (s ++ ':' :: t)
  | members {k j l s t u} : Text m (.key k) s → Text m (.value j) t → Text m (.members l) u →
      Text m (.members ((k, j) :: l)) (s ++ ':' :: t ++ ',' :: u)

/-! ### Writing values down -/

/-- A string with escapes. -/
def escape : Str → Str
  | [] => []
  | c :: s =>
    match escapes.find? (·.2 = c) with
    | some (x, _) => '\\' :: x :: escape s
    | none => if c = '\\' then '\\' :: '\\' :: escape s else c :: escape s

def quote (s : Str) : Str := '"' :: escape s ++ ['"']

mutual
/-- The shortest text of a value, when numbers are written as `num` says. -/
def print (num : Dbl → Str) : Json → Str
  | .absent => []
  | .null => "null".toList
  | .bool true => "true".toList
  | .bool false => "false".toList
  | .num d => num d
  | .str s => quote s
  | .pat p => '/' :: p ++ ['/']
  | .arr l => '[' :: printAll num l ++ [']']
  | .obj l => '{' :: printMembers num l ++ ['}']
def printAll (num : Dbl → Str) : List Json → Str
  | [] => []
  | [j] => print num j
  | j :: l => print num j ++ ',' :: printAll num l
def printMembers (num : Dbl → Str) : List (Str × Json) → Str
  | [] => []
  | [(k, j)] => quote k ++ ':' :: print num j
  | (k, j) :: l => quote k ++ ':' :: print num j ++ ',' :: printMembers num l
end

/-- No backslash stands directly before a letter of the escapes. -/
def Sayable.string (s : Str) : Prop := ∀ a b c, s = a ++ '\\' :: c :: b → c ∉ ['b', 'f', 'n', 'r', 't']

mutual
/-- Values that can be written down: numbers `num` writes, patterns without slash, strings in which no backslash stands
directly before b, f, n, r or t. -/
def Sayable (m : Expr.Machine) (num : Dbl → Str) : Json → Prop
  | .absent => False
  | .null => True
  | .bool _ => True
  | .num d => Numeral m (num d) d
  | .str s => Sayable.string s
  | .pat p => '/' ∉ p
  | .arr l => Sayable.all m num l
  | .obj l => Sayable.members m num l
def Sayable.all (m : Expr.Machine) (num : Dbl → Str) : List Json → Prop
  | [] => True
  | j :: l => Sayable m num j ∧ Sayable.all m num l
def Sayable.members (m : Expr.Machine) (num : Dbl → Str) : List (Str × Json) → Prop
  | [] => True
  | (k, j) :: l => Sayable.string k ∧ Sayable m num j ∧ Sayable.members m num l
end

/-! ### Token sequences -/

def tok (c : Char) : Str := [c]

/-- `Letters e u`: `u` is `e` with every backslash that a letter of the escapes follows, and that letter, read as
the character meant. -/
inductive Letters : Str → Str → Prop
  | nil : Letters [] []
  | escape {x c e u} : (x, c) ∈ escapes → Letters e u → Letters ('\\' :: x :: e) (c :: u)
  | other {c e u} : (c = '\\' → ∀ x ∈ e.head?, x ∉ escapes.map (·.1)) → Letters e u → Letters (c :: e) (c :: u)

/-- `Halved u t`: `t` is `u` with every pair of backslashes, from the left, made one. -/
inductive Halved : Str → Str → Prop
  | nil : Halved [] []
  | pair {u t} : Halved u t → Halved ('\\' :: '\\' :: u) ('\\' :: t)
  | other {c u t} : (c = '\\' → u.head? ≠ some '\\') → Halved u t → Halved (c :: u) (c :: t)

/-- What text with escapes means: the escapes are read first, and then the pairs of backslashes that are left. -/
def Means (e t : Str) : Prop := ∃ u, Letters e u ∧ Halved u t

/-- What a token means as a string. -/
inductive StringToken : Str → Str → Prop
  | quoted {q e s} : q = '"' ∨ q = '\'' → Means e s → StringToken (q :: e ++ [q]) s
  | bare {t s} : (∀ q ∈ ['"', '\''], ¬ (t.head? = some q ∧ t.getLast? = some q)) → Means t s → StringToken t s

/-- What a token that is no keyword and no structural character stands for: a number if it has a value, else a
pattern, else a string. -/
inductive Scalar (m : Expr.Machine) : Str → Json → Prop
  | pattern {p} : Scalar m ('/' :: p ++ ['/']) (.pat p)
  | openPattern {p} : p ≠ [] → p.getLast? ≠ some '/' → Scalar m ('/' :: p) (.pat ('/' :: p))
  | number {t d} : t.head? ≠ some '/' → Expr.evaluate m t = some d → Scalar m t (.num d)
  | string {t s} : t.head? ≠ some '/' → Expr.evaluate m t = none → StringToken t s → Scalar m t (.str s)

/-- `WellFormed m p ts`: the tokens `ts` stand for `p` (a comma may follow the last element). -/
inductive WellFormed (m : Expr.Machine) : Piece → List Str → Prop
  | null : WellFormed m (.value .null) ["null".toList]
  | true : WellFormed m (.value (.bool true)) ["true".toList]
  | false : WellFormed m (.value (.bool false)) ["false".toList]
  | scalar {t j} : t ∉ ["null".toList, "true".toList, "false".toList, tok '[', tok '{', tok ':', tok ','] → Scalar m t j →
      WellFormed m (.value j) [t]
  | array {l ts} : WellFormed m (.elements l) ts → WellFormed m (.value (.arr l)) (tok '[' :: ts ++ [tok ']'])
  | object {l ts} : WellFormed m (.members l) ts → WellFormed m (.value (.obj l)) (tok '{' :: ts ++ [tok '}'])
  | noElement : WellFormed m (.elements []) []
  | element {j ts} : ts.head? ≠ some (tok ']') → WellFormed m (.value j) ts → WellFormed m (.elements [j]) ts
  | elements {j l ts us} : ts.head? ≠ some (tok ']') → WellFormed m (.value j) ts → WellFormed m (.elements l) us →
      WellFormed m (.elements (j :: l)) (ts ++ tok ',' :: us)
  | noMember : WellFormed m (.members []) []
  | member {t k j ts} : t ≠ tok '}' → StringToken t k → WellFormed m (.value j) ts →
      WellFormed m (.members [(k, j)]) (t :: tok ':' :: ts)
  | members {t k j l ts us} : t ≠ tok '}' → StringToken t k → WellFormed m (.value j) ts →
      WellFormed m (.members l) us → WellFormed m (.members ((k, j) :: l)) (t :: tok ':' :: ts ++ tok ',' :: us)

end H2.Json
