import Verif.Expect.Model
/-
How a reader understands the text of an expectation: signs, words and texts in quotation marks; `!`, `≠`, `~` and
`*` bind tighter than `and`, `and` tighter than `or`; brackets group; commas separate.  `~` makes case meaningless in
what it stands before, `*` makes white space meaningless there.
-/
namespace H2.Expect.Spec

/-- A relation between numbers. -/
inductive Rel where | eq | ge | gt | le | lt
  deriving DecidableEq

/-- The value stands in the relation to `z`. -/
def Rel.Of : Rel → Val → Int → Prop
  | .eq, a, z => a = .num z
  | .ge, a, z => ∃ x, a = .num x ∧ x ≥ z
  | .gt, a, z => ∃ x, a = .num x ∧ x > z
  | .le, a, z => ∃ x, a = .num x ∧ x ≤ z
  | .lt, a, z => ∃ x, a = .num x ∧ x < z

mutual
/-- What a text says of a value. -/
inductive Form where
  | rel (r : Rel) (z : Int)
  | text (s : List Char)
  | any
  | flag (b : Bool)
  | neg (f : Form)
  | caseless (f : Form)
  | spaceless (f : Form)
  | and (f g : Form)
  | or (f g : Form)
  | call (name : List Char) (args : Forms)
  | list (args : Forms)
  | pair (f g : Form)
/-- Several of them. -/
inductive Forms where
  | nil
  | cons (f : Form) (fs : Forms)
end

deriving instance DecidableEq for Form, Forms

/-- Arguments that are numbers. -/
def Forms.numbers : Forms → Option (List Int)
  | .nil => some []
  | .cons (.rel .eq z) fs => fs.numbers.map (z :: ·)
  | .cons _ _ => none

/-- The argument that is a text. -/
def Forms.text : Forms → Option (List Char)
  | .cons (.text s) .nil => some s
  | _ => none

/-- A text with what is meaningless taken away: letters are made small (`ci`); white space is squashed as by
`SpaceLess` (`sq`), see `C09_squash_words`. -/
def norm (ci sq : Bool) (s : List Char) : List Char :=
  let s := if sq then Str.squash s else s
  if ci then s.map Char.toLower else s

/-- What `Substr("s")` and the like say of the text `t`. -/
def Named (E : Env) (ci sq : Bool) (w s t : List Char) : Prop :=
  if w = "Substr".toList then ∃ l r, norm ci sq t = l ++ norm ci sq s ++ r
  else if w = "StartsWith".toList then ∃ r, norm ci sq t = norm ci sq s ++ r
  else if w = "EndsWith".toList then ∃ l, norm ci sq t = l ++ norm ci sq s
  else if w = "We".toList then E.pattern false s ci (norm false sq t) = true
  else E.pattern true s ci (norm false sq t) = true

/-- The names of the matchers of texts. -/
def textNames : List (List Char) := ["Substr", "StartsWith", "EndsWith", "We", "Re"].map String.toList

mutual
/-- The text is true of the value, read where `~` (`ci`) or `*` (`sq`) stands before it or does not; `E` says what the
matchers of the user and patterns mean. -/
def Holds (E : Env) : Bool → Bool → Form → Val → Prop
  | _, _, .rel r z, a => r.Of a z
  | ci, sq, .text s, a => ∃ t, a = .text t ∧ norm ci sq t = norm ci sq s
  | _, _, .any, _ => True
  | _, _, .flag b, a => (∃ x, a = .num x ∧ x ≠ 0) ↔ b = true
  | ci, sq, .neg f, a => ¬ Holds E ci sq f a
  | _, sq, .caseless f, a => Holds E true sq f a
  | ci, _, .spaceless f, a => Holds E ci true f a
  | ci, sq, .and f g, a => Holds E ci sq f a ∧ Holds E ci sq g a
  | ci, sq, .or f g, a => Holds E ci sq f a ∨ Holds E ci sq g a
  | ci, sq, .call w fs, a =>
      if w = "AllOf".toList then HoldAll E ci sq fs a
      else if w = "AnyOf".toList then HoldAny E ci sq fs a
      else if w = "NoneOf".toList then ¬ HoldAny E ci sq fs a
      else if w = "Every".toList then ∀ x ∈ a.elems, HoldElem E ci sq fs x
      else if w = "Has".toList then ∃ x ∈ a.elems, HoldElem E ci sq fs x
      else if w = "CountOf".toList then HoldOne E ci sq fs (.num a.elems.length)
      else if w = "HasKey".toList then ∃ k v, Val.pair k v ∈ a.elems ∧ HoldOne E ci sq fs k
      else if w = "HasValue".toList then ∃ k v, Val.pair k v ∈ a.elems ∧ HoldOne E ci sq fs v
      else if w ∈ textNames then ∃ s t, fs.text = some s ∧ a = .text t ∧ Named E ci sq w s t
      else ∃ zs, fs.numbers = some zs ∧ E.user w zs a = true
  | ci, sq, .list fs, a => HoldEach E ci sq fs a.elems
  | ci, sq, .pair f g, a => ∃ x y, a = .pair x y ∧ Holds E ci sq f x ∧ Holds E ci sq g y
/-- All are true of it. -/
def HoldAll (E : Env) : Bool → Bool → Forms → Val → Prop
  | _, _, .nil, _ => True
  | ci, sq, .cons f fs, a => Holds E ci sq f a ∧ HoldAll E ci sq fs a
/-- One of them is. -/
def HoldAny (E : Env) : Bool → Bool → Forms → Val → Prop
  | _, _, .nil, _ => False
  | ci, sq, .cons f fs, a => Holds E ci sq f a ∨ HoldAny E ci sq fs a
/-- The only one is. -/
def HoldOne (E : Env) : Bool → Bool → Forms → Val → Prop
  | ci, sq, .cons f .nil, a => Holds E ci sq f a
  | _, _, _, _ => False
/-- The only one is true of the element, or the first of two of its key and the second of its value. -/
def HoldElem (E : Env) : Bool → Bool → Forms → Val → Prop
  | ci, sq, .cons f .nil, a => Holds E ci sq f a
  | ci, sq, .cons f (.cons g .nil), a => ∃ x y, a = .pair x y ∧ Holds E ci sq f x ∧ Holds E ci sq g y
  | _, _, _, _ => False
/-- Each is true of the element in its place. -/
def HoldEach (E : Env) : Bool → Bool → Forms → List Val → Prop
  | _, _, .nil, _ => True
  | _, _, .cons _ _, [] => False
  | ci, sq, .cons f fs, x :: xs => Holds E ci sq f x ∧ HoldEach E ci sq fs xs
end

/-! ### Reading -/

/-- A word, a sign or a text in quotation marks. -/
inductive Tok where
  | word (w : List Char)
  | str (s : List Char)
  | sym (c : Char)
  deriving DecidableEq

/-- The characters of names and numbers. -/
def letter (c : Char) : Bool := c.isAlphanum || c == '_' || c == '-'

/-- A word, if there is one. -/
def flush (w : List Char) : List Tok := if w = [] then [] else [.word w]

/-- Words, signs and texts; blanks only part them.  `q` tells whether a quotation mark is open; `w` is what has been read
of the word or text. -/
def lexGo : Bool → List Char → List Char → List Tok
  | false, w, [] => flush w
  | true, _, [] => [.sym '"']
  | false, w, c :: cs =>
      if letter c then lexGo false (w ++ [c]) cs
      else if c = '"' then flush w ++ lexGo true [] cs
      else flush w ++ (if c = ' ' then [] else [.sym c]) ++ lexGo false [] cs
  | true, w, c :: cs => if c = '"' then .str w :: lexGo false [] cs else lexGo true (w ++ [c]) cs

/-- The words and signs of a text. -/
def lex (t : List Char) : List Tok := lexGo false [] t

/-- The number that digits write. -/
def natOf (ds : List Char) : Option Int :=
  if ds ≠ [] ∧ ds.all Char.isDigit then some (ds.foldl (fun v c => v * 10 + (c.toNat - '0'.toNat)) 0 : Nat) else none

/-- The number that a word writes. -/
def intOf : List Char → Option Int
  | '-' :: ds => (natOf ds).map (- ·)
  | ds => natOf ds

/-- The relation that a sign writes. -/
def relOf : Char → Option Rel
  | '≥' => some .ge
  | '>' => some .gt
  | '≤' => some .le
  | '<' => some .lt
  | _ => none

/-- The form and what follows it. -/
abbrev Read (α : Type) := Option (α × List Tok)

/-- A closing bracket is next. -/
def closed (c : Char) (ts : List Tok) : Bool := ts.head? == some (.sym c)

/-- Go on behind a bracket. -/
def upto {α : Type} (c : Char) (x : α) : List Tok → Read α
  | t :: ts => if t = .sym c then some (x, ts) else none
  | [] => none

/-- A relation and a number. -/
def signed (c : Char) : List Tok → Read Form
  | .word w :: us => (relOf c).bind fun r => (intOf w).map fun z => (.rel r z, us)
  | _ => none

/-- A number, or else what `other` reads. -/
def numberOr (w : List Char) (ts : List Tok) (other : Read Form) : Read Form :=
  match intOf w with
  | some z => some (.rel .eq z, ts)
  | none => other

mutual
/-- `a or b or ...`; the number bounds the steps. -/
def pOr : Nat → List Tok → Read Form
  | 0, _ => none
  | n + 1, ts => (pAnd n ts).bind fun r => pOrs n r.1 r.2
/-- `... or b or ...` behind `f` -/
def pOrs : Nat → Form → List Tok → Read Form
  | 0, _, _ => none
  | n + 1, f, ts =>
      if ts.head? = some (.word "or".toList) then (pAnd n ts.tail).bind fun r => pOrs n (.or f r.1) r.2 else some (f, ts)
/-- `a and b and ...` -/
def pAnd : Nat → List Tok → Read Form
  | 0, _ => none
  | n + 1, ts => (pUnit n ts).bind fun r => pAnds n r.1 r.2
/-- `... and b and ...` behind `f` -/
def pAnds : Nat → Form → List Tok → Read Form
  | 0, _, _ => none
  | n + 1, f, ts =>
      if ts.head? = some (.word "and".toList) then (pUnit n ts.tail).bind fun r => pAnds n (.and f r.1) r.2 else some (f, ts)
/-- What `and`, `or` and the signs before it join. -/
def pUnit : Nat → List Tok → Read Form
  | 0, _ => none
  | _ + 1, [] => none
  | n + 1, .sym c :: ts =>
      if c = '!' ∨ c = '≠' then (pUnit n ts).map fun r => (.neg r.1, r.2)
      else if c = '~' then (pUnit n ts).map fun r => (.caseless r.1, r.2)
      else if c = '*' then (pUnit n ts).map fun r => (.spaceless r.1, r.2)
      else if c = '(' then (pOr n ts).bind fun r =>
        if closed ',' r.2 then (pOr n r.2.tail).bind fun q => upto ')' (.pair r.1 q.1) q.2 else upto ')' r.1 r.2
      else if c = '[' then (pArgs n ']' ts).map fun r => (.list r.1, r.2)
      else signed c ts
  | _ + 1, .str s :: ts => some (.text s, ts)
  | n + 1, .word w :: ts =>
      numberOr w ts
        (if w = "Any".toList then some (.any, ts)
        else if w = "true".toList then some (.flag true, ts)
        else if w = "false".toList then some (.flag false, ts)
        else if closed '(' ts then (pArgs n ')' ts.tail).map fun r => (.call w r.1, r.2)
        else none)
/-- Arguments up to the bracket `c`. -/
def pArgs : Nat → Char → List Tok → Read Forms
  | 0, _, _ => none
  | n + 1, c, ts =>
      if closed c ts then some (.nil, ts.tail)
      else (pOr n ts).bind fun r => (pMore n c r.2).map fun q => (.cons r.1 q.1, q.2)
/-- The arguments behind the first. -/
def pMore : Nat → Char → List Tok → Read Forms
  | 0, _, _ => none
  | n + 1, c, ts =>
      if closed c ts then some (.nil, ts.tail)
      else if closed ',' ts then (pOr n ts.tail).bind fun r => (pMore n c r.2).map fun q => (.cons r.1 q.1, q.2)
      else none
end

/-- The text reads as `f`. -/
def Reads (t : List Char) (f : Form) : Prop := ∃ n, pOr n (lex t) = some (f, [])

/-- The text says exactly that the value is one of those that `P` accepts: it can be read, and however it is
read, it is true of just these values. -/
def Says (E : Env) (t : List Char) (P : Val → Prop) : Prop :=
  (∃ f, Reads t f) ∧ ∀ f, Reads t f → ∀ a, Holds E false false f a ↔ P a

/-- A name a matcher of the user may have. -/
def Name (w : List Char) : Prop :=
  (∃ c cs, w = c :: cs ∧ (c.isAlpha = true ∨ c = '_') ∧ ∀ d ∈ cs, d.isAlphanum = true ∨ d = '_') ∧
    w ∉ ["and", "or", "true", "false", "Any", "AllOf", "AnyOf", "NoneOf", "Every", "Has", "CountOf", "HasKey", "HasValue", "Substr", "StartsWith",
      "EndsWith", "We", "Re"].map String.toList

/-- A text that can stand in quotation marks. -/
def Plain (s : List Char) : Prop := ∀ c ∈ s, c ≠ '"' ∧ c ≠ '\x00' ∧ c ≠ '\x1b'

instance (s : List Char) : Decidable (Plain s) := inferInstanceAs (Decidable (∀ c ∈ s, _))

/-- White space in `s` is squashed already, for the matchers that do not do it. -/
def Squashed (k : Find) (s : List Char) : Prop := k = .we ∨ k = .re ∨ Str.squash s = s

mutual
/-- No number without a matcher, and no pair or `Every` of two, stands under an odd number of negations (`n` for one outside); no text
without a matcher stands under `~` (`ci`), `*` (`sq`) or an odd number of negations, unless it is an operand (`op`);
`Every`, `Has` (of one) and `CountOf` do not stand under `~`; texts can be quoted, and the names of the user's matchers are
names. -/
def Clear : Mx → Bool → Bool → Bool → Bool → Prop
  | .plain _, n, _, _, op => n = false ∨ op = true
  | .str s, n, ci, sq, op => Plain s ∧ ((n = false ∧ ci = false ∧ sq = false) ∨ op = true)
  | .se s, _, _, _, _ => Plain s
  | .find k s, _, _, sq, _ => Plain s ∧ (sq = true → Squashed k s)
  | .user w _, _, _, _, _ => Name w
  | .not m, n, ci, sq, _ => Clear m (!n) ci sq false
  | .bang m, n, ci, sq, _ => Clear m (!n) ci sq false
  | .caseless m, n, _, sq, _ => Clear m n true sq true
  | .spaceless m, n, ci, _, _ => Clear m n ci true true
  | .cond b t f, n, ci, sq, _ => if b then Clear t n ci sq false else Clear f n ci sq false
  | .and l r, _, ci, sq, _ => Clear l false ci sq true ∧ Clear r false ci sq true
  | .or l r, _, ci, sq, _ => Clear l false ci sq true ∧ Clear r false ci sq true
  | .allOf ms, _, ci, sq, _ => ClearAll ms ci sq
  | .anyOf ms, _, ci, sq, _ => ClearAll ms ci sq
  | .noneOf ms, _, ci, sq, _ => ClearAll ms ci sq
  | .every m, _, ci, sq, _ => ci = false ∧ Clear m false false sq false
  | .has m, _, ci, sq, _ => ci = false ∧ Clear m false false sq false
  | .countOf m, _, ci, sq, _ => ci = false ∧ Clear m false false sq false
  | .listOf ms, _, ci, sq, _ => ClearAll ms ci sq
  | .pair k v, n, ci, sq, _ => n = false ∧ Clear k false ci sq false ∧ Clear v false ci sq false
  | .hasPair k v, _, ci, sq, _ => Clear k false ci sq false ∧ Clear v false ci sq false
  | .hasKey k, _, ci, sq, _ => Clear k false ci sq false
  | .hasValue v, _, ci, sq, _ => Clear v false ci sq false
  | .everyPair k v, n, ci, sq, _ => n = false ∧ Clear k false ci sq false ∧ Clear v false ci sq false
  | .eq _, _, _, _, _ => True
  | .ord _ _, _, _, _, _ => True
  | .any, _, _, _, _ => True
  | .flag _, _, _, _, _ => True
/-- All of them. -/
def ClearAll : Ms → Bool → Bool → Prop
  | .nil, _, _ => True
  | .cons m ms, ci, sq => Clear m false ci sq false ∧ ClearAll ms ci sq
end

/-- The same, but a number or a text may stand anywhere if only negations, modifiers and conditions are around it. -/
def ClearTop : Mx → Bool → Bool → Bool → Prop
  | .plain _, _, _, _ => True
  | .str s, _, _, _ => Plain s
  | .not m, n, ci, sq => ClearTop m (!n) ci sq
  | .bang m, n, ci, sq => ClearTop m (!n) ci sq
  | .caseless m, n, _, sq => ClearTop m n true sq
  | .spaceless m, n, ci, _ => ClearTop m n ci true
  | .cond b t f, n, ci, sq => if b then ClearTop t n ci sq else ClearTop f n ci sq
  | m, n, ci, sq => Clear m n ci sq false

end H2.Expect.Spec
