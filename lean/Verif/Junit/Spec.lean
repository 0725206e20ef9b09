import Verif.Runner.Spec
/-
A small XML reader: tags with attributes in quotation marks, nested properly.  A value must not hold `<`; entity references (`&`)
are not read.  Text between tags is skipped, as are declarations (`<?...?>`).
-/
namespace H2.Junit

abbrev Str := List Char

inductive Token where
  | start (name : Str) (attributes : List (Str × Str))
  | finish (name : Str)
deriving DecidableEq

/-- Where the reader of attributes is. -/
inductive At where
  | behind
  | gap
  | name (read : Str)
  | equal (name : Str)
  | value (name read : Str)

/-- `name="value"` pairs with blanks before each. -/
def attributes : At → Str → Option (List (Str × Str))
  | .behind, [] => some []
  | .behind, c :: r => if c = ' ' then attributes .gap r else none
  | .gap, [] => some []
  | .gap, c :: r => if c = ' ' then attributes .gap r else if c = '=' ∨ c = '"' then none else attributes (.name [c]) r
  | .name _, [] => none
  | .name n, c :: r => if c = '=' then attributes (.equal n) r else if c = '"' ∨ c = ' ' then none else attributes (.name (n ++ [c])) r
  | .equal _, [] => none
  | .equal n, c :: r => if c = '"' then attributes (.value n []) r else none
  | .value _ _, [] => none
  | .value n v, c :: r => if c = '"' then (attributes .behind r).map ((n, v) :: ·) else attributes (.value n (v ++ [c])) r

/-- What stands between `<` and `>`. -/
def markup (raw : Str) : Option (List Token) :=
  if raw.head? = some '?' then some []
  else if raw.head? = some '/' then some [.finish raw.tail]
  else
    match attributes .behind (raw.dropWhile (· ≠ ' ')) with
    | none => none
    | some as => if (as.map (·.1)).Nodup then some [.start (raw.takeWhile (· ≠ ' ')) as] else none

/-- Where the reader of tags is. -/
inductive Where where
  | text
  | tag (read : Str)
  | value (read : Str)

/-- The tags of a document. -/
def tokens : Where → Str → Option (List Token)
  | .text, [] => some []
  | .text, c :: r => if c = '<' then tokens (.tag []) r else tokens .text r
  | .tag _, [] => none
  | .tag raw, c :: r =>
    if c = '>' then
      match markup raw with
      | none => none
      | some ts => (tokens .text r).map (ts ++ ·)
    else if c = '<' then none
    else if c = '"' then tokens (.value (raw ++ [c])) r
    else tokens (.tag (raw ++ [c])) r
  | .value _, [] => none
  | .value raw, c :: r =>
    if c = '"' then tokens (.tag (raw ++ [c])) r
    else if c = '<' ∨ c = '&' then none
    else tokens (.value (raw ++ [c])) r

/-- An element: name, attributes, elements within. -/
inductive Node where
  | mk (name : Str) (attributes : List (Str × Str)) (children : List Node)

def Node.name : Node → Str
  | .mk n _ _ => n
def Node.attributes : Node → List (Str × Str)
  | .mk _ as _ => as
def Node.children : Node → List Node
  | .mk _ _ cs => cs

/-- Tags are nested properly: the elements read so far on this level, and the open tags around it. -/
def nested : List Token → List Node → List ((Str × List (Str × Str)) × List Node) → Option (List Node)
  | [], done, [] => some done
  | [], _, _ :: _ => none
  | .start n as :: r, done, up => nested r [] (((n, as), done) :: up)
  | .finish _ :: _, _, [] => none
  | .finish n :: r, done, ((m, as), before) :: up => if n = m then nested r (before ++ [.mk m as done]) up else none

/-- The one element a document consists of. -/
def read (text : Str) : Option Node :=
  match tokens .text text with
  | none => none
  | some ts => match nested ts [] [] with
    | some [root] => some root
    | _ => none

/-- The value of an attribute. -/
def Node.get (n : Node) (key : String) : Option Str := n.attributes.lookup key.toList

/-- The elements of a name in an element. -/
def Node.inside (n : Node) (name : String) : List Node := n.children.filter fun k => k.name == name.toList

/-- The elements of the report that stand for cases. -/
def testcases (doc : Node) : List Node := (doc.inside "testsuite").flatMap fun s => s.inside "testcase"

/-- A text that can stand in an attribute as it is. -/
def Plain (t : Str) : Prop := '<' ∉ t ∧ '&' ∉ t ∧ '"' ∉ t

/-- The word for an outcome. -/
def word : H2.Runner.Bucket → String
  | .passed => "Passed"
  | .warning => "Warning"
  | .failed => "Failed"
  | .todo => "TODO"
  | .filtered => "Filtered"
  | .ignored => "Ignored"

/-- No more than one reason not to run the case. -/
def OneReason (c : H2.Runner.Case) : Prop := ¬ (c.todo = true ∧ c.filtered = true) ∧ ¬ (c.todo = true ∧ c.ignored = true) ∧ ¬ (c.filtered = true ∧ c.ignored = true)

/-- What an element tells about a case that was visited. -/
structure Tells (n : Node) (e : H2.Runner.Event) : Prop where
  name : n.get "name" = some e.case.name
  status : OneReason e.case → ∀ b, e.is b = true → n.get "status" = some (word b).toList
  failure : e.ran = true → (n.inside "failure" ≠ [] ↔ e.is .failed = true)

/-- A text is a number of seconds with three decimals; without the point it is a number of milliseconds. -/
def Seconds (text : Str) (ms : Nat) : Prop :=
  ∃ w f, text = w ++ '.' :: f ∧ w ≠ [] ∧ f.length = 3 ∧ (∀ c ∈ w ++ f, c.isDigit = true) ∧ Nat.ofDigitChars 10 (w ++ f) 0 = ms

end H2.Junit
