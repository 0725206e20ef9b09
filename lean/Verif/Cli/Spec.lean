import Verif.Cli.Model
/-
Specification of the command line: how a sequence of options may be written, and what options are set
by it.
-/
namespace H2.Cli

/-- An option with what is given to it. -/
inductive Item where
  /-- an option without argument (letters that are not in use have no effect) -/
  | flag (c : Char)
  /-- an option with an optional number -/
  | number (c : Char) (digits : Option Str)
  /-- an option with any number of words -/
  | words (c : Char) (ws : List Str)
  /-- an option with an optional word -/
  | word (c : Char) (w : Option Str)
deriving DecidableEq

def numeric : List Char := ['b', 'F', 'r', 'v']
def listed : List Char := ['e', 'i', 'l', 's', 'W']
def single : List Char := ['o', 'S', 'h', '?']

/-- The first argument is an option: there is none, or it begins with `-`. -/
def OptionNext (args : List Str) : Prop := ∀ w ∈ args.head?, w.head? = some '-'
def isDigit (c : Char) : Bool := "0123456789".toList.contains c
/-- A number: at least one digit, nothing else. -/
def Number (w : Str) : Prop := w ≠ [] ∧ ∀ c ∈ w, isDigit c = true
/-- No digit follows. -/
def NoDigit (j : Str) : Prop := ∀ c ∈ j.head?, isDigit c = false

/-- The ways of writing: `Writes j args items` — the letters `j` left of one argument, followed by the
arguments `args`, write the options `items`. -/
inductive Writes : Str → List Str → List Item → Prop
  /-- nothing is left -/
  | nil : Writes [] [] []
  /-- words that belong to no option are passed over -/
  | stray {w args is} : w.head? ≠ some '-' → Writes [] args is → Writes [] (w :: args) is
  /-- `-` begins an argument of options, which may be written together -/
  | dash {j args is} : Writes j args is → Writes [] (('-' :: j) :: args) is
  | flag {c j args is} : c ∉ numeric → c ∉ listed → c ∉ single → Writes j args is →
      Writes (c :: j) args (.flag c :: is)
  /-- `-b3` -/
  | attached {c ds j args is} : c ∈ numeric → Number ds → NoDigit j → Writes j args is →
      Writes (c :: (ds ++ j)) args (.number c (some ds) :: is)
  /-- `-b 3` -/
  | separate {c w j args is} : c ∈ numeric → NoDigit j → Number w → Writes j args is →
      Writes (c :: j) (w :: args) (.number c (some w) :: is)
  /-- `-b` -/
  | bare {c j args is} : c ∈ numeric → NoDigit j → (∀ w ∈ args.head?, ¬ Number w) → Writes j args is →
      Writes (c :: j) args (.number c none :: is)
  /-- `-i w w w`, up to the next option -/
  | words {c ws j args is} : c ∈ listed → (∀ w ∈ ws, w.head? ≠ some '-') → OptionNext args → Writes j args is →
      Writes (c :: j) (ws ++ args) (.words c ws :: is)
  | word {c w j args is} : c ∈ single → w.head? ≠ some '-' → Writes j args is →
      Writes (c :: j) (w :: args) (.word c (some w) :: is)
  | noWord {c j args is} : c ∈ single → OptionNext args → Writes j args is →
      Writes (c :: j) args (.word c none :: is)

/-- `w` is `k` or an abbreviation of it, in upper or lower case. -/
def Abbreviates (w k : Str) : Prop := ∃ r, k.map Char.toLower = w.map Char.toLower ++ r
/-- `w` stands for `k`: of the keywords it abbreviates `k` only. -/
def Stands (ks : List Str) (w k : Str) : Prop := k ∈ ks ∧ Abbreviates w k ∧ ∀ k' ∈ ks, Abbreviates w k' → k' = k

def kList : List Str := ["suite".toList, "case".toList, "todo".toList, "tags".toList]
def kShuffle : List Str := ["random".toList, "name".toList, "file".toList, "reverse".toList]
def kWarn : List Str := ["exception".toList, "uncaught".toList, "leak".toList, "violate".toList, "asymmetric_free".toList]
def kSource : List Str := [['\''], "single".toList, ['"'], "double".toList, ['\\', '"']]
def kPattern : List Str := ["file".toList, "suite".toList, "case".toList, "tags".toList]

/-- The decimal value of digits. -/
def value (ds : Str) : Nat := ds.foldl (fun n d => 10 * n + (d.toNat - '0'.toNat)) 0

/-- What a word of an option has to be. -/
def GoodWord (c : Char) (w : Str) : Prop :=
  match c with
  | 'l' => ∃ k, Stands kList w k
  | 's' => ∃ k, Stands kShuffle w k
  | 'W' => ∃ k, Stands kWarn w k
  | 'S' => ∃ k, Stands kSource w k
  | _ => True

/-- A pattern without `=`, or of the form `key=pattern` with a key. -/
def GoodPattern (w : Str) : Prop :=
  '=' ∉ w ∨ ∃ k v, w = k ++ '=' :: v ∧ '=' ∉ k ∧ k.length < 64 ∧ ∃ key, Stands kPattern k key

/-- An option the program goes on after. -/
def Good (path : Str) : Item → Prop
  | .flag _ => True
  | .number _ none => True
  | .number _ (some ds) => value ds < 2 ^ 31
  | .words c ws => ∀ w ∈ ws, if c = 'e' ∨ c = 'i' then GoodPattern w else GoodWord c w
  | .word c w => c ≠ 'h' ∧ c ≠ '?' ∧ (c = 'o' → path.length + 10 < 256 ∧ ∀ w' ∈ w, w'.length < 256) ∧
      (c = 'S' → ∀ w' ∈ w, GoodWord c w')

/-- The words given to all the options of a letter. -/
def given (c : Char) (is : List Item) : List Str :=
  is.flatMap fun
    | .words d ws => if d = c then ws else []
    | _ => []

/-- One of the words given to the options `c` stands for `k`. -/
def Given (ks : List Str) (c : Char) (is : List Item) (k : Str) : Prop := ∃ w ∈ given c is, Stands ks w k

/-- The first option of the letter has no words. -/
def FirstBare (c : Char) (is : List Item) : Prop :=
  ∃ a b, is = a ++ .words c [] :: b ∧ ∀ ws, .words c ws ∉ a

/-- The value of a numeric option: that of its last occurrence. -/
def last (c : Char) (absent bare : Nat) (is : List Item) : Nat :=
  ((is.filterMap fun
    | .number d n => if d = c then some (match n with
      | some ds => value ds
      | none => bare) else none
    | _ => none).getLast?).getD absent

/-- The patterns of an option `-i` or `-e` for a key, the first 127 of them. -/
def keyed (c : Char) (is : List Item) (key : Str) (ps : List Str) : Prop :=
  ∃ f : Str → Option Str,
    (∀ w v, f w = some v ↔ ∃ k, w = k ++ '=' :: v ∧ '=' ∉ k ∧ Stands kPattern k key) ∧
    ps = ((given c is).filterMap f).take 127

/-- What options a sequence sets. -/
structure Sets (path : Str) (is : List Item) (o : Options) : Prop where
  continueAssert : o.continueAssert = true ↔ .flag 'c' ∈ is
  debuggerTrap : o.debuggerTrap = true ↔ .flag 'd' ∈ is
  onlyLastFailed : o.onlyLastFailed = true ↔ .flag 'f' ∈ is
  exitWithFails : o.exitWithFails = true ↔ .flag 'x' ∈ is
  /-- these switch each time they are given -/
  colorful : o.colorful = true ↔ (is.count (.flag 'C')) % 2 = 0
  progressing : o.progressing = true ↔ (is.count (.flag 'p')) % 2 = 0
  memoryCheck : o.memoryCheck = true ↔ (is.count (.flag 'm')) % 2 = 0
  breakAfterFails : o.breakAfterFails = last 'b' 0 1 is
  runRounds : o.runRounds = last 'r' 1 2 is
  foldJson : o.foldJson = last 'F' 5 0 is
  verbose : o.verbose = last 'v' 4 8 is
  warnException : o.warnException = true ↔ Given kWarn 'W' is "exception".toList
  warnUncaught : o.warnUncaught = true ↔ Given kWarn 'W' is "uncaught".toList
  warnLeak : o.warnLeak = true ↔ Given kWarn 'W' is "leak".toList
  warnViolate : o.warnViolate = true ↔ Given kWarn 'W' is "violate".toList
  warnAsymmetricFree : o.warnAsymmetricFree = true ↔ Given kWarn 'W' is "asymmetric_free".toList
  warnDoubleFree : o.warnDoubleFree = false
  shuffleRandom : o.shuffleRandom = true ↔ Given kShuffle 's' is "random".toList ∨ FirstBare 's' is
  shuffleName : o.shuffleName = true ↔ Given kShuffle 's' is "name".toList
  shuffleFile : o.shuffleFile = true ↔ Given kShuffle 's' is "file".toList
  shuffleReverse : o.shuffleReverse = true ↔ Given kShuffle 's' is "reverse".toList
  listSuite : o.listSuite = true ↔ Given kList 'l' is "suite".toList ∨ FirstBare 'l' is
  listCase : o.listCase = true ↔ Given kList 'l' is "case".toList ∨ FirstBare 'l' is
  listTodo : o.listTodo = true ↔ Given kList 'l' is "todo".toList ∨ FirstBare 'l' is
  listTags : o.listTags = true ↔ Given kList 'l' is "tags".toList
  /-- the last `-o` decides -/
  junitNone : (∀ w, .word 'o' w ∉ is) → o.junitPath = []
  junitBare : ∀ a b, is = a ++ .word 'o' none :: b → (∀ w, .word 'o' w ∉ b) → o.junitPath = path ++ ".junit.xml".toList
  junitPath : ∀ a b w, is = a ++ .word 'o' (some w) :: b → (∀ w, .word 'o' w ∉ b) → o.junitPath = w
  /-- the last `-S` decides -/
  quoteNone : (∀ w, .word 'S' w ∉ is) → o.jsonQuote = []
  quoteBare : ∀ a b, is = a ++ .word 'S' none :: b → (∀ w, .word 'S' w ∉ b) → o.jsonQuote = ['\\', '"']
  quote : ∀ a b w k, is = a ++ .word 'S' (some w) :: b → (∀ w, .word 'S' w ∉ b) → Stands kSource w k →
    o.jsonQuote = if k = "single".toList then ['\''] else if k = "double".toList then ['"'] else k
  includes : o.includes = ((given 'i' is).filter ('=' ∉ ·)).take 127
  excludes : o.excludes = ((given 'e' is).filter ('=' ∉ ·)).take 127
  fileIncludes : keyed 'i' is "file".toList o.fileIncludes
  fileExcludes : keyed 'e' is "file".toList o.fileExcludes
  suiteIncludes : keyed 'i' is "suite".toList o.suiteIncludes
  suiteExcludes : keyed 'e' is "suite".toList o.suiteExcludes
  caseIncludes : keyed 'i' is "case".toList o.caseIncludes
  caseExcludes : keyed 'e' is "case".toList o.caseExcludes
  tagsIncludes : keyed 'i' is "tags".toList o.tagsIncludes
  tagsExcludes : keyed 'e' is "tags".toList o.tagsExcludes

end H2.Cli
