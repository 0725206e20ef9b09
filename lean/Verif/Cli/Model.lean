/-
Model of the command line: `/repo/source/option/h2_option.cpp`, `h2_option.hpp`, and `h2_candidate` of
`/repo/source/utils/h2_misc.cpp`.

Arguments are lists of characters other than NUL.  Bit sets (`lists`, `shuffles`) are given bit by bit.
The text that is printed before the program exits is left out, and with it the 1024-byte buffer of
`h2_candidate`, which an invalid word of about 800 characters overruns.
-/
namespace H2.Cli

abbrev Str := List Char

/-- `h2_option`, `/repo/source/option/h2_option.hpp:18-45`, with its defaults. -/
structure Options where
  colorful : Bool := true
  progressing : Bool := true
  onlyLastFailed : Bool := false
  memoryCheck : Bool := true
  continueAssert : Bool := false
  debuggerTrap : Bool := false
  exitWithFails : Bool := false
  warnException : Bool := false
  warnUncaught : Bool := false
  warnLeak : Bool := false
  warnViolate : Bool := false
  warnDoubleFree : Bool := false
  warnAsymmetricFree : Bool := false
  breakAfterFails : Nat := 0
  runRounds : Nat := 1
  foldJson : Nat := 5
  shuffleRandom : Bool := false
  shuffleName : Bool := false
  shuffleFile : Bool := false
  shuffleReverse : Bool := false
  listSuite : Bool := false
  listCase : Bool := false
  listTodo : Bool := false
  listTags : Bool := false
  verbose : Nat := 4
  jsonQuote : Str := []
  junitPath : Str := []
  includes : List Str := []
  excludes : List Str := []
  fileIncludes : List Str := []
  fileExcludes : List Str := []
  suiteIncludes : List Str := []
  suiteExcludes : List Str := []
  caseIncludes : List Str := []
  caseExcludes : List Str := []
  tagsIncludes : List Str := []
  tagsExcludes : List Str := []
deriving DecidableEq

/-- What parsing leads to. -/
inductive Outcome where
  | ok (o : Options)
  /-- `exit(code)` -/
  | exit (code : Int)
  /-- a buffer is overrun, or `atoi` overflows -/
  | undefined
deriving DecidableEq

/-- `h2_array_append` on an array of 128, `/repo/source/utils/h2_misc.hpp:25`: the last entry stays null. -/
def append (l : List Str) (a : Str) : List Str := if l.length < 127 then l ++ [a] else l

/-- `!strncasecmp(total, a, strlen(a))`. -/
def begins : Str → Str → Bool
  | [], _ => true
  | _ :: _, [] => false
  | a :: as, t :: ts => a.toLower == t.toLower && begins as ts

/-- `h2_candidate`, `/repo/source/utils/h2_misc.cpp:147-167`: the only keyword that begins with `a`, or an
error text, which is no keyword (`none`). -/
def candidate (a : Str) (totals : List Str) : Option Str :=
  match totals.filter (begins a) with
  | [k] => some k
  | _ => none

/-- `getopt::next_option`, `/repo/source/option/h2_option.cpp:52-62`.  `j` is what is left of the current
argument after `*j`, `args` the arguments behind it. -/
def next : Str → List Str → Option (Char × Str × List Str)
  | c :: j, args => some (c, j, args)
  | [], [] => none
  | [], w :: args =>
    match w with
    | '-' :: c :: j => some (c, j, args)
    | _ => next [] args

/-- `getopt::extract_string`, `/repo/source/option/h2_option.cpp:53`. -/
def extractString : List Str → Option (Str × List Str)
  | [] => none
  | w :: args => if w.head? = some '-' then none else some (w, args)

/-- The characters of `strspn(…, "0123456789")`, `/repo/source/option/h2_option.cpp:67,77`. -/
def cDigit (c : Char) : Bool := '0'.toNat ≤ c.toNat && c.toNat ≤ '9'.toNat

/-- `atoi` of a string of digits; too large a value is not defined. -/
def atoi (ds : Str) : Option Nat :=
  let n := ds.foldl (fun n d => 10 * n + (d.toNat - '0'.toNat)) 0
  if n < 2 ^ 31 then some n else none

/-- `getopt::extract_number`, `/repo/source/option/h2_option.cpp:64-80`: the digits taken, if any. -/
def extractNumber (j : Str) (args : List Str) : Option Str × Str × List Str :=
  let ds := j.takeWhile cDigit
  if ds ≠ [] then (some ds, j.drop ds.length, args)
  else
    match args with
    | [] => (none, j, args)
    | w :: r => if w ≠ [] ∧ w.all cDigit then (some w, j, r) else (none, j, args)

/-- `strchr(t, '=')`: what precedes it, and what follows. -/
def splitEq (t : Str) : Option (Str × Str) :=
  match t.dropWhile (· ≠ '=') with
  | [] => none
  | _ :: v => some (t.takeWhile (· ≠ '='), v)

/-- One pattern of `-e`, `/repo/source/option/h2_option.cpp:104-112`; `t2` has 64 bytes. -/
def excludeWord (o : Options) (t : Str) : Outcome :=
  match splitEq t with
  | none => .ok { o with excludes := append o.excludes t }
  | some (k, v) =>
    if k.length < 64 then
      match candidate k ["file".toList, "suite".toList, "case".toList, "tags".toList] with
      | some r =>
        if r = "file".toList then .ok { o with fileExcludes := append o.fileExcludes v }
        else if r = "suite".toList then .ok { o with suiteExcludes := append o.suiteExcludes v }
        else if r = "case".toList then .ok { o with caseExcludes := append o.caseExcludes v }
        else .ok { o with tagsExcludes := append o.tagsExcludes v }
      | none => .exit (-1)
    else .undefined

/-- One pattern of `-i`, `/repo/source/option/h2_option.cpp:119-127`. -/
def includeWord (o : Options) (t : Str) : Outcome :=
  match splitEq t with
  | none => .ok { o with includes := append o.includes t }
  | some (k, v) =>
    if k.length < 64 then
      match candidate k ["file".toList, "suite".toList, "case".toList, "tags".toList] with
      | some r =>
        if r = "file".toList then .ok { o with fileIncludes := append o.fileIncludes v }
        else if r = "suite".toList then .ok { o with suiteIncludes := append o.suiteIncludes v }
        else if r = "case".toList then .ok { o with caseIncludes := append o.caseIncludes v }
        else .ok { o with tagsIncludes := append o.tagsIncludes v }
      | none => .exit (-1)
    else .undefined

/-- One word of `-l`, `/repo/source/option/h2_option.cpp:132-137`. -/
def listWord (o : Options) (t : Str) : Outcome :=
  match candidate t ["suite".toList, "case".toList, "todo".toList, "tags".toList] with
  | some r =>
    if r = "suite".toList then .ok { o with listSuite := true }
    else if r = "case".toList then .ok { o with listCase := true }
    else if r = "todo".toList then .ok { o with listTodo := true }
    else .ok { o with listTags := true }
  | none => .exit (-1)

/-- One word of `-s`, `/repo/source/option/h2_option.cpp:150-155`. -/
def shuffleWord (o : Options) (t : Str) : Outcome :=
  match candidate t ["random".toList, "name".toList, "file".toList, "reverse".toList] with
  | some r =>
    if r = "random".toList then .ok { o with shuffleRandom := true }
    else if r = "name".toList then .ok { o with shuffleName := true }
    else if r = "file".toList then .ok { o with shuffleFile := true }
    else .ok { o with shuffleReverse := true }
  | none => .exit (-1)

/-- One word of `-W`, `/repo/source/option/h2_option.cpp:175-182`. -/
def warnWord (o : Options) (t : Str) : Outcome :=
  match candidate t ["exception".toList, "uncaught".toList, "leak".toList, "violate".toList, "asymmetric_free".toList] with
  | some r =>
    if r = "exception".toList then .ok { o with warnException := true }
    else if r = "uncaught".toList then .ok { o with warnUncaught := true }
    else if r = "leak".toList then .ok { o with warnLeak := true }
    else if r = "violate".toList then .ok { o with warnViolate := true }
    else if r = "double_free".toList then .ok { o with warnDoubleFree := true }
    else .ok { o with warnAsymmetricFree := true }
  | none => .exit (-1)

/-- The word of `-S`, `/repo/source/option/h2_option.cpp:160-169`; the check of line 168 always holds. -/
def sourceWord (o : Options) (t : Option Str) : Outcome :=
  match t with
  | none => .ok { o with jsonQuote := ['\\', '"'] }
  | some t =>
    match candidate t [['\''], "single".toList, ['"'], "double".toList, ['\\', '"']] with
    | some r =>
      if r = ['\''] ∨ r = "single".toList then .ok { o with jsonQuote := ['\''] }
      else if r = ['"'] ∨ r = "double".toList then .ok { o with jsonQuote := ['"'] }
      else .ok { o with jsonQuote := ['\\', '"'] }
    | none => .exit (-1)

/-- `while ((t = get.extract_string())) …`: the words up to the next argument that begins with `-`. -/
def each (f : Options → Str → Outcome) (o : Options) : List Str → Outcome × List Str
  | [] => (.ok o, [])
  | w :: args =>
    match extractString (w :: args) with
    | none => (.ok o, w :: args)
    | some _ =>
      match f o w with
      | .ok o => each f o args
      | e => (e, args)

/-- `O.args` has 256 bytes: `getopt::arguments`, `/repo/source/option/h2_option.cpp:82-85`. -/
def argumentsFit (args : List Str) : Bool := (args.map fun w => w.length + 1).sum < 256

/-- An option with a number, for example `get.extract_number(break_after_fails = 1)`,
`/repo/source/option/h2_option.cpp:98`. -/
def numberOption (set : Nat → Options) (default : Nat) (j : Str) (args : List Str) : Outcome × Str × List Str :=
  match extractNumber j args with
  | (none, j, args) => (.ok (set default), j, args)
  | (some ds, j, args) =>
    match atoi ds with
    | some n => (.ok (set n), j, args)
    | none => (.undefined, j, args)

/-- An option with words, for example `/repo/source/option/h2_option.cpp:130-140`. -/
def wordsOption (f : Options → Str → Outcome) (last : Options → Options) (o : Options) (j : Str) (args : List Str) :
    Outcome × Str × List Str :=
  match each f o args with
  | (.ok o, args) => (.ok (last o), j, args)
  | (e, args) => (e, j, args)

/-- The effect of one option letter, `/repo/source/option/h2_option.cpp:96-187`: the outcome, and the
cursor behind what it has taken. -/
def option (path : Str) (o : Options) (c : Char) (j : Str) (args : List Str) : Outcome × Str × List Str :=
  match c with
  | 'b' => numberOption (fun n => { o with breakAfterFails := n }) 1 j args
  | 'c' => (.ok { o with continueAssert := true }, j, args)
  | 'C' => (.ok { o with colorful := !o.colorful }, j, args)
  | 'd' => (.ok { o with debuggerTrap := true }, j, args)
  | 'e' => wordsOption excludeWord id o j args
  | 'f' => (.ok { o with onlyLastFailed := true }, j, args)
  | 'F' => numberOption (fun n => { o with foldJson := n }) 0 j args
  | 'i' => wordsOption includeWord id o j args
  | 'l' => wordsOption listWord (fun o =>
      if !o.listSuite && !o.listCase && !o.listTodo && !o.listTags
      then { o with listSuite := true, listCase := true, listTodo := true } else o) o j args
  | 'm' => (.ok { o with memoryCheck := !o.memoryCheck }, j, args)
  | 'o' =>
    if path.length + 10 < 256 then
      match extractString args with
      | none => (.ok { o with junitPath := path ++ ".junit.xml".toList }, j, args)
      | some (w, args) => (if w.length < 256 then .ok { o with junitPath := w } else .undefined, j, args)
    else (.undefined, j, args)
  | 'p' => (.ok { o with progressing := !o.progressing }, j, args)
  | 'r' => numberOption (fun n => { o with runRounds := n }) 2 j args
  | 's' => wordsOption shuffleWord (fun o =>
      if !o.shuffleRandom && !o.shuffleName && !o.shuffleFile && !o.shuffleReverse
      then { o with shuffleRandom := true } else o) o j args
  | 'S' =>
    match extractString args with
    | none => (sourceWord o none, j, args)
    | some (w, args) => (sourceWord o (some w), j, args)
  | 'v' => numberOption (fun n => { o with verbose := n }) 8 j args
  | 'x' => (.ok { o with exitWithFails := true }, j, args)
  | 'W' => wordsOption warnWord id o j args
  | 'h' => (.exit 0, j, args)
  | '?' => (.exit 0, j, args)
  | _ => (.ok o, j, args)

/-- The loop of `h2_option::parse`, `/repo/source/option/h2_option.cpp:95-188`; the fuel bounds the number
of rounds and is at least the number of characters left. -/
def loop (path : Str) : Nat → Options → Str → List Str → Outcome
  | 0, o, _, _ => .ok o
  | f + 1, o, j, args =>
    match next j args with
    | none => .ok o
    | some (c, j, args) =>
      match option path o c j args with
      | (.ok o, j, args) => loop path f o j args
      | (e, _, _) => e

/-- `h2_option::parse`, `/repo/source/option/h2_option.cpp:88-189`: `path` is `argv[0]`, `args` the rest.
Every round takes at least one character of an argument. -/
def parse (path : Str) (args : List Str) : Outcome :=
  if argumentsFit args then loop path ((args.map List.length).sum + 1) {} [] args else .undefined

end H2.Cli
