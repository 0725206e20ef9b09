import Verif.Str.Model
/-
Model of descriptions, tags and filters: `/repo/source/core/h2_test.cpp`, `/repo/source/core/h2_filter.cpp`
and `h2_runner::filter`, `/repo/source/core/h2_runner.cpp:63-70`.

`wild` stands for `h2_pattern::wildcard_match(pattern, subject, true)`: `fnmatch` of the C library on POSIX,
the loop modelled in `Verif.Pattern` elsewhere.
-/
namespace H2.Filter

/-- `::isspace` in the C locale. -/
def isspace (c : Char) : Bool := c == ' ' || (9 ≤ c.toNat && c.toNat ≤ 13)

/-- `strip_left`, `/repo/source/utils/h2_misc.cpp:39-43`, without a right end. -/
def stripLeft (s : List Char) : List Char := s.dropWhile isspace

/-- The loops of `__split_describe`, `/repo/source/core/h2_test.cpp:7-10` and 13-16: the text before the first
`stop` outside double quotes and the text from it on. -/
def scan (stop : Char) : Bool → List Char → List Char × List Char
  | _, [] => ([], [])
  | quote, c :: s =>
    let quote := if c = '"' then !quote else quote
    if !quote && c == stop then ([], c :: s) else let r := scan stop quote s; (c :: r.1, r.2)

/-- `__split_describe`, `/repo/source/core/h2_test.cpp:1-23`: name and tags.  The buffers have 512 bytes; a longer
description overruns them (`none`). -/
def splitDescribe (describe : List Char) : Option (List Char × List Char) :=
  if 512 ≤ describe.length then none
  else
    let p := scan '[' false describe
    match p.2 with
    | [] => some (describe, [])
    | _ :: _ =>
      let q := scan ']' false p.2
      match q.2 with
      | [] => some (describe, [])
      | _ :: rest => some (p.1 ++ rest, q.1.drop 1)

/-- A delimiter of `strtok(tags_buf, " ,")`, `/repo/source/core/h2_test.cpp:30`. -/
def delim (c : Char) : Bool := c == ' ' || c == ','

/-- `strtok` until it returns null, `/repo/source/core/h2_test.cpp:30`.  The first argument bounds the number of
tokens by the length of the text. -/
def strtok : Nat → List Char → List (List Char)
  | 0, _ => []
  | n + 1, s =>
    match s.dropWhile delim with
    | [] => []
    | t => t.takeWhile (fun c => !delim c) :: strtok n ((t.dropWhile fun c => !delim c).drop 1)

/-- `h2_test`, `/repo/source/core/h2_test.hpp:9-30`, the fields used here. -/
structure Test where
  filine : List Char
  name : List Char := []
  tags : List (List Char) := []
deriving DecidableEq

/-- `h2_test::h2_test`, `/repo/source/core/h2_test.cpp:25-33`.  `h2_array_append`
(`/repo/source/utils/h2_misc.hpp:25`) fills 63 of the 64 slots and drops the rest. -/
def Test.new (filine describe : List Char) : Option Test :=
  match splitDescribe describe with
  | none => none
  | some r => some { filine := filine, name := stripLeft r.1, tags := (strtok r.2.length r.2).take 63 }

/-- `strcspn(pattern, "?*[]") < strlen(pattern)`, `/repo/source/core/h2_filter.cpp:5`, `/repo/source/core/h2_test.cpp:39`. -/
def special (p : List Char) : Bool := p.any fun c => c == '?' || c == '*' || c == '[' || c == ']'

/-- `strcasecmp(a, b) == 0`. -/
def same (a b : List Char) : Bool := H2.Str.lower a == H2.Str.lower b

section
variable (wild : List Char → List Char → Bool)

/-- `h2_test::tagged`, `/repo/source/core/h2_test.cpp:35-42`. -/
def tagged (t : Test) (p : List Char) : Bool := t.tags.any fun g => same g p || (special p && wild p g)

/-- `match_names`, `/repo/source/core/h2_filter.cpp:1-8` (`strcasestr`: `H2.Str.contains`). -/
def matchNames (ps : List (List Char)) (subject : List Char) : Bool :=
  ps.any fun p => H2.Str.contains subject p true || (special p && wild p subject)

/-- `match_tags`, `/repo/source/core/h2_filter.cpp:10-15`. -/
def matchTags (ps : List (List Char)) (t : Test) : Bool := ps.any fun p => tagged wild t p

/-- The ten pattern lists of the options, `/repo/source/core/h2_filter.cpp:17`. -/
structure Lists where
  includes : List (List Char) := []
  excludes : List (List Char) := []
  fileIncludes : List (List Char) := []
  fileExcludes : List (List Char) := []
  suiteIncludes : List (List Char) := []
  suiteExcludes : List (List Char) := []
  caseIncludes : List (List Char) := []
  caseExcludes : List (List Char) := []
  tagsIncludes : List (List Char) := []
  tagsExcludes : List (List Char) := []

/-- `c && f(c)`. -/
def opt (c : Option Test) (f : Test → Bool) : Bool :=
  match c with
  | none => false
  | some c => f c

/-- `patterns[0]`. -/
def given (ps : List (List Char)) : Bool := !ps.isEmpty

/-- `__filter`, `/repo/source/core/h2_filter.cpp:17-37`; `c` is null for a suite. -/
def filter (o : Lists) (s : Test) (c : Option Test) : Bool :=
  let names := matchNames wild
  let tags := matchTags wild
  let dropped :=
    if given o.includes || given o.fileIncludes || given o.suiteIncludes || given o.caseIncludes || given o.tagsIncludes then
      let m := false
      let m := if given o.includes then m || (names o.includes s.filine || opt c (fun c => names o.includes c.filine) || names o.includes s.name ||
        opt c (fun c => names o.includes c.name) || tags o.includes s || opt c (fun c => tags o.includes c)) else m
      let m := if given o.fileIncludes then m || (names o.fileIncludes s.filine || opt c (fun c => names o.fileIncludes c.filine)) else m
      let m := if given o.suiteIncludes then m || names o.suiteIncludes s.name else m
      let m := if given o.caseIncludes then m || opt c (fun c => names o.caseIncludes c.name) else m
      let m := if given o.tagsIncludes then m || (tags o.tagsIncludes s || opt c (fun c => tags o.tagsIncludes c)) else m
      !m
    else false
  if dropped then true
  else if given o.excludes && ((names o.excludes s.filine || opt c (fun c => names o.excludes c.filine)) ||
      (names o.excludes s.name || opt c (fun c => names o.excludes c.name)) || (tags o.excludes s || opt c (fun c => tags o.excludes c))) then true
  else if given o.fileExcludes && (names o.fileExcludes s.filine || opt c (fun c => names o.fileExcludes c.filine)) then true
  else if given o.suiteExcludes && names o.suiteExcludes s.name then true
  else if given o.caseExcludes && opt c (fun c => names o.caseExcludes c.name) then true
  else if given o.tagsExcludes && (tags o.tagsExcludes s || opt c (fun c => tags o.tagsExcludes c)) then true
  else false

/-- `h2_filter_case` for the cases of a suite, `/repo/source/core/h2_filter.cpp:44-48`: the flags of the cases and
of the suite. -/
def filterCases (o : Lists) (s : Test) : List Test → Bool → List Bool × Bool
  | [], f => ([], f)
  | c :: cs, f =>
    let b := filter wild o s (some c)
    let f := if !b then false else f
    let r := filterCases o s cs f
    (b :: r.1, r.2)

/-- The body of the loop of `h2_runner::filter`, `/repo/source/core/h2_runner.cpp:65-69`. -/
def filterSuite (o : Lists) (s : Test) (cs : List Test) : List Bool × Bool := filterCases wild o s cs (filter wild o s none)

end
end H2.Filter
