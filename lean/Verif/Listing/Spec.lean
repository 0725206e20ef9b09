import Verif.Listing.Model
namespace H2.Listing

/-- The suites that are listed: those that are suites, and not filtered. -/
def listedSuites (visits : List Suite) : List Suite := visits.filter fun s => !s.absent && !s.filtered

/-- The cases, and the todos, of the kinds asked for, that are not filtered. -/
def listedCases (f : Flags) (s : Suite) : List Case := s.cases.filter fun c => !c.filtered && (if c.todo then f.todo else f.case)

/-- All cases. -/
def allCases (visits : List Suite) : List Case := visits.flatMap Suite.cases

/-- The tags of the suites that are not filtered, as often as they occur. -/
def suiteTags (visits : List Suite) : List Str := (listedSuites visits).flatMap Suite.tags
/-- The tags of the cases (and todos) that are not filtered. -/
def caseTags (visits : List Suite) : List Str := ((allCases visits).filter fun c => !c.filtered).flatMap Case.tags
/-- All the tags. -/
def allTags (visits : List Suite) : List Str := (visits.filter fun s => !s.absent).flatMap Suite.tags ++ (allCases visits).flatMap Case.tags

/-- The lines of suites: number and name. -/
def suiteLines (l : List Line) : List (Nat × Str) := l.filterMap fun | .suite n x => some (n, x) | _ => none
/-- The lines of cases: kind, number and name. -/
def caseLines (l : List Line) : List (Bool × Bool × Nat × Str) := l.filterMap fun | .case t a _ n x => some (t, a, n, x) | _ => none
/-- The numbers of cases in their suites. -/
def inSuiteNumbers (l : List Line) : List (Option Nat) := l.filterMap fun | .case _ _ k _ _ => some k | _ => none
/-- The lines of tags. -/
def tagLines (l : List Line) : List (Nat × Tag) := l.filterMap fun | .tag n t => some (n, t) | _ => none
/-- The names in the lines of suites (`true`) and cases (`false`). -/
def namesOf (l : List Line) : List (Bool × Str) := l.filterMap fun | .suite _ x => some (true, x) | .case _ _ _ _ x => some (false, x) | _ => none

end H2.Listing
