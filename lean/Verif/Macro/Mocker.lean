import Verif.Macro.Model
/-
The macros by which `/repo/source/mock/h2_mocker.hpp` writes what it has twenty times.
-/
namespace H2.Macro

/-- `h2_matcher<h2_nth_decay<i, Args...>>`. -/
def matcherElems : List Elem :=
  [.tok (.id "h2_matcher"), .tok (.other "<"), .tok (.id "h2_nth_decay"), .tok (.other "<"), .arg 1, .tok .comma, .tok (.id "Args"), .tok (.other "..."), .tok (.other ">>")]

/-- `/repo/source/mock/h2_mocker.hpp:29`. -/
def typedefMatcher : Macro := ⟨some (2, false), matcherElems⟩

/-- `/repo/source/mock/h2_mocker.hpp:129`. -/
def defaultMatcher : Macro :=
  ⟨some (2, false), matcherElems ++ [.cat [.tok (.id "_"), .raw 1], .tok (.other "="), .tok (.other "{"), .tok (.other "}")]⟩

/-- `/repo/source/mock/h2_mocker.hpp:130`.  `>>>` are the tokens `>>` and `>`. -/
def forwardMatcher : Macro :=
  ⟨some (2, false), [.tok (.id "std"), .tok (.other "::"), .tok (.id "forward"), .tok (.other "<")] ++ matcherElems ++
    [.tok (.other ">"), .tok .lp, .cat [.tok (.id "_"), .raw 1], .tok .rp]⟩

/-- `/repo/source/mock/h2_mocker.hpp:198-204`. -/
def thMatcher : Macro :=
  ⟨some (2, false), [.tok (.id "h2_mocker"), .tok (.other "&"), .cat [.tok (.id "Th"), .raw 1], .tok .lp] ++ matcherElems ++
    [.tok (.id "e"), .tok (.other "="), .tok (.other "{"), .tok (.other "}"), .tok .rp, .tok (.other "{"),
     .tok (.id "if"), .tok .lp, .tok (.id "checkin_array"), .tok (.other "."), .tok (.id "empty"), .tok .lp, .tok .rp, .tok .rp, .tok (.id "Any"), .tok .lp, .tok .rp, .tok (.other ";"),
     .tok (.id "std"), .tok (.other "::"), .tok (.id "get"), .tok (.other "<"), .arg 1, .tok (.other ">"), .tok .lp, .tok (.id "matcher_array"), .tok (.other "."), .tok (.id "back"), .tok .lp, .tok .rp, .tok .rp,
     .tok (.other "="), .tok (.id "e"), .tok (.other ";"), .tok (.id "return"), .tok (.other "*"), .tok (.id "this"), .tok (.other ";"), .tok (.other "}")]⟩

/-- The macros of `/repo/source/mock/h2_mocker.hpp:29-31, 129-204`, with what else the program defines. -/
def mocker (user : String → Option Macro) (s : String) : Option Macro :=
  if s = "H2_Typedef_Matcher" then some typedefMatcher
  else if s = "H2_Default_Matcher" then some defaultMatcher
  else if s = "H2_Forward_Matcher" then some forwardMatcher
  else if s = "H2_Th_Matcher" then some thMatcher
  else user s

end H2.Macro
