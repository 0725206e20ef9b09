import Verif.Macro.Model
/-
The macros by which `/repo/source/core/h2_core.hpp` takes the first of the values of `Cases`, `Casess` and `Todos`.
-/
namespace H2.Macro

/-- `/repo/source/core/h2_core.hpp:39`. -/
def anTop : Macro := ⟨some (0, true), [.tok (.id "H2PP_EVAL"), .tok .lp, .tok (.id "_H2_An"), .tok .lp, .arg 0, .tok .rp, .tok .rp]⟩

/-- `/repo/source/core/h2_core.hpp:40`. -/
def anList : Macro :=
  ⟨some (0, true), [.tok (.id "H2PP_CAT2"), .tok .lp, .tok (.id "_H2_An1_"), .tok .comma, .tok (.id "H2PP_IS_EMPTY"), .tok .lp, .arg 0, .tok .rp, .tok .rp,
    .tok .lp, .tok .lp, .arg 0, .tok .rp, .tok .rp]⟩

/-- `/repo/source/core/h2_core.hpp:41`. -/
def anNothing : Macro := ⟨some (0, true), [.tok (.num "0")]⟩

/-- `/repo/source/core/h2_core.hpp:42`. -/
def anSome : Macro := ⟨some (1, false), [.tok (.id "_H2_An1"), .arg 0]⟩

/-- `/repo/source/core/h2_core.hpp:43`. -/
def anHead : Macro :=
  ⟨some (1, true), [.tok (.id "H2PP_CAT2"), .tok .lp, .tok (.id "_H2_An2_"), .tok .comma, .tok (.id "H2PP_IS_PARENTHESIS"), .tok .lp, .arg 0, .tok .rp, .tok .rp,
    .tok .lp, .arg 0, .tok .rp]⟩

/-- `/repo/source/core/h2_core.hpp:44`. -/
def anValue : Macro := ⟨some (1, false), [.arg 0]⟩

/-- `/repo/source/core/h2_core.hpp:45`. -/
def anInside : Macro := ⟨some (1, false), [.tok (.id "H2PP_DEFER"), .tok .lp, .tok (.id "_H2_An2"), .tok .rp, .tok .lp, .tok .rp, .arg 0]⟩

/-- `/repo/source/core/h2_core.hpp:46`. -/
def anAgain : Macro := ⟨some (0, false), [.tok (.id "_H2_An")]⟩

/-- `/repo/source/core/h2_core.hpp:48`. -/
def anX : Macro := ⟨some (0, true), [.tok (.id "H2_An"), .tok .lp, .tok (.id "H2PP_HEAD"), .tok .lp, .arg 0, .tok .rp, .tok .rp]⟩

/-- `/repo/source/core/h2_core.hpp:49`. -/
def anY : Macro := ⟨some (0, true), [.tok (.id "H2_An"), .tok .lp, .tok (.id "H2PP_LAST"), .tok .lp, .arg 0, .tok .rp, .tok .rp]⟩

/-- The names of these macros and the macros. -/
def anTable : List (String × Macro) :=
  [("H2_An", anTop), ("_H2_An", anList), ("_H2_An1_1", anNothing), ("_H2_An1_0", anSome), ("_H2_An1", anHead), ("_H2_An2_0", anValue), ("_H2_An2_1", anInside), ("_H2_An2", anAgain),
   ("H2_XAn", anX), ("H2_YAn", anY)]

/-- The macros of `/repo/source/core/h2_core.hpp:38-50`, with what else the program defines. -/
def cases (user : String → Option Macro) (s : String) : Option Macro := (anTable.lookup s).or (user s)

end H2.Macro
