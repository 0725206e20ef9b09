import Verif.Nm.Model
namespace H2.Nm

/-- The symbols of a program: all the lines but those of data. -/
def Data (t : Char) : Prop := t ∈ ['b', 'B', 'c', 'C', 'd', 'D', 'i', 'I', 'u', 'U']

/-- The program's symbols have a leading underscore: there is `_main`, but not `main`, among those that are not data. -/
def Underscored (lines : List Line) : Prop :=
  (∃ l ∈ lines, ¬ Data l.type ∧ l.symbol = ['_', 'm', 'a', 'i', 'n']) ∧ ¬ ∃ l ∈ lines, ¬ Data l.type ∧ l.symbol = ['m', 'a', 'i', 'n']

/-- `text` is how the symbol `sym` is called: without the leading underscore if symbols have one. -/
def Called (u : Prop) (sym text : List Char) : Prop :=
  (u ∧ sym = '_' :: text) ∨ (¬ (u ∧ ∃ t, sym = '_' :: t) ∧ sym = text)

/-- `text` is a function called `nm`, with its parameters, in some scope or none.  The scope has no parenthesis in it. -/
def IsFunction (nm text : List Char) : Prop :=
  ∃ scope args, text = scope ++ nm ++ '(' :: args ∧ '(' ∉ scope ∧ '(' ∉ nm ∧ (scope = [] ∨ ∃ outer, scope = outer ++ [':', ':'])

end H2.Nm
