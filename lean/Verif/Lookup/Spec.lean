import Verif.Nm.Props
import Verif.Layout.Spec
import Verif.Lookup.Model
/-
What a name stands for in a program, where the program is loaded, and what a virtual method is.  `Called`, `IsFunction`, `Functions`,
`Underscored` and `Data` are those of `Verif.Nm`: how a symbol of the file is called by a user.
-/
namespace H2.Lookup
open H2.Nm (Symbol Called Underscored Data Functions OneProgram)
open H2.Stub (Addr)

abbrev Text := List Char

/-- `l` is the first line that is not data whose symbol is called `nm`. -/
def First (lines : List H2.Nm.Line) (nm : Text) (l : H2.Nm.Line) : Prop :=
  ∃ front back, lines = front ++ l :: back ∧ ¬ Data l.type ∧ Called (Underscored lines) (l.symbol.take 127) nm ∧
    ∀ l' ∈ front, ¬ Data l'.type → ¬ Called (Underscored lines) (l'.symbol.take 127) nm

/-- No symbol is called `nm`. -/
def Nobody (lines : List H2.Nm.Line) (nm : Text) : Prop := ∀ l ∈ lines, ¬ Data l.type → ¬ Called (Underscored lines) (l.symbol.take 127) nm

/-- `all` are the symbols `nm` stands for: the symbol called so, or else the functions called so, whatever their scopes and parameters. -/
def Stands (P : Program) (nm : Text) (all : List Symbol) : Prop :=
  (∃ l, First P.dl nm l ∧ all = [⟨l.symbol.take 127, l.addr⟩]) ∨ (Nobody P.dl nm ∧ Functions (Underscored P.dl) nm P.dl all)

/-- The program is loaded at `base`: what the file has at an address is `base` higher in memory. -/
structure LoadedAt (P : Program) (base : Addr) : Prop where
  one : OneProgram P.dl P.ml
  before : P.before ≠ ':'
  main : ∃ l, First P.dl "main".toList l ∧ P.mainPtr = base + BitVec.ofNat 64 l.addr
  test : ∃ l, First P.ml ("_ZTV".toList ++ P.testName) l ∧ P.testTable = base + BitVec.ofNat 64 l.addr + 16

/-- `names` are what the symbols `ps` are called. -/
def AreCalled (P : Program) (ps : List Symbol) (names : List Text) : Prop :=
  names.length = ps.length ∧ ∀ (i : Nat) p n, ps[i]? = some p → names[i]? = some n → Called (Underscored P.dl) p.symbol n

/-- A number, in decimal. -/
def dec (n : Nat) : Text := Nat.toDigits 10 n

/-- What is told when a name does not stand for one function. -/
def told (nm : Text) (candidates : List Text) : List Text :=
  ((if candidates = [] then " Not found ".toList else " Find multiple ".toList) ++ nm) ::
    (List.range candidates.length).map fun i => "  ".toList ++ dec i ++ ". ".toList ++ candidates.getD i []

/-- The virtual table of a class that is at `addr` in the file: after two other words, the functions of its methods. -/
def Table (P : Program) (base : Addr) (addr : Nat) (methods : List Addr) : Prop :=
  ∀ (k : Nat) m, methods[k]? = some m → P.word (base + BitVec.ofNat 64 addr + 16 + BitVec.ofNat 64 (8 * k)) = m

/-- `o` is an object of a class with these methods. -/
def Object (P : Program) (o : Addr) (methods : List Addr) : Prop :=
  ∀ (k : Nat) m, methods[k]? = some m → P.word (P.word o + BitVec.ofNat 64 (8 * k)) = m

/-- The pointer to the virtual method number `k`: in the C++ ABI the offset in the table, plus one where the lowest bit marks virtual
methods; `adj` is where in an object the part with this table is (with the mark, on ARM). -/
def virtualPtr (low : Bool) (k : Nat) (adj : Addr) : MemberPtr := ⟨BitVec.ofNat 64 (if low then 8 * k + 1 else 8 * k), adj⟩

/-- So many methods can be told from functions by their pointers. -/
def methodLimit (low : Bool) : Nat := if low then 1000 else 100

end H2.Lookup
