import Verif.Debug.Model
/-
What a user expects of option `-d`.
-/
namespace H2.Debug.Spec

/-- A line of `/proc/self/status` that is not about a tracer: the fields before it have other names and short values;
the kernel writes a new line in the name of a process as two characters. -/
def Field (l : Text) : Prop := '\n' ∉ l ∧ l.length ≤ 1021 ∧ ∀ v, l ≠ "TracerPid:\t".toList ++ v

/-- `/proc/self/status` of a process that the process `pid` traces, or none if it is 0. -/
def Status (pid : Nat) (file : Text) : Prop :=
  ∃ (before : List Text) (after : Text), (∀ l ∈ before, Field l) ∧
    file = before.flatMap (· ++ ['\n']) ++ "TracerPid:\t".toList ++ (Nat.repr pid).toList ++ '\n' :: after

/-- What the process `pid` finds in its looks: the processes that trace it at these moments. -/
def Looks : List Nat → List (Option Text) → Prop
  | [], [] => True
  | p :: ps, some f :: fs => Status p f ∧ Looks ps fs
  | _, _ => False

/-- The moments at which it is traced. -/
def traced (ps : List Nat) : Nat := (ps.filter (· ≠ 0)).length

end H2.Debug.Spec
