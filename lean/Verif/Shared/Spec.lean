import Verif.Shared.Model
/-
Ownership without counters: who owns which object.
-/
namespace H2.Shared

/-- What each handle owns. -/
abbrev Owners := List (Option Nat)

/-- The operations on owners. -/
def own (w : Owners) : Op → Owners
  | .make o _ => w ++ [some o]
  | .null => w ++ [none]
  | .copy j => w ++ [(w[j]?).getD none]
  | .assign i j => w.set i ((w[j]?).getD none)
  | .reset i => w.set i none
  | .destroy i => w.eraseIdx i

/-- Histories a program can produce: handle numbers exist, `new` gives an object never given before
and `malloc` an address that is not in use. -/
inductive Run : List Op → State → Prop where
  | start : Run [] ⟨[], [], [], []⟩
  | step {ops s s' op} : Run ops s →
      (match op with
        | .make o m => o ∉ s.objects ∧ o ∉ s.deleted ∧ (∀ c ∈ s.counters, c.1 ≠ m)
        | .null => True
        | .copy j => j < s.handles.length
        | .assign i j => i < s.handles.length ∧ j < s.handles.length
        | .reset i => i < s.handles.length
        | .destroy i => i < s.handles.length) →
      s.step op = some s' → Run (ops ++ [op]) s'

end H2.Shared
