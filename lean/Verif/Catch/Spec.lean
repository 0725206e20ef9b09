import Verif.Catch.Model
namespace H2.Catch

variable {V : Type}

/-- No `Catch` inside. -/
def Flat : Prog V → Prop
  | .done => True
  | .throw _ _ _ next => Flat next
  | .block _ _ _ => False

/-- The first exception thrown by a body without `Catch` inside. -/
def firstThrow : Prog V → Option (Ty × V)
  | .throw t v _ _ => some (t, v)
  | _ => none

/-- What a `Catch` has to report. -/
inductive Promise : Expect V → Option (Ty × V) → Option Fail → Prop
  /-- `Catch()` is content when nothing is thrown … -/
  | quiet : Promise .nothrow none none
  /-- … and fails otherwise -/
  | unexpected (x : Ty × V) : Promise .nothrow (some x) (some .unexpected)
  /-- `Catch(T, m)` fails when nothing is thrown, -/
  | missing (t : Ty) (m : V → Bool) : Promise (.type t m) none (some .missing)
  /-- when another type is thrown, -/
  | wrongType (t t' : Ty) (m : V → Bool) (v : V) : t' ≠ t → Promise (.type t m) (some (t', v)) (some .wrongType)
  /-- when the value does not match, -/
  | mismatch (t : Ty) (m : V → Bool) (v : V) : m v = false → Promise (.type t m) (some (t, v)) (some .mismatch)
  /-- and is content otherwise. -/
  | content (t : Ty) (m : V → Bool) (v : V) : m v = true → Promise (.type t m) (some (t, v)) none

end H2.Catch
