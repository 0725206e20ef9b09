import Verif.Stdio.Model
/-
Specification of the capture of output.
-/
namespace H2.Stdio

/-- What a program writes with a call, and to which descriptor (C library: strings end at the first NUL, `puts` adds a line break). -/
def written : Op → Option (Int × Bytes)
  | .write fd d => some (fd, d)
  | .fprintf fd t => some (fd, t.takeWhile (· ≠ 0))
  | .fputc fd c => some (fd, [c])
  | .fputs fd t => some (fd, t.takeWhile (· ≠ 0))
  | .fwrite fd d size nitems => some (fd, d.take (size * nitems))
  | .putchar c => some (1, [c])
  | .puts t => some (1, t.takeWhile (· ≠ 0) ++ [10])
  | .stream fd d => some (fd, d)
  | _ => none

/-- What it sends to the system's log. -/
def logged : Op → Bytes
  | .syslog t => t.takeWhile (· ≠ 0)
  | _ => []

/-- `COUT(m, type)` is for a stream: its name is in `type`, in any case, or `type` is empty. -/
def Wants (type name : Text) : Prop := type = [] ∨ ∃ a b, type.map Char.toLower = a ++ name ++ b

/-- The call is neither the beginning nor the end of a `COUT` block. -/
def Inner : Op → Prop
  | .start _ | .stop => False
  | _ => True

/-- The bytes a call writes to the selected streams. -/
def selected (o e l : Bool) (op : Op) : Bytes :=
  (match written op with
    | some (fd, d) => if (fd = 1 ∧ o) ∨ (fd = 2 ∧ e) then d else []
    | none => []) ++ if l then logged op else []

/-- The bytes a call writes to a descriptor. -/
def writtenTo (fd : Int) (op : Op) : Bytes :=
  match written op with
  | some (fd', d) => if fd' = fd then d else []
  | none => []

end H2.Stdio
