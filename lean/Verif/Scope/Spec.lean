import Verif.Scope.Model
/-
What memory blocks mean, read off the structure of the program: an area belongs to the innermost block around its allocation, unless that is
within an unmem block.
-/
namespace H2.Scope

/-- Code in a block of height `d`, inside (`un`) or outside of unmem blocks: the areas and messages after it.  `none` is what is not allowed:
in an unmem block, to free memory that was allocated outside. -/
def meaning (d : Nat) (un : Bool) : Prog → List Area → Option (List Area × List Msg)
  | .skip, as => some (as, [])
  | .seq p q, as =>
    match meaning d un p as with
    | none => none
    | some (as, ms) =>
      match meaning d un q as with
      | none => none
      | some (as, ns) => some (as, ms ++ ns)
  | .alloc x, as => some (⟨x, if un then .libc else .block d⟩ :: as, [])
  | .free x, as =>
    match as.findIdx? (fun a => a.label = x) with
    | none => some (as, [])
    | some i => if un = true ∧ (as[i]?.map Area.owner) ≠ some .libc then none else some (as.eraseIdx i, [])
  | .lookup, as => some (as, [])
  | .fail m, as => some (as, [.assert m])
  | .block unmem noleak p, as =>
    match meaning (d + 1) (un || unmem) p as with
    | none => none
    | some (as, ms) =>
      let left := as.filter (fun a => a.owner = .block (d + 1))
      some (as.map (fun a => if a.owner = .block (d + 1) then { a with owner := .gone } else a),
        if noleak || left.isEmpty then ms else ms ++ [.leak (left.map (·.label))])

/-- Code without lookups and unmem blocks. -/
def Quiet : Prog → Prop
  | .lookup => False
  | .block unmem _ p => unmem = false ∧ Quiet p
  | .seq p q => Quiet p ∧ Quiet q
  | _ => True

/-- In unmem blocks there are no lookups and no further unmem blocks. -/
def Tame : Prog → Prop
  | .block true _ p => Quiet p
  | .block false _ p => Tame p
  | .seq p q => Tame p ∧ Tame q
  | _ => True

end H2.Scope
