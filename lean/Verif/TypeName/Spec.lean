import Verif.TypeName.Model
/-
How types are written in a program (with `const` of the type itself in front and that of a pointee behind it), and what the names of types
are like.
-/
namespace H2.TypeName

/-- A type as it is written: names, then `const` or `volatile` and `*` for each pointer. -/
inductive Written : Ty → Text → Prop
  | name (w) : Written (.name w) w
  | ptr {t s} : Written t s → Written (.ptr false false t) (s ++ "*".toList)
  | ptrConst {t s} : Written t s → Written (.ptr true false t) (s ++ " const*".toList)
  | ptrVolatile {t s} : Written t s → Written (.ptr false true t) (s ++ " volatile*".toList)
  | ptrBoth {t s} : Written t s → Written (.ptr true true t) (s ++ " const volatile*".toList)

def ident (c : Char) : Bool := c.isAlphanum || c == '_'

/-- The name of a type is no qualifier and does not begin or end with one, nor with the sign of a pointer or a reference. -/
structure NameOk (w : Text) : Prop where
  first : w.takeWhile ident ≠ "const".toList
  star : w.getLast? ≠ some '*'
  amp : w.getLast? ≠ some '&'
  const : ¬ " const".toList <:+ w
  volatile : ¬ " volatile".toList <:+ w

/-- The names in a type are such. -/
def NamesOk : Ty → Prop
  | .name w => NameOk w
  | .ptr _ _ t => NamesOk t

end H2.TypeName
