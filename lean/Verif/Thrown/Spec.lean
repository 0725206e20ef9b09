import Verif.MemText.Spec
import Verif.Thrown.Model
/-
What a user expects to be told about exceptions.  A case is a list of steps (`Step`, of the model); `names` are the names of types as
they are written in a program, `shown` is what is shown as the type of an exception, which should be its name.  `text` is that of
`Verif.Layout.Spec`: what is seen of a line.
-/
namespace H2.Thrown
open H2.Layout (text)

abbrev Text := List Char

/-- All that is printed about an exception: its type, what about it, where that was found, and where it was thrown. -/
def report (type about : Text) (place : Option Text) (frames : List Text) : List Text :=
  (" exception ".toList ++ type ++ " ".toList ++ about ++ H2.MemText.at_ place ++ " at backtrace:".toList) :: H2.MemText.traceText 3 frames

/-- Whether a step is a failure. -/
def wrong : Step → Bool
  | .thrown _ => false
  | .block .nothrow _ none => false
  | .block .nothrow _ (some _) => true
  | .block (.type _ _) _ none => true
  | .block (.type t says) _ (some x) => decide (t ≠ x.ty) || says.isSome
  | .other _ => true

/-- The steps that are run: all when `-c` is given, else those up to the first failure. -/
def ran (onward : Bool) : List Step → List Step
  | [] => []
  | a :: as => if wrong a && !onward then [a] else a :: ran onward as

/-- Whether the steps come to their end. -/
def throughout (onward : Bool) (as : List Step) : Bool := onward || as.all fun a => !wrong a

/-- What is told about a step; `warn` is `-W exception`. -/
def told (warn : Bool) (names : Nat → Text) (shown : Exn → Text) : Step → List Text
  | .thrown x => if warn then report (shown x) "was thrown".toList none x.frames else []
  | .block .nothrow _ none => []
  | .block .nothrow place (some x) => report (shown x) "was thrown but expect no throw".toList (some place) x.frames
  | .block (.type t _) place none => [" expect exception ".toList ++ names t ++ " thrown but not at ".toList ++ place]
  | .block (.type t says) place (some x) =>
    if t ≠ x.ty then report (shown x) ("was thrown but expect type is ".toList ++ names t) (some place) x.frames
    else match says with
      | none => []
      | some l => l.map text ++ report (shown x) "was thrown".toList (some place) x.frames
  | .other l => l.map text

/-- Whether a step leaves a failure or a warning. -/
def noted (warn : Bool) : Step → Bool
  | .thrown _ => warn
  | a => wrong a

/-- What is told about an exception that no one catches, at the end of a case: without `-c` that it is not caught is told only if nothing
else is. -/
def toldUncaught (warn onward : Bool) (shown : Exn → Text) (as : List Step) (x : Exn) : List Text :=
  (if warn then report (shown x) "was thrown".toList none x.frames else []) ++
  (if onward || !(warn || as.any (noted warn)) then report (shown x) "was thrown but uncaught".toList none x.frames else [])

/-- All that is told about a case. -/
def toldAll (warn onward : Bool) (names : Nat → Text) (shown : Exn → Text) (as : List Step) (uncaught : Option Exn) : List Text :=
  ((ran onward as).map (told warn names shown)).flatten ++
  (if throughout onward as then match uncaught with
    | none => []
    | some x => toldUncaught warn onward shown as x
  else [])

/-- The exceptions of a step. -/
def exns : Step → List Exn
  | .thrown x => [x]
  | .block _ _ x => x.toList
  | .other _ => []

/-- The exceptions thrown in a case, in order. -/
def thrownIn (onward : Bool) (as : List Step) (uncaught : Option Exn) : List Exn :=
  ((ran onward as).map exns).flatten ++ (if throughout onward as then uncaught.toList else [])

/-- No control characters. -/
def Plain (t : Text) : Prop := '\x1b' ∉ t

/-- Types with a name that the C++ library knows and that has less than 1024 characters. -/
def Named (E : Env) (names : Nat → Text) (t : Nat) : Prop :=
  E.mangled t ≠ [] ∧ E.dem (E.mangled t) = some (names t) ∧ (names t).length < 1024 ∧ Plain (names t)

def FineExn (E : Env) (names : Nat → Text) (x : Exn) : Prop := Named E names x.ty ∧ ∀ f ∈ x.frames, Plain f

/-- What the theorems are about: types that have names, and no class derived from `std::exception` expected by a `Catch` in which nothing
or something else is thrown (which is undefined: C47). -/
def Fine (E : Env) (names : Nat → Text) (a : Step) : Prop :=
  (∀ x ∈ exns a, FineExn E names x) ∧
  match a with
  | .block .nothrow place _ => Plain place
  | .block (.type t _) place x => Plain place ∧ Named E names t ∧
      (E.exc t = true → ∃ y, x = some y ∧ (t = y.ty ∨ E.exc y.ty = true))
  | _ => True

end H2.Thrown
