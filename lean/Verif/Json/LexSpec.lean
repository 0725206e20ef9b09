import Verif.Json.Lexer
/-
Specification of the tokens of a JSON text.
-/
namespace H2.Json

/-- White space. -/
def isSpace (c : Char) : Bool := [' ', '\t', '\n', '\x0b', '\x0c', '\r'].contains c
/-- Structural characters. -/
def isPunct (c : Char) : Bool := "{}[]:,".toList.contains c

/-- Text without white space at either end. -/
def Stripped (s t : Str) : Prop :=
  ∃ a b, s = a ++ t ++ b ∧ (∀ c ∈ a ++ b, isSpace c = true) ∧
    (∀ c ∈ t.head?, isSpace c = false) ∧ (∀ c ∈ t.getLast?, isSpace c = false)

/-- Text in which no character that `stop`s stands, unless a backslash precedes it; a backslash escapes
the character behind it. -/
inductive Body (stop : Char → Bool) : Str → Prop
  | nil : Body stop []
  | char {c s} : c ≠ '\\' → stop c = false → Body stop s → Body stop (c :: s)
  | escaped {c s} : Body stop s → Body stop ('\\' :: c :: s)

/-- The same at the end of the input, where the last backslash may stand alone. -/
inductive LastBody (stop : Char → Bool) : Str → Prop
  | body {s} : Body stop s → LastBody stop s
  | backslash {s} : Body stop s → LastBody stop (s ++ ['\\'])

/-- A character that begins a plain word. -/
def Begins (c : Char) : Prop := isSpace c = false ∧ isPunct c = false ∧ c ≠ '"' ∧ c ≠ '\'' ∧ c ≠ '/'

/-- `Tokens s ts`: the tokens of the text `s` are `ts`. -/
inductive Tokens : Str → List Str → Prop
  | nil : Tokens [] []
  /-- white space between tokens is passed over -/
  | space {c s ts} : isSpace c = true → Tokens s ts → Tokens (c :: s) ts
  /-- structural characters are tokens -/
  | punct {c s ts} : isPunct c = true → Tokens s ts → Tokens (c :: s) ([c] :: ts)
  /-- quoted text, quotes included, is one token -/
  | quoted {q b s ts} : q = '"' ∨ q = '\'' → Body (· == q) b → Tokens s ts →
      Tokens (q :: b ++ q :: s) ((q :: b ++ [q]) :: ts)
  /-- so is text between slashes, in which nothing is escaped -/
  | pattern {b s ts} : '/' ∉ b → Tokens s ts → Tokens ('/' :: b ++ '/' :: s) (('/' :: b ++ ['/']) :: ts)
  /-- any other text up to the next structural character is one token, without the white space around it -/
  | word {w t c s ts} : (∃ c' w', w = c' :: w' ∧ Begins c') → Body isPunct w → isPunct c = true → Stripped w t →
      Tokens s ts → Tokens (w ++ c :: s) (t :: [c] :: ts)
  | lastWord {w t} : (∃ c' w', w = c' :: w' ∧ Begins c') → LastBody isPunct w → Stripped w t → Tokens w [t]
  /-- text that is not closed extends to the end -/
  | openQuoted {q b t} : q = '"' ∨ q = '\'' → LastBody (· == q) b → Stripped (q :: b) t → Tokens (q :: b) [t]
  | openPattern {b t} : '/' ∉ b → Stripped ('/' :: b) t → Tokens ('/' :: b) [t]

end H2.Json
