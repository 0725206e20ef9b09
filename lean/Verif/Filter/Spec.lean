import Verif.Filter.Model
/-
What descriptions and filter patterns mean.
-/
namespace H2.Filter

/-! ### Descriptions -/

def isQuote (c : Char) : Bool := c == '"'

/-- The double quotes in a text are paired, and `stop` occurs only between such a pair. -/
def Clean (stop : Char) (s : List Char) : Prop :=
  s.countP isQuote % 2 = 0 ∧ ∀ u v, s = u ++ stop :: v → u.countP isQuote % 2 = 1

/-- What separates tags: blanks and commas. -/
def Sep (c : Char) : Prop := c = ' ' ∨ c = ','

/-- `Tags text ts`: the text consists of the tags `ts`, each free of delimiters and not empty, in this order,
with delimiters before, between and after them. -/
inductive Tags : List Char → List (List Char) → Prop
  | none {ds} : (∀ c ∈ ds, Sep c) → Tags ds []
  | last {ds t} : (∀ c ∈ ds, Sep c) → t ≠ [] → (∀ c ∈ t, ¬ Sep c) → Tags (ds ++ t) [t]
  | more {ds t d rest ts} : (∀ c ∈ ds, Sep c) → t ≠ [] → (∀ c ∈ t, ¬ Sep c) → Sep d → Tags rest ts →
      Tags (ds ++ t ++ d :: rest) (t :: ts)

/-! ### Patterns -/

/-- Equal without regard to ASCII case. -/
def Alike (a b : List Char) : Prop := a.map Char.toLower = b.map Char.toLower

/-- The pattern contains a wildcard character. -/
def Special (p : List Char) : Prop := ∃ c ∈ p, c ∈ ['?', '*', '[', ']']

section
variable (Wild : List Char → List Char → Prop)

/-- A pattern fits a name: it occurs in it without regard to case, or it has wildcards and matches it. -/
def Fits (p t : List Char) : Prop := (∃ u v w, t = u ++ v ++ w ∧ Alike v p) ∨ (Special p ∧ Wild p t)

/-- A pattern fits a tag: it equals it without regard to case, or it has wildcards and matches it. -/
def FitsTag (p g : List Char) : Prop := Alike g p ∨ (Special p ∧ Wild p g)

/-- What a pattern is about. -/
inductive Category where
  | any | file | suite | case | tag
deriving DecidableEq

/-- A pattern of a category selects a case `c` of the suite `s` (or the suite itself, `none`). -/
def Selects (s : Test) (c : Option Test) (p : List Char) : Category → Prop
  | .file => Fits Wild p s.filine ∨ ∃ d, c = some d ∧ Fits Wild p d.filine
  | .suite => Fits Wild p s.name
  | .case => ∃ d, c = some d ∧ Fits Wild p d.name
  | .tag => (∃ g ∈ s.tags, FitsTag Wild p g) ∨ ∃ d, c = some d ∧ ∃ g ∈ d.tags, FitsTag Wild p g
  | .any => (Fits Wild p s.filine ∨ ∃ d, c = some d ∧ Fits Wild p d.filine) ∨ Fits Wild p s.name ∨ (∃ d, c = some d ∧ Fits Wild p d.name) ∨
      (∃ g ∈ s.tags, FitsTag Wild p g) ∨ ∃ d, c = some d ∧ ∃ g ∈ d.tags, FitsTag Wild p g

/-- The include patterns of a category. -/
def Lists.inc (o : Lists) : Category → List (List Char)
  | .any => o.includes
  | .file => o.fileIncludes
  | .suite => o.suiteIncludes
  | .case => o.caseIncludes
  | .tag => o.tagsIncludes

/-- The exclude patterns of a category. -/
def Lists.exc (o : Lists) : Category → List (List Char)
  | .any => o.excludes
  | .file => o.fileExcludes
  | .suite => o.suiteExcludes
  | .case => o.caseExcludes
  | .tag => o.tagsExcludes

/-- Some include pattern selects it, or there are none; and no exclude pattern selects it. -/
def Wanted (o : Lists) (s : Test) (c : Option Test) : Prop :=
  ((∀ k, o.inc k = []) ∨ ∃ k, ∃ p ∈ o.inc k, Selects Wild s c p k) ∧ ¬ ∃ k, ∃ p ∈ o.exc k, Selects Wild s c p k

end
end H2.Filter
