import Verif.Json.Node
/-
Specification of what the two sides of a comparison show.
-/
namespace H2.Json.Dual
open H2.Json

/-! ### What is visible -/

/-- Colours: words that begin with the escape character and a brace. -/
def Colour (w : Str) : Prop := ∃ t, w = '\x1b' :: '{' :: t
/-- White space only. -/
def White (w : Str) : Prop := ∀ c ∈ w, c ∈ [' ', '\t', '\n', '\x0b', '\x0c', '\r']

/-- `Visible ws t`: `t` is what is seen of the words `ws`, without colours and indentation. -/
inductive Visible : List Str → Str → Prop
  | nil : Visible [] []
  | skip {w ws t} : Colour w ∨ White w → Visible ws t → Visible (w :: ws) t
  | seen {w ws t} : ¬ Colour w → ¬ White w → Visible ws t → Visible (w :: ws) (w ++ t)

/-! ### Trees -/

/-- `Child j k v`: `v` is an element of `j`, or its member with the key `k`. -/
inductive Child : Json → Str → Json → Prop
  | element {l v} : v ∈ l → Child (.arr l) [] v
  | member {l k v} : (k, v) ∈ l → Child (.obj l) k v

/-- `Within j i`: `i` is `j` or somewhere in it. -/
inductive Within (j : Json) : Json → Prop
  | refl : Within j j
  | child {i k v} : Within j i → Child i k v → Within j v

/-- Nothing is missing inside the tree. -/
def Whole (j : Json) : Prop := ∀ i k v, Within j i → Child i k v → v ≠ .absent

/-! ### Texts -/

inductive Part where
  | value (j : Json)
  | member (k : Str) (j : Json)
  | members (l : List (Str × Json))

/-- The label of a member; elements of arrays have none. -/
def label (k : Str) : Str := if k = [] then [] else '"' :: k ++ "\": ".toList

/-- `Shown num may ordered p t`: `t` shows `p`, every child once, in its order if `ordered`; arrays and objects `may` allows may
have dots for their children if these take 20 characters or more.  Numbers are shown as `num` says. -/
inductive Shown (num : Dbl → Str) (may : Json → Prop) (ordered : Prop) : Part → Str → Prop
  | absent : Shown num may ordered (.value .absent) []
  | null : Shown num may ordered (.value .null) "null".toList
  | true : Shown num may ordered (.value (.bool .true)) "true".toList
  | false : Shown num may ordered (.value (.bool .false)) "false".toList
  | num {d} : Shown num may ordered (.value (.num d)) (num d)
  | str {s} : Shown num may ordered (.value (.str s)) ('"' :: s ++ ['"'])
  | pat {s} : Shown num may ordered (.value (.pat s)) ('/' :: s ++ ['/'])
  | arr {l m t} : l.Perm m → (ordered → l = m) → Shown num may ordered (.members (m.map fun v => ([], v))) t →
      Shown num may ordered (.value (.arr l)) ('[' :: t ++ [']'])
  | obj {l m t} : l.Perm m → (ordered → l = m) → Shown num may ordered (.members m) t →
      Shown num may ordered (.value (.obj l)) ('{' :: t ++ ['}'])
  | arrDots {l m t} : may (.arr l) → l.Perm m → Shown num may ordered (.members (m.map fun v => ([], v))) t → 20 ≤ t.length → Shown num may ordered (.value (.arr l)) "[ ... ]".toList
  | objDots {l m t} : may (.obj l) → l.Perm m → Shown num may ordered (.members m) t → 20 ≤ t.length → Shown num may ordered (.value (.obj l)) "{ ... }".toList
  | member {k j t} : Shown num may ordered (.value j) t → Shown num may ordered (.member k j) (label k ++ t)
  | none : Shown num may ordered (.members []) []
  | last {k j t} : Shown num may ordered (.member k j) t → Shown num may ordered (.members [(k, j)]) t
  | more {k j p l t u} : Shown num may ordered (.member k j) t → Shown num may ordered (.members (p :: l)) u →
      Shown num may ordered (.members ((k, j) :: p :: l)) (t ++ ", ".toList ++ u)

end H2.Json.Dual
