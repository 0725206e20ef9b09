import Verif.Json.Node
import Verif.Json.Lexer
import Verif.Runner.Model
/-
Model of the comparison of two JSON trees side by side: `/repo/source/json/h2_dual.cpp`.
-/
namespace H2.Json.Dual
open H2.Json

/-! ### Lines -/

/-- A word, a line, lines: `h2_string`, `h2_line`, `h2_lines`, `/repo/source/utils/h2_line.hpp:1,38`. -/
abbrev Line := List Str
abbrev Lines := List Line

/-- `h2_blank`, `/repo/source/utils/h2_misc.cpp:1-6`. -/
def blank (s : Str) : Bool := s.all cSpace

/-- `h2_color::isctrl`, `/repo/source/utils/h2_color.cpp:92`. -/
def isctrl (s : Str) : Bool := s.take 2 == ['\x1b', '{']

/-- `h2_line::indent` on an empty line, `/repo/source/utils/h2_line.cpp:11-15`. -/
def indent (n : Nat) : Line := if n = 0 then [] else [List.replicate n ' ']

/-- `color`, `/repo/source/utils/h2_line.hpp:33`. -/
def color (word style : Str) : Line := [['\x1b', '{'] ++ style ++ ['}'], word, "\x1b{reset}".toList]

/-- `gray(" ... ")`, `/repo/source/utils/h2_line.hpp:34-35`. -/
def dots : Line := ["\x1b{+dark gray}".toList, " ... ".toList, "\x1b{-dark gray}".toList]

/-- `h2_lines::foldable`, `/repo/source/utils/h2_line.cpp:156-164`. -/
def foldable (ls : Lines) : Bool :=
  decide ((ls.map fun l => (l.map fun w => if !blank w && !isctrl w then w.length else 0).sum).sum < 20)

/-- `h2_lines::folds`, `/repo/source/utils/h2_line.cpp:166-174`. -/
def folds (ls : Lines) : Line := ls.flatten.filter fun w => !blank w

/-- `h2_lines::samesizify`, `/repo/source/utils/h2_line.cpp:194-199`. -/
def samesizify (a b : Lines) : Lines × Lines :=
  (a ++ List.replicate (max a.length b.length - a.length) [], b ++ List.replicate (max a.length b.length - b.length) [])

/-! ### Pairs -/

/-- `type` of a node, `/repo/source/json/h2_node.cpp:2-11`. -/
inductive Kind where
  | absent | null | boolean | number | string | pattern | array | object
deriving DecidableEq

def kind : Json → Kind
  | .absent => .absent
  | .null => .null
  | .bool _ => .boolean
  | .num _ => .number
  | .str _ => .string
  | .pat _ => .pattern
  | .arr _ => .array
  | .obj _ => .object

/-- A node among its siblings: number, key, value. -/
structure Kid where
  index : Int
  key : Str
  value : Json

/-- Members and elements with their numbers (`children`). -/
def number (i : Int) : List (Str × Json) → List Kid
  | [] => []
  | (k, x) :: l => ⟨i, k, x⟩ :: number (i + 1) l

def kids : Json → List Kid
  | .arr l => number 0 (l.map fun x => ([], x))
  | .obj l => number 0 l
  | _ => []

/-- What the comparison depends on: how numbers are compared and printed, how similar two nodes are
(`h2_json_match::similarity`), whether the case is ignored. -/
structure Ctx where
  env : Env
  print : Dbl → Str
  score : Kid → Kid → Rat
  caseless : Bool

/-- `get(name, caseless)`, `/repo/source/json/h2_node.cpp:42-48`: where. -/
def findKey (name : Str) (caseless : Bool) (l : List Kid) : Option Nat := l.findIdx? fun k => H2.Str.equals k.key name caseless

/-- `/repo/source/json/h2_dual.cpp:53-54`. -/
def byKey (x : Ctx) (c : Kid) (l : List Kid) : Option Nat :=
  match findKey c.key false l with
  | some i => some i
  | none => if x.caseless then findKey c.key true l else none

/-- The loop of `search`, `/repo/source/json/h2_match.cpp:87-93`. -/
def searchLoop (x : Ctx) (c : Kid) : List Kid → Nat → Rat → Option Nat → Option Nat
  | [], _, _, straw => straw
  | p :: l, i, best, straw =>
    if x.score c p > best then searchLoop x c l (i + 1) (x.score c p) (some i) else searchLoop x c l (i + 1) best straw

/-- `search`, `/repo/source/json/h2_match.cpp:83-95`.  (0.2 is the double nearest to it.) -/
def search (x : Ctx) (c : Kid) (l : List Kid) : Option Nat := searchLoop x c l 0 (3602879701896397 / 2 ^ 54) none

/-- A loop over the children of the expected node, `/repo/source/json/h2_dual.cpp:52-56,57-60`: the pairs taken away,
and the children left on both sides. -/
def pass (find : Kid → List Kid → Option Nat) : List Kid → List Kid → List (Kid × Kid) × List Kid × List Kid
  | [], as => ([], [], as)
  | c :: es, as =>
    match (find c as).bind fun i => as[i]?.map fun k => (k, as.eraseIdx i) with
    | some (k, as') => ((c, k) :: (pass find es as').1, (pass find es as').2)
    | none => ((pass find es as).1, c :: (pass find es as).2.1, (pass find es as).2.2)

/-- Two nodes side by side, one of which may be missing, and `relationship`. -/
structure Pair where
  e : Option Kid
  a : Option Kid
  relationship : Int

/-- `for (int i = 0; i < std::max(...); ++i)`, `/repo/source/json/h2_dual.cpp:62-64,67-68`. -/
def zip (relationship : Int) : List Kid → List Kid → List Pair
  | [], as => as.map fun a => ⟨none, some a, relationship⟩
  | es, [] => es.map fun e => ⟨some e, none, relationship⟩
  | e :: es, a :: as => ⟨some e, some a, relationship⟩ :: zip relationship es as

def kindOf : Option Kid → Kind
  | none => .absent
  | some k => kind k.value

def kidsOf : Option Kid → List Kid
  | none => []
  | some k => kids k.value

/-- The children, before they are sorted, `/repo/source/json/h2_dual.cpp:50-69`. -/
def pairs (x : Ctx) (e a : Option Kid) : List Pair :=
  if kindOf e = .object ∨ kindOf a = .object then
    let p := pass (byKey x) (kidsOf e) (kidsOf a)
    let q := pass (search x) p.2.1 p.2.2
    (p.1.map fun c => ⟨some c.1, some c.2, 0⟩) ++ (q.1.map fun c => ⟨some c.1, some c.2, 0⟩) ++ zip (-1) q.2.1 q.2.2
  else if kindOf e = .array ∨ kindOf a = .array then zip 0 (kidsOf e) (kidsOf a)
  else []

/-! ### The tree of pairs -/

/-- `h2_json_dual`, `/repo/source/json/h2_dual.cpp:1-9`. -/
inductive Dual where
  | mk (depth : Nat) (relationship index : Int) (keyEqual valueMatch eLast aLast : Bool) (eType aType : Kind)
      (eKey aKey eValue aValue : Str) (children : List Dual)

def Dual.index : Dual → Int
  | .mk _ _ i _ _ _ _ _ _ _ _ _ _ _ => i
def Dual.eType : Dual → Kind
  | .mk _ _ _ _ _ _ _ t _ _ _ _ _ _ => t
def Dual.aType : Dual → Kind
  | .mk _ _ _ _ _ _ _ _ t _ _ _ _ _ => t
def Dual.setLast (eLast aLast : Bool) : Dual → Dual
  | .mk d r i ke vm _ _ et at' ek ak ev av c => .mk d r i ke vm eLast aLast et at' ek ak ev av c

/-- `format_value`, `/repo/source/json/h2_node.cpp:58-70`, with a double quote for quote. -/
def formatValue (print : Dbl → Str) : Json → Str
  | .null => "null".toList
  | .bool true => "true".toList
  | .bool false => "false".toList
  | .num d => print d
  | .str s => ['"'] ++ s ++ ['"']
  | .pat s => ['/'] ++ s ++ ['/']
  | _ => []

/-- The key, `/repo/source/json/h2_node.cpp:75`. -/
def formatKey (k : Str) : Str := if k = [] then [] else ['"'] ++ k ++ ['"']

/-- `__mark_last`, `/repo/source/json/h2_dual.cpp:33-40`: whether something follows on either side. -/
def markLast : List Dual → List Dual
  | [] => []
  | d :: l =>
    d.setLast (!(l.any fun d => d.eType ≠ .absent) || d.eType = .absent) (!(l.any fun d => d.aType ≠ .absent) || d.aType = .absent)
      :: markLast l

/-- The value match of two nodes, `/repo/source/json/h2_match.cpp:24`. -/
def matchOf (x : Ctx) : Option Kid → Option Kid → Bool
  | some e, some a => matches? x.env x.caseless e.value a.value
  | _, _ => false

def indexOf : Option Kid → Int
  | some k => k.index
  | none => 0x7fffffff

def keyOf : Option Kid → Str
  | some k => formatKey k.key
  | none => []

def valueOf (x : Ctx) : Option Kid → Str
  | some k => formatValue x.print k.value
  | none => []

noncomputable def measure : Option Kid → Nat
  | some k => sizeOf k.value
  | none => 0

theorem number_lt {l : List (Str × Json)} {i : Int} {k : Kid} (h : k ∈ number i l) : sizeOf k.value < sizeOf l := by
  induction l generalizing i with
  | nil => simp [number] at h
  | cons p l ih =>
    obtain ⟨a, b⟩ := p
    simp only [number, List.mem_cons] at h
    rcases h with rfl | h
    · simp; omega
    · have := ih h; simp; omega

theorem number_arr_lt {l : List Json} {i : Int} {k : Kid} (h : k ∈ number i (l.map fun x => ([], x))) : sizeOf k.value < sizeOf l := by
  induction l generalizing i with
  | nil => simp [number] at h
  | cons p l ih =>
    simp only [List.map_cons, number, List.mem_cons] at h
    rcases h with rfl | h
    · simp; omega
    · have := ih h; simp; omega

theorem kids_lt {e : Option Kid} {k : Kid} (h : k ∈ kidsOf e) : sizeOf k.value < measure e := by
  cases e with
  | none => simp [kidsOf] at h
  | some c =>
    simp only [kidsOf, measure] at h ⊢
    obtain ⟨i, key, v⟩ := c
    cases v with
    | arr l => have := number_arr_lt h; simp; omega
    | obj l => have := number_lt h; simp; omega
    | _ => simp [kids] at h

theorem pass_mem {find : Kid → List Kid → Option Nat} (es : List Kid) : ∀ as, (∀ c ∈ (pass find es as).1, c.1 ∈ es ∧ c.2 ∈ as) ∧
    (∀ c ∈ (pass find es as).2.1, c ∈ es) ∧ (∀ c ∈ (pass find es as).2.2, c ∈ as) := by
  induction es with
  | nil => intro as; simp [pass]
  | cons c es ih =>
    intro as
    simp only [pass]
    split
    · rename_i k as' h
      obtain ⟨h1, h2, h3⟩ := ih as'
      obtain ⟨i, hi, hk⟩ := Option.bind_eq_some_iff.1 h
      obtain ⟨k', hk', e⟩ := Option.map_eq_some_iff.1 hk
      simp at e; obtain ⟨rfl, rfl⟩ := e
      have hsub : ∀ d ∈ as.eraseIdx i, d ∈ as := fun d hd => List.mem_of_mem_eraseIdx hd
      refine ⟨?_, ?_, ?_⟩
      · intro d hd
        rcases List.mem_cons.1 hd with rfl | hd
        · exact ⟨by simp, List.mem_of_getElem? hk'⟩
        · exact ⟨by simp [(h1 d hd).1], hsub _ (h1 d hd).2⟩
      · intro d hd; simp [h2 d hd]
      · intro d hd; exact hsub _ (h3 d hd)
    · obtain ⟨h1, h2, h3⟩ := ih as
      refine ⟨?_, ?_, h3⟩
      · intro d hd; exact ⟨by simp [(h1 d hd).1], (h1 d hd).2⟩
      · intro d hd
        rcases List.mem_cons.1 hd with rfl | hd
        · simp
        · simp [h2 d hd]

theorem zip_mem {r : Int} {es as : List Kid} {p : Pair} (h : p ∈ zip r es as) :
    (∀ k ∈ p.e, k ∈ es) ∧ (∀ k ∈ p.a, k ∈ as) ∧ (p.e ≠ none ∨ p.a ≠ none) := by
  induction es generalizing as with
  | nil =>
    simp only [zip, List.mem_map] at h
    obtain ⟨a, ha, rfl⟩ := h
    simp [ha]
  | cons e es ih =>
    cases as with
    | nil =>
      simp only [zip, List.mem_map] at h
      obtain ⟨a, ha, rfl⟩ := h
      simp at ha
      simp [ha]
    | cons a as =>
      simp only [zip, List.mem_cons] at h
      rcases h with rfl | h
      · simp
      · obtain ⟨h1, h2, h3⟩ := ih h
        exact ⟨fun k hk => by simp [h1 k hk], fun k hk => by simp [h2 k hk], h3⟩

theorem pairs_mem {x : Ctx} {e a : Option Kid} {p : Pair} (h : p ∈ pairs x e a) :
    (∀ k ∈ p.e, k ∈ kidsOf e) ∧ (∀ k ∈ p.a, k ∈ kidsOf a) ∧ (p.e ≠ none ∨ p.a ≠ none) := by
  unfold pairs at h
  split at h
  · obtain ⟨h1, h2, h3⟩ := pass_mem (find := byKey x) (kidsOf e) (kidsOf a)
    obtain ⟨g1, g2, g3⟩ := pass_mem (find := search x) (pass (byKey x) (kidsOf e) (kidsOf a)).2.1 (pass (byKey x) (kidsOf e) (kidsOf a)).2.2
    simp only [List.mem_append, List.mem_map] at h
    rcases h with (⟨c, hc, rfl⟩ | ⟨c, hc, rfl⟩) | h
    · simp [h1 c hc]
    · simp [h2 _ (g1 c hc).1, h3 _ (g1 c hc).2]
    · obtain ⟨f1, f2, f3⟩ := zip_mem h
      exact ⟨fun k hk => h2 _ (g2 _ (f1 k hk)), fun k hk => h3 _ (g3 _ (f2 k hk)), f3⟩
  · split at h
    · exact zip_mem h
    · simp at h

theorem pairs_lt {x : Ctx} {e a : Option Kid} {p : Pair} (h : p ∈ pairs x e a) : measure p.e + measure p.a < measure e + measure a := by
  obtain ⟨h1, h2, h3⟩ := pairs_mem h
  obtain ⟨pe, pa, r⟩ := p
  cases pe with
  | none =>
    cases pa with
    | none => simp at h3
    | some k => have := kids_lt (h2 k rfl); simp [measure] at *; omega
  | some c =>
    have := kids_lt (h1 c rfl)
    cases pa with
    | none => simp [measure] at *; omega
    | some k => have := kids_lt (h2 k rfl); simp [measure] at *; omega

/-- The constructor, `/repo/source/json/h2_dual.cpp:42-71`; `index_cmp`, `/repo/source/json/h2_dual.cpp:11-14`. -/
def dual (x : Ctx) (e a : Option Kid) (depth : Nat) (relationship : Int) : Dual :=
  let children := (pairs x e a).attach.map fun p => dual x p.1.e p.1.a (depth + 1) p.1.relationship
  let children := if kindOf e = .object ∨ kindOf a = .object then H2.Runner.sort (fun p q : Dual => p.index - q.index) children else children
  .mk depth relationship (indexOf e) (H2.Str.equals (keyOf e) (keyOf a) x.caseless) (matchOf x e a) true true (kindOf e) (kindOf a)
    (keyOf e) (keyOf a) (valueOf x e) (valueOf x a) (markLast children)
termination_by measure e + measure a
decreasing_by exact pairs_lt p.2

/-! ### The lines -/

/-- An object or an array. -/
def container (t : Kind) : Bool := t = .object || t = .array

/-- The line up to the children, on one side, `/repo/source/json/h2_dual.cpp:78-94`; `style` colours what differs. -/
def headLine (depth : Nat) (t : Kind) (key value style : Str) (keyEqual valueMatch : Bool) : Line :=
  indent (depth * 2) ++
    (if t ≠ .absent ∧ key ≠ [] then color key (if keyEqual then [] else style) ++ [": ".toList] else []) ++
    (if t ≠ .absent ∧ value ≠ [] then color value (if valueMatch then [] else style) else []) ++
    (if container t then [if t = .object then ['{'] else ['[']] else [])

/-- What closes the last line, `/repo/source/json/h2_dual.cpp:118-122`. -/
def tailLine (t : Kind) (last : Bool) : Line :=
  (if container t then [if t = .object then ['}'] else [']']] else []) ++ (if t ≠ .absent ∧ last = false then [", ".toList] else [])

/-- The lines of one side when nothing is folded, `/repo/source/json/h2_dual.cpp:107-111` and what follows. -/
def unfolded (depth : Nat) (t : Kind) (line tail : Line) (children : Lines) : Lines :=
  if container t then [line] ++ children ++ [indent (depth * 2) ++ tail] else [line ++ tail]

mutual
/-- `align`, `/repo/source/json/h2_dual.cpp:76-128`: the lines of both sides. -/
def align (fold : Int) : Dual → Lines × Lines
  | .mk depth relationship _ keyEqual valueMatch eLast aLast eType aType eKey aKey eValue aValue children =>
    let eStyle := if aType = .absent ∨ relationship < 0 then "light blue".toList else "green".toList
    let aStyle := if eType = .absent ∨ relationship < 0 then "light purple".toList else "red,bold".toList
    let eLine := headLine depth eType eKey eValue eStyle keyEqual valueMatch
    let aLine := headLine depth aType aKey aValue aStyle keyEqual valueMatch
    let c := alignAll fold children
    let eTail := tailLine eType eLast
    let aTail := tailLine aType aLast
    if (2 ≤ fold ∧ keyEqual ∧ valueMatch) ∨ (3 ≤ fold ∧ relationship < 0) then
      samesizify [eLine ++ (if foldable c.1 then folds c.1 else dots) ++ eTail] [aLine ++ (if foldable c.2 then folds c.2 else dots) ++ aTail]
    else if fold ≠ 0 ∧ foldable c.1 ∧ foldable c.2 then
      samesizify [eLine ++ folds c.1 ++ eTail] [aLine ++ folds c.2 ++ aTail]
    else samesizify (unfolded depth eType eLine eTail c.1) (unfolded depth aType aLine aTail c.2)
/-- The loop over the children, `/repo/source/json/h2_dual.cpp:96-98`. -/
def alignAll (fold : Int) : List Dual → Lines × Lines
  | [] => ([], [])
  | d :: l => ((align fold d).1 ++ (alignAll fold l).1, (align fold d).2 ++ (alignAll fold l).2)
end

/-- `h2_json::diff`, `/repo/source/json/h2_json.cpp:37-44`, for two trees that are read. -/
def diff (x : Ctx) (fold : Int) (e a : Json) : Lines × Lines :=
  align fold (dual x (some ⟨0, [], e⟩) (some ⟨0, [], a⟩) 0 0)

end H2.Json.Dual
