import Verif.MockText.Model
import Verif.MockText.Spec
import Verif.Message.Lemmas
import Verif.Stringify.Decode
namespace H2.MockText
open H2.Layout (Word Line text cells cellsFrom Style)
open H2.Message (Fail gray decimal commaIf printNormal locate text_append text_word text_gray text_nil text_locate text_indent text_number)
open H2.FailTree (Chain mockerCheck appendChild appendSubling foreach)
open H2.Mock (Checkin)
open Spec

/-! ### Numbers -/

theorem dec_eq (n : Int) : decimal n = dec n := rfl

theorem dec_int (n : Int) : dec n = H2.Stringify.intText n := rfl

theorem dec_inj {m n : Int} (h : dec m = dec n) : m = n := H2.Stringify.int_inj h

theorem dec_numeric (n : Int) : ∀ c ∈ dec n, H2.Stringify.numeric c = true := fun c h => (H2.Stringify.int_numeric n c h).1

theorem dec_esc (n : Int) : '\x1b' ∉ dec n := H2.Stringify.numeric_no_esc (dec_numeric n)

theorem numeric_space : H2.Stringify.numeric ' ' = false := by decide

/-- Two numbers each followed by a blank. -/
theorem dec_span {m n : Int} {a b : Text} (h : dec m ++ ' ' :: a = dec n ++ ' ' :: b) : m = n ∧ a = b := by
  have key : ∀ (x y : Text), (∀ c ∈ x, H2.Stringify.numeric c = true) → (∀ c ∈ y, H2.Stringify.numeric c = true) →
      x ++ ' ' :: a = y ++ ' ' :: b → x = y ∧ a = b := by
    intro x
    induction x with
    | nil =>
      intro y _ hy e
      cases y with
      | nil => exact ⟨rfl, (List.cons.inj e).2⟩
      | cons c y =>
        have : c = ' ' := (List.cons.inj e).1.symm
        have h1 := hy c List.mem_cons_self
        rw [this, numeric_space] at h1
        exact absurd h1 (by decide)
    | cons d x ih =>
      intro y hx hy e
      cases y with
      | nil =>
        have : d = ' ' := (List.cons.inj e).1
        have h1 := hx d List.mem_cons_self
        rw [this, numeric_space] at h1
        exact absurd h1 (by decide)
      | cons c y =>
        obtain ⟨e1, e2⟩ := List.cons.inj e
        obtain ⟨i1, i2⟩ := ih y (fun c h => hx c (List.mem_cons_of_mem _ h)) (fun c h => hy c (List.mem_cons_of_mem _ h)) e2
        exact ⟨by rw [e1, i1], i2⟩
  obtain ⟨e1, e2⟩ := key _ _ (dec_numeric m) (dec_numeric n) h
  exact ⟨dec_inj e1, e2⟩

/-- The phrase, cut after its first words. -/
theorem says_unique {t : Text} {P Q : Int → Prop} (h : Says t P) (g : Says t Q) : ∀ c, P c ↔ Q c := by
  have sp : ∀ (a : Text) (n : Int), a ++ dec n ++ " times".toList = a ++ (dec n ++ ' ' :: "times".toList) := fun a n => by
    rw [List.append_assoc]; rfl
  have sp2 : ∀ (m n : Int), "between ".toList ++ dec m ++ " and ".toList ++ dec n ++ " times".toList =
      "between ".toList ++ (dec m ++ ' ' :: ("and ".toList ++ (dec n ++ ' ' :: "times".toList))) := fun m n => by
    simp only [List.append_assoc]; rfl
  obtain ⟨t', et⟩ : ∃ t', t' = t := ⟨_, rfl⟩
  rw [← et] at g
  have first : ∀ {a b x y : Text}, a ++ x = b ++ y → a.length = b.length → x = y := fun e l => (List.append_inj e l).2
  have head : ∀ {a b x y : Text} (k : Nat), a ++ x = b ++ y → k ≤ a.length → k ≤ b.length → a.take k = b.take k := by
    intro a b x y k e h1 h2
    have := congrArg (List.take k) e
    rwa [List.take_append_of_le_length h1, List.take_append_of_le_length h2] at this
  cases h with
  | never =>
    cases g with
    | never => exact fun _ => Iff.rfl
    | any => exact absurd et (by decide)
    | atMost n => rw [sp] at et; exact absurd (head (b := "never called".toList) (y := []) 8 (et.trans (List.append_nil _).symm) (by decide) (by decide)) (by decide)
    | atLeast n => rw [sp] at et; exact absurd (head (b := "never called".toList) (y := []) 8 (et.trans (List.append_nil _).symm) (by decide) (by decide)) (by decide)
    | exactly n => rw [sp] at et; exact absurd (head (b := "never called".toList) (y := []) 8 (et.trans (List.append_nil _).symm) (by decide) (by decide)) (by decide)
    | between m n => rw [sp2] at et; exact absurd (head (b := "never called".toList) (y := []) 8 (et.trans (List.append_nil _).symm) (by decide) (by decide)) (by decide)
  | any =>
    cases g with
    | never => exact absurd et (by decide)
    | any => exact fun _ => Iff.rfl
    | atMost n => rw [sp] at et; exact absurd (head (b := "any number of times".toList) (y := []) 8 (et.trans (List.append_nil _).symm) (by decide) (by decide)) (by decide)
    | atLeast n => rw [sp] at et; exact absurd (head (b := "any number of times".toList) (y := []) 8 (et.trans (List.append_nil _).symm) (by decide) (by decide)) (by decide)
    | exactly n => rw [sp] at et; exact absurd (head (b := "any number of times".toList) (y := []) 8 (et.trans (List.append_nil _).symm) (by decide) (by decide)) (by decide)
    | between m n => rw [sp2] at et; exact absurd (head (b := "any number of times".toList) (y := []) 8 (et.trans (List.append_nil _).symm) (by decide) (by decide)) (by decide)
  | atMost k =>
    rw [sp] at et
    cases g with
    | never => exact absurd (head (a := "never called".toList) (x := []) 8 ((List.append_nil _).trans et) (by decide) (by decide)) (by decide)
    | any => exact absurd (head (a := "any number of times".toList) (x := []) 8 ((List.append_nil _).trans et) (by decide) (by decide)) (by decide)
    | atMost n => rw [sp] at et; rw [(dec_span (first et rfl)).1]; exact fun _ => Iff.rfl
    | atLeast n => rw [sp] at et; exact absurd (head 8 et (by decide) (by decide)) (by decide)
    | exactly n => rw [sp] at et; exact absurd (head 8 et (by decide) (by decide)) (by decide)
    | between m n => rw [sp2] at et; exact absurd (head 8 et (by decide) (by decide)) (by decide)
  | atLeast k =>
    rw [sp] at et
    cases g with
    | never => exact absurd (head (a := "never called".toList) (x := []) 8 ((List.append_nil _).trans et) (by decide) (by decide)) (by decide)
    | any => exact absurd (head (a := "any number of times".toList) (x := []) 8 ((List.append_nil _).trans et) (by decide) (by decide)) (by decide)
    | atMost n => rw [sp] at et; exact absurd (head 8 et (by decide) (by decide)) (by decide)
    | atLeast n => rw [sp] at et; rw [(dec_span (first et rfl)).1]; exact fun _ => Iff.rfl
    | exactly n => rw [sp] at et; exact absurd (head 8 et (by decide) (by decide)) (by decide)
    | between m n => rw [sp2] at et; exact absurd (head 8 et (by decide) (by decide)) (by decide)
  | exactly k =>
    rw [sp] at et
    cases g with
    | never => exact absurd (head (a := "never called".toList) (x := []) 8 ((List.append_nil _).trans et) (by decide) (by decide)) (by decide)
    | any => exact absurd (head (a := "any number of times".toList) (x := []) 8 ((List.append_nil _).trans et) (by decide) (by decide)) (by decide)
    | atMost n => rw [sp] at et; exact absurd (head 8 et (by decide) (by decide)) (by decide)
    | atLeast n => rw [sp] at et; exact absurd (head 8 et (by decide) (by decide)) (by decide)
    | exactly n => rw [sp] at et; rw [(dec_span (first et rfl)).1]; exact fun _ => Iff.rfl
    | between m n => rw [sp2] at et; exact absurd (head 8 et (by decide) (by decide)) (by decide)
  | between k l =>
    rw [sp2] at et
    cases g with
    | never => exact absurd (head (a := "never called".toList) (x := []) 8 ((List.append_nil _).trans et) (by decide) (by decide)) (by decide)
    | any => exact absurd (head (a := "any number of times".toList) (x := []) 8 ((List.append_nil _).trans et) (by decide) (by decide)) (by decide)
    | atMost n => rw [sp] at et; exact absurd (head 8 et (by decide) (by decide)) (by decide)
    | atLeast n => rw [sp] at et; exact absurd (head 8 et (by decide) (by decide)) (by decide)
    | exactly n => rw [sp] at et; exact absurd (head 8 et (by decide) (by decide)) (by decide)
    | between m n =>
      rw [sp2] at et
      obtain ⟨e1, e2⟩ := dec_span (first et rfl)
      obtain ⟨e3, -⟩ := dec_span (first e2 rfl)
      rw [e1, e3]
      exact fun _ => Iff.rfl

theorem expect_says (k : Checkin) (hm : k.most ≤ 0x7fffffff) :
    ∃ P, Says (expect k) P ∧ ∀ c : Int, 0 ≤ c → c < 2 ^ 31 → (P c ↔ k.least ≤ c ∧ c ≤ k.most) := by
  unfold expect
  split
  · rename_i h0
    split
    · exact ⟨_, .never, fun c h1 h2 => by omega⟩
    · split
      · exact ⟨_, .any, fun c h1 h2 => ⟨fun _ => by omega, fun _ => trivial⟩⟩
      · exact ⟨_, .atMost _, fun c h1 h2 => by omega⟩
  · split
    · exact ⟨_, .exactly _, fun c h1 h2 => by omega⟩
    · split
      · exact ⟨_, .atLeast _, fun c h1 h2 => by omega⟩
      · exact ⟨_, .between _ _, fun c h1 h2 => Iff.rfl⟩

theorem esc_append {a b : Text} (h1 : '\x1b' ∉ a) (h2 : '\x1b' ∉ b) : '\x1b' ∉ a ++ b := by
  intro h
  cases List.mem_append.mp h with
  | inl h => exact h1 h
  | inr h => exact h2 h

theorem expect_esc (k : Checkin) : '\x1b' ∉ expect k := by
  unfold expect
  split
  · split
    · decide
    · split
      · decide
      · exact esc_append (esc_append (by decide) (dec_esc _)) (by decide)
  · split
    · exact esc_append (esc_append (by decide) (dec_esc _)) (by decide)
    · split
      · exact esc_append (esc_append (by decide) (dec_esc _)) (by decide)
      · exact esc_append (esc_append (esc_append (esc_append (by decide) (dec_esc _)) (by decide)) (dec_esc _)) (by decide)

theorem actual_calls (k : Checkin) (h : 0 ≤ k.call) : actual k = calls k.call := by
  unfold actual calls
  by_cases h0 : k.call = 0
  · rw [if_pos h0, if_neg (by omega)]
  · rw [if_neg h0, if_pos (by omega)]; rfl

theorem calls_esc (n : Int) : '\x1b' ∉ calls n := by
  unfold calls
  split
  · decide
  · exact esc_append (dec_esc _) (by decide)

theorem indexTh_table : ∀ i : Fin 15, indexTh i.val = english (i.val + 1) := by decide +kernel

theorem indexTh_position (i : Nat) : Position (i + 1) (indexTh i) := by
  unfold indexTh
  by_cases h : i < 15
  · have key : ∀ i : Fin 15, ∃ s ∈ ["st", "nd", "rd", "th"], (match table[i.val + 1]? with
        | some s => s.toList
        | none => decimal (i.val + 1 : Nat) ++ "th".toList) = dec (i.val + 1 : Nat) ++ s.toList := by decide +kernel
    exact key ⟨i, h⟩
  · have : table[i + 1]? = none := List.getElem?_eq_none (by show 16 ≤ i + 1; omega)
    rw [this]
    exact ⟨"th", by decide, rfl⟩

theorem indexTh_esc (i : Nat) : '\x1b' ∉ indexTh i := by
  obtain ⟨s, hs, e⟩ := indexTh_position i
  rw [e]
  have key : ∀ s ∈ ["st", "nd", "rd", "th"], '\x1b' ∉ s.toList := by decide
  exact esc_append (dec_esc _) (key s hs)

/-! ### Lines -/

theorem text_style (w : Word) (l : Line) (h : Style w) : text (w :: l) = text l := by
  unfold text cells
  rw [H2.Layout.cellsFrom, if_pos h]
  have : ∀ (l : Line) (a b : Option Word), (cellsFrom a l).map (·.2) = (cellsFrom b l).map (·.2) := by
    intro l
    induction l with
    | nil => intro a b; rfl
    | cons w l ih =>
      intro a b
      rw [cellsFrom, cellsFrom]
      split
      · rfl
      · rw [List.map_append, List.map_append, ih a b, List.map_map, List.map_map]
        rfl
  exact this l _ _

theorem text_color (l : Line) (s : Word) : text (color l s) = text l := by
  unfold color
  have hs : Style ("\x1b{".toList ++ s ++ "}".toList) := ⟨s ++ "}".toList, rfl⟩
  have hr : Style "\x1b{reset}".toList := ⟨"reset}".toList, rfl⟩
  rw [List.cons_append, text_style _ _ hs, text_append, text_style _ _ hr]
  exact List.append_nil _

theorem text_delta (l : Line) (s : Word) : text (delta l s) = text l := by
  unfold delta
  have hs : Style ("\x1b{+".toList ++ s ++ "}".toList) := ⟨'+' :: (s ++ "}".toList), rfl⟩
  have hr : Style ("\x1b{-".toList ++ s ++ "}".toList) := ⟨'-' :: (s ++ "}".toList), rfl⟩
  rw [List.cons_append, text_style _ _ hs, text_append, text_style _ _ hr]
  exact List.append_nil _

theorem text_when (i : Nat) (expr : Word) (h : '\x1b' ∉ expr) :
    text (whenTh i expr) = " when ".toList ++ indexTh i ++ " ".toList ++ expr := by
  unfold whenTh
  rw [text_append, text_append, text_append, text_gray _ (by decide), text_word _ (indexTh_esc i), text_word _ (by decide), text_color,
    text_word _ h]

theorem text_types (seq : Int) (style : Word) (ts : List Word) (i : Nat) (h : ∀ t ∈ ts, '\x1b' ∉ t) :
    text (types seq style i ts) = if i = 0 then List.intercalate ", ".toList ts else (ts.map fun t => ", ".toList ++ t).flatten := by
  have rest : ∀ (ts : List Word) (i : Nat), (∀ t ∈ ts, '\x1b' ∉ t) → i ≠ 0 →
      text (types seq style i ts) = (ts.map fun t => ", ".toList ++ t).flatten := by
    intro ts
    induction ts with
    | nil => intro _ _ _; rfl
    | cons t ts ih =>
      intro i h hi
      rw [types, text_append, text_append, text_color, text_word _ (h t List.mem_cons_self),
        ih (i + 1) (fun t ht => h t (List.mem_cons_of_mem _ ht)) (by omega)]
      simp only [commaIf, hi, ne_eq, not_false_eq_true, decide_true, if_true]
      rw [text_gray _ (by decide), List.map_cons, List.flatten_cons]
  split
  · rename_i h0
    subst h0
    cases ts with
    | nil => rfl
    | cons t ts =>
      rw [types, text_append, text_append, text_color, text_word _ (h t List.mem_cons_self),
        rest ts 1 (fun t ht => h t (List.mem_cons_of_mem _ ht)) (by omega)]
      have e : text (gray (commaIf (decide ((0 : Nat) ≠ 0)) ", ".toList [])) = [] := rfl
      rw [e, List.nil_append]
      have : ∀ (ts : List Word) (t : Word), t ++ (ts.map fun t => ", ".toList ++ t).flatten = List.intercalate ", ".toList (t :: ts) := by
        intro ts
        induction ts with
        | nil => intro t; simp [List.intercalate]
        | cons u ts ih =>
          intro t
          rw [List.map_cons, List.flatten_cons, List.append_assoc, ih u]
          simp [List.intercalate]
      exact this ts t
  · rename_i h0
    exact rest ts i h h0

/-- No name has an escape character. -/
structure Plain (m : Mock) : Prop where
  ret : '\x1b' ∉ m.ret
  fn : '\x1b' ∉ m.fn
  types : ∀ t ∈ m.types, '\x1b' ∉ t
  place : ∀ p, m.filine = some p → '\x1b' ∉ p
  names : ∀ r ∈ m.rows, '\x1b' ∉ r.expr

theorem text_argument (m : Mock) (h : Plain m) (seq : Int) (style : Word) : text (argument m seq style) = list m.types := by
  unfold argument
  rw [text_append, text_append, text_gray _ (by decide), text_gray _ (by decide), text_types _ _ _ _ h.types]
  rfl

theorem text_signature (m : Mock) (h : Plain m) :
    text (signature m) = "MOCK<".toList ++ m.ret ++ " ".toList ++ m.fn ++ list m.types ++ ">".toList := by
  unfold signature
  rw [text_append, text_append, text_append, text_append, text_append, text_append, text_word _ (by decide), text_gray _ (by decide), text_delta, text_delta,
    text_word _ h.ret, text_word _ h.fn, text_word _ (by decide), text_argument m h, text_gray _ (by decide)]
  rfl

theorem text_normal (f : Fail) (ci : Nat) (h : ∀ p, f.filine = some p → '\x1b' ∉ p) :
    text (printNormal f ci) = List.replicate (ci * 2 + 1) ' ' ++ (if 0 ≤ f.seqno then dec f.seqno ++ ". ".toList else []) ++ text f.explain ++ at_ f.filine := by
  unfold printNormal
  rw [text_append, text_append, text_append, text_indent, text_locate f h]
  congr 2
  congr 1
  split
  · exact text_number _
  · rfl

/-- The first line of a failure. -/
def head (m : Mock) : Fail := { explain := signature m, filine := m.filine }

theorem text_title (m : Mock) (h : Plain m) : text (printNormal (head m) 0) = title m.ret m.fn m.types m.filine := by
  have e0 := text_normal (head m) 0 h.place
  have e1 : List.replicate (0 * 2 + 1) ' ' = [' '] := rfl
  have e2 : " MOCK<".toList = [' '] ++ "MOCK<".toList := by decide
  have e3 : (if (0 : Int) ≤ (head m).seqno then dec (head m).seqno ++ ". ".toList else []) = [] := if_neg (by show ¬ (0 : Int) ≤ -1; decide)
  have e4 : text (head m).explain = _ := text_signature m h
  rw [e1, e3, e4, List.append_nil] at e0
  rw [e0]
  unfold title
  rw [e2]
  simp only [List.append_assoc]
  exact rfl

/-! ### The tree -/

/-- Failures without children, side by side. -/
def chainOf : List Fail → Chain Fail
  | [] => .null
  | a :: l => .fail a .null (chainOf l)

theorem append_chain (l : List Fail) (a : Fail) : appendSubling (chainOf l) (.fail a .null .null) = chainOf (l ++ [a]) := by
  induction l with
  | nil => rfl
  | cons b l ih => rw [chainOf, appendSubling, ih]; rfl

theorem append_null (c : Chain Fail) : appendSubling c .null = c := by
  induction c with
  | null => rfl
  | fail a c s _ ih => rw [appendSubling, ih]

theorem foldl_chain (fn : Word) (total : Nat) (l : List (Row × Nat)) (pre : List Fail) :
    (l.map (checkRow fn total)).foldl appendSubling (chainOf pre) =
      chainOf (pre ++ (l.filter fun r => r.1.k.checkFails).map fun r => { explain := checkLine fn total r.2 r.1, seqno := r.2 }) := by
  induction l generalizing pre with
  | nil => simp
  | cons r l ih =>
    rw [List.map_cons, List.foldl_cons]
    cases h : r.1.k.checkFails with
    | true =>
      rw [checkRow, h, if_pos rfl, append_chain, ih, List.filter_cons_of_pos (by exact h), List.map_cons, List.append_assoc]
      rfl
    | false =>
      rw [checkRow, h, if_neg (by decide), append_null, ih, List.filter_cons_of_neg (by rw [h]; decide)]

theorem foreach_chain (l : List Fail) (si ci : Nat) : (foreach (chainOf l) si ci).map (fun x => (x.1, x.2.2)) = l.map fun a => (a, ci) := by
  induction l generalizing si with
  | nil => rfl
  | cons a l ih =>
    rw [chainOf, foreach, foreach, List.nil_append, List.map_cons, List.map_cons, ih]

theorem foreach_map (g : Fail → Fail) (c : Chain Fail) (si ci : Nat) :
    foreach (mapChain g c) si ci = (foreach c si ci).map fun x => (g x.1, x.2) := by
  induction c generalizing si ci with
  | null => rfl
  | fail a c s ih1 ih2 =>
    rw [mapChain, foreach, foreach, ih1, ih2, List.map_cons, List.map_append]

theorem foreach_within (c : Chain Fail) (si ci : Nat) : (foreach c si ci).map (fun x => (x.1, x.2.2)) = within ci c := by
  induction c generalizing si ci with
  | null => rfl
  | fail a c s ih1 ih2 => rw [foreach, within, List.map_cons, List.map_append, ih1, ih2]

theorem within_append (a b : Chain Fail) (d : Nat) : within d (appendSubling a b) = within d a ++ within d b := by
  induction a generalizing d with
  | null => rfl
  | fail a c s _ ih => rw [appendSubling, within, within, ih, List.cons_append, List.append_assoc]

theorem within_foldl (l : List (Chain Fail)) (a : Chain Fail) (d : Nat) :
    within d (l.foldl appendSubling a) = within d a ++ (l.map (within d)).flatten := by
  induction l generalizing a with
  | nil => simp
  | cons b l ih => rw [List.foldl_cons, ih, within_append, List.map_cons, List.flatten_cons, List.append_assoc]

theorem within_map (g : Fail → Fail) (c : Chain Fail) (d : Nat) : within d (mapChain g c) = (within d c).map fun x => (g x.1, x.2) := by
  induction c generalizing d with
  | null => rfl
  | fail a c s ih1 ih2 => rw [mapChain, within, within, ih1, ih2, List.map_cons, List.map_append]

/-! ### Styles -/

/-- The characters of a line in a style, when one is set before. -/
def styledFrom (st : Option Word) (style : Word) (l : Line) : Text := ((cellsFrom st l).filter fun x => x.1 = some style).map (·.2)

theorem styledFrom_style (st : Option Word) (style w : Word) (l : Line) (h : Style w) : styledFrom st style (w :: l) = styledFrom (some w) style l := by
  unfold styledFrom
  rw [cellsFrom, if_pos h]

theorem styledFrom_word (st : Option Word) (style w : Word) (l : Line) (h : '\x1b' ∉ w) :
    styledFrom st style (w :: l) = (if st = some style then w else []) ++ styledFrom st style l := by
  have hs : ¬ Style w := by
    rintro ⟨r, e⟩
    rw [e] at h
    exact h List.mem_cons_self
  unfold styledFrom
  rw [cellsFrom, if_neg hs, List.filter_append, List.map_append]
  congr 1
  split
  · rename_i e
    rw [List.filter_eq_self.mpr (by intro x hx; obtain ⟨c, _, rfl⟩ := List.mem_map.mp hx; simpa using e), List.map_map]
    exact List.map_id w
  · rename_i e
    rw [List.filter_eq_nil_iff.mpr (by intro x hx; obtain ⟨c, _, rfl⟩ := List.mem_map.mp hx; simpa using e)]
    rfl

theorem styledFrom_nil (st : Option Word) (style : Word) : styledFrom st style [] = [] := rfl

/-- The style of what is marked. -/
abbrev red : Word := "\x1b{red,bold}".toList

theorem gray_red (st : Option Word) (w : Word) (l : Line) (h : '\x1b' ∉ w) (hst : st ≠ some red) :
    ∃ st', st' ≠ some red ∧ styledFrom st red (gray w ++ l) = styledFrom st' red l := by
  unfold gray
  split
  · exact ⟨st, hst, rfl⟩
  · have h1 : Style "\x1b{+dark gray}".toList := ⟨"+dark gray}".toList, rfl⟩
    have h2 : Style "\x1b{-dark gray}".toList := ⟨"-dark gray}".toList, rfl⟩
    refine ⟨some "\x1b{-dark gray}".toList, by decide, ?_⟩
    show styledFrom st red ("\x1b{+dark gray}".toList :: w :: "\x1b{-dark gray}".toList :: l) = _
    rw [styledFrom_style _ _ _ _ h1, styledFrom_word _ _ _ _ h, styledFrom_style _ _ _ _ h2, if_neg (by decide)]
    rfl

theorem color_red (st : Option Word) (t s : Word) (l : Line) (h : '\x1b' ∉ t) :
    styledFrom st red (color [t] s ++ l) = (if s = "red,bold".toList then t else []) ++ styledFrom (some "\x1b{reset}".toList) red l := by
  have hs : Style ("\x1b{".toList ++ s ++ "}".toList) := ⟨s ++ "}".toList, rfl⟩
  have hr : Style "\x1b{reset}".toList := ⟨"reset}".toList, rfl⟩
  show styledFrom st red (("\x1b{".toList ++ s ++ "}".toList) :: t :: "\x1b{reset}".toList :: l) = _
  rw [styledFrom_style _ _ _ _ hs, styledFrom_word _ _ _ _ h, styledFrom_style _ _ _ _ hr]
  congr 1
  have : (some ("\x1b{".toList ++ s ++ "}".toList) = some red) ↔ s = "red,bold".toList := by
    constructor
    · intro e
      have e := Option.some.inj e
      have e2 : red = "\x1b{".toList ++ "red,bold".toList ++ "}".toList := by decide
      rw [e2] at e
      exact List.append_cancel_left (List.append_cancel_right e)
    · rintro rfl; decide
  by_cases e : s = "red,bold".toList
  · rw [if_pos e, if_pos (this.mpr e)]
  · rw [if_neg e, if_neg (fun h => e (this.mp h))]

theorem types_red (seq : Int) (style : Word) (hs : style ≠ "red,bold".toList) (ts : List Word) (i : Nat) (st : Option Word) (l : Line)
    (h : ∀ t ∈ ts, '\x1b' ∉ t) (hst : st ≠ some red) :
    ∃ st', st' ≠ some red ∧ styledFrom st red (types seq style i ts ++ l) =
      (if (i : Int) ≤ seq then (ts[(seq - i).toNat]?).getD [] else []) ++ styledFrom st' red l := by
  induction ts generalizing i st with
  | nil => exact ⟨st, hst, by rw [types]; simp⟩
  | cons t ts ih =>
    obtain ⟨s1, h1, e1⟩ := gray_red st (commaIf (i ≠ 0) ", ".toList []) (color [t] (if seq = i then "red,bold".toList else style) ++ (types seq style (i + 1) ts ++ l))
      (by unfold commaIf; split <;> decide) hst
    obtain ⟨s2, h2, e2⟩ := ih (i + 1) (some "\x1b{reset}".toList) (fun t ht => h t (List.mem_cons_of_mem _ ht)) (by decide)
    refine ⟨s2, h2, ?_⟩
    rw [types, List.append_assoc, List.append_assoc, e1, color_red _ _ _ _ (h t List.mem_cons_self), e2, ← List.append_assoc]
    congr 1
    by_cases c1 : seq = i
    · subst c1
      rw [if_pos rfl, if_pos rfl, if_neg (by omega), if_pos (Int.le_refl _), Int.sub_self]
      simp
    · rw [if_neg c1, if_neg hs, List.nil_append]
      by_cases c3 : (i : Int) ≤ seq
      · rw [if_pos c3, if_pos (by omega)]
        obtain ⟨k, hk⟩ : ∃ k, (seq - i).toNat = k + 1 := ⟨(seq - i).toNat - 1, by omega⟩
        rw [hk, List.getElem?_cons_succ, show (seq - (i + 1 : Nat)).toNat = k by omega]
      · rw [if_neg c3, if_neg (by omega)]

/-- The type at a position. -/
def marked (ts : List Word) (seq : Int) : Text := if 0 ≤ seq then (ts[seq.toNat]?).getD [] else []

theorem argument_red (m : Mock) (h : Plain m) (seq : Int) (style : Word) (hs : style ≠ "red,bold".toList) (st : Option Word) (hst : st ≠ some red) (l : Line) :
    ∃ st', st' ≠ some red ∧ styledFrom st red (argument m seq style ++ l) = marked m.types seq ++ styledFrom st' red l := by
  obtain ⟨s1, h1, e1⟩ := gray_red st "(".toList (types seq style 0 m.types ++ (gray ")".toList ++ l)) (by decide) hst
  obtain ⟨s2, h2, e2⟩ := types_red seq style hs m.types 0 s1 (gray ")".toList ++ l) h.types h1
  obtain ⟨s3, h3, e3⟩ := gray_red s2 ")".toList l (by decide) h2
  refine ⟨s3, h3, ?_⟩
  unfold argument
  rw [List.append_assoc, List.append_assoc, e1, e2, e3]
  rw [show seq - ((0 : Nat) : Int) = seq by omega]
  rfl

theorem word_red (st : Option Word) (w : Word) (l : Line) (h : '\x1b' ∉ w) (hst : st ≠ some red) : styledFrom st red ([w] ++ l) = styledFrom st red l := by
  show styledFrom st red (w :: l) = _
  rw [styledFrom_word _ _ _ _ h, if_neg hst]
  rfl

/-- What is added to a failure. -/
def more (m : Mock) (i : Nat) (seq : Int) (row : Row) : Line :=
  (gray "on ".toList ++ ([m.fn] ++ argument m seq [])) ++ (if 1 < m.rows.length then whenTh i row.expr else [])

theorem when_red (st : Option Word) (hst : st ≠ some red) (i : Nat) (expr : Word) (h : '\x1b' ∉ expr) : styledFrom st red (whenTh i expr) = [] := by
  unfold whenTh
  obtain ⟨s1, h1, e1⟩ := gray_red st " when ".toList ([indexTh i] ++ ([" ".toList] ++ (color [expr] "cyan".toList ++ []))) (by decide) hst
  rw [List.append_assoc, List.append_assoc, ← List.append_nil (color [expr] "cyan".toList), e1, word_red _ _ _ (indexTh_esc i) h1, word_red _ _ _ (by decide) h1,
    color_red _ _ _ _ h, if_neg (by decide)]
  rfl

theorem more_red (m : Mock) (h : Plain m) (i : Nat) (seq : Int) (row : Row) (hr : row ∈ m.rows) : styled red (more m i seq row) = marked m.types seq := by
  show styledFrom none red (more m i seq row) = _
  unfold more
  obtain ⟨s1, h1, e1⟩ := gray_red none "on ".toList ([m.fn] ++ (argument m seq [] ++ (if 1 < m.rows.length then whenTh i row.expr else []))) (by decide) (by decide)
  obtain ⟨s2, h2, e2⟩ := argument_red m h seq [] (by decide) s1 h1 (if 1 < m.rows.length then whenTh i row.expr else [])
  rw [List.append_assoc, List.append_assoc, e1, word_red _ _ _ h.fn h1, e2]
  have : styledFrom s2 red (if 1 < m.rows.length then whenTh i row.expr else []) = [] := by
    split
    · exact when_red _ h2 _ _ (h.names _ hr)
    · rfl
  rw [this, List.append_nil]

theorem text_more (m : Mock) (h : Plain m) (i : Nat) (seq : Int) (row : Row) (hr : row ∈ m.rows) :
    ∃ w, Which (1 < m.rows.length) (i + 1) row.expr w ∧ text (more m i seq row) = "on ".toList ++ m.fn ++ list m.types ++ w := by
  unfold more
  rw [text_append, text_append, text_append, text_gray _ (by decide), text_word _ h.fn, text_argument m h]
  refine ⟨text (if 1 < m.rows.length then whenTh i row.expr else []), ⟨fun hs => ?_, fun hs => ?_⟩, by simp only [List.append_assoc]⟩
  · rw [if_pos hs, text_when _ _ (h.names _ hr)]
    exact ⟨_, indexTh_position i, rfl⟩
  · rw [if_neg hs]; rfl

theorem blame_more (m : Mock) (i : Nat) (f : Fail) (row : Row) (hi : m.rows[i]? = some row) :
    blame m i f = { f with explain := f.explain ++ more m i f.seqno row } := by
  unfold blame more
  rw [List.getD_eq_getElem?_getD, hi, Option.getD_some, List.append_assoc]

theorem delta_red (st : Option Word) (t s : Word) (l : Line) (ht : '\x1b' ∉ t) :
    ∃ st', st' ≠ some red ∧ styledFrom st red (delta [t] s ++ l) = styledFrom st' red l := by
  have hs : Style ("\x1b{+".toList ++ s ++ "}".toList) := ⟨'+' :: (s ++ "}".toList), rfl⟩
  have hr : Style ("\x1b{-".toList ++ s ++ "}".toList) := ⟨'-' :: (s ++ "}".toList), rfl⟩
  refine ⟨some ("\x1b{-".toList ++ s ++ "}".toList), ?_, ?_⟩
  · intro e
    have e := congrArg (fun t => t.take 3) (Option.some.inj e)
    exact absurd (show ("\x1b{-".toList : List Char) = ['\x1b', '{', 'r'] from e) (by decide)
  · show styledFrom st red (("\x1b{+".toList ++ s ++ "}".toList) :: t :: ("\x1b{-".toList ++ s ++ "}".toList) :: l) = _
    rw [styledFrom_style _ _ _ _ hs, styledFrom_word _ _ _ _ ht, styledFrom_style _ _ _ _ hr, if_neg]
    · rfl
    · intro e
      have e := congrArg (fun t => t.take 3) (Option.some.inj e)
      exact absurd (show ("\x1b{+".toList : List Char) = ['\x1b', '{', 'r'] from e) (by decide)

theorem signature_red (m : Mock) (h : Plain m) : styled red (signature m) = [] := by
  show styledFrom none red (signature m) = _
  unfold signature
  obtain ⟨s1, h1, e1⟩ := gray_red none "<".toList (delta [m.ret] "cyan".toList ++ ([" ".toList] ++ (delta [m.fn] "green".toList ++ (argument m (-1) "cyan".toList ++ (gray ">".toList ++ []))))) (by decide) (by decide)
  obtain ⟨s2, h2, e2⟩ := delta_red s1 m.ret "cyan".toList ([" ".toList] ++ (delta [m.fn] "green".toList ++ (argument m (-1) "cyan".toList ++ (gray ">".toList ++ [])))) h.ret
  obtain ⟨s3, h3, e3⟩ := delta_red s2 m.fn "green".toList (argument m (-1) "cyan".toList ++ (gray ">".toList ++ [])) h.fn
  obtain ⟨s4, h4, e4⟩ := argument_red m h (-1) "cyan".toList (by decide) s3 h3 (gray ">".toList ++ [])
  obtain ⟨s5, h5, e5⟩ := gray_red s4 ">".toList [] (by decide) h4
  simp only [List.append_assoc]
  rw [← List.append_nil (gray ">".toList), word_red _ _ _ (by decide) (by decide), e1, e2, word_red _ _ _ (by decide) h2, e3, e4, e5]
  rfl

end H2.MockText
