import Verif.Json.DumpLemmas
import Verif.Json.JeProps
/-
C73: what is printed for use in a program is a string literal with the same value.
-/
namespace H2.Json.Je
open H2.Json H2.Json.Dual
open H2.Layout (lineWidth padding)

/-! ### Source and value, word by word -/

/-- Text without backslashes. -/
def dec (s : Str) : Str := s.filter (· ≠ '\\')

theorem dec_append (a b : Str) : dec (a ++ b) = dec a ++ dec b := List.filter_append ..

theorem chars_append {a a' b b' : Str} (h : Chars a a') (h' : Chars b b') : Chars (a ++ b) (a' ++ b') := by
  induction h with
  | nil => exact h'
  | plain h1 h2 h3 _ ih => exact .plain h1 h2 h3 ih
  | escape h1 _ ih => exact .escape h1 ih

theorem chars_newline {a a' : Str} (h : Chars a a') : '\n' ∉ a := by
  induction h with
  | nil => simp
  | plain h1 h2 h3 _ ih => simp only [List.mem_cons, not_or]; exact ⟨fun e => h3 e.symm, ih⟩
  | escape h1 _ ih =>
    simp only [List.mem_cons, not_or]
    refine ⟨by decide, ?_, ih⟩
    rcases h1 with rfl | rfl | rfl <;> decide

/-- Text that means itself. -/
def Fine (s : Str) : Prop := ∀ c ∈ s, c ≠ '"' ∧ c ≠ '\\' ∧ c ≠ '\n'

theorem fine_chars {s : Str} (h : Fine s) : Chars s s ∧ dec s = s := by
  induction s with
  | nil => exact ⟨.nil, rfl⟩
  | cons c s ih =>
    have := h c (by simp)
    have h' := ih fun d hd => h d (by simp [hd])
    refine ⟨.plain this.1 this.2.1 this.2.2 h'.1, ?_⟩
    unfold dec at h' ⊢
    rw [List.filter_cons_of_pos (by simpa using this.2.1), h'.2]

theorem fine_dec {s : Str} (h : Fine s) : Chars s (dec s) := by rw [(fine_chars h).2]; exact (fine_chars h).1

/-- A word of the source: what it means is seen without backslashes, and neither is blank. -/
structure Good (w : Str) : Prop where
  chars : Chars w (dec w)
  kept : keep w = true
  decKept : keep (dec w) = true

theorem Fine.good {w : Str} (h : Fine w) (hv : Visible w) : Good w := ⟨fine_dec h, hv.keep, by rw [(fine_chars h).2]; exact hv.keep⟩

theorem fine_cons {c : Char} {s : Str} (h1 : c ≠ '"' ∧ c ≠ '\\' ∧ c ≠ '\n') (h : Fine s) : Fine (c :: s) := by
  intro d hd
  rcases List.mem_cons.1 hd with rfl | hd
  · exact h1
  · exact h d hd

theorem fine_append {a b : Str} (ha : Fine a) (hb : Fine b) : Fine (a ++ b) := by
  intro d hd
  rcases List.mem_append.1 hd with hd | hd
  · exact ha d hd
  · exact hb d hd

theorem fine_digits {s : Str} (h : ∀ c ∈ s, Expr.isDecimal c = true) : Fine s := by
  intro c hc
  have := h c hc
  simp only [Expr.isDecimal, List.contains_iff_mem] at this
  have key : ∀ c ∈ "0123456789".toList, c ≠ '"' ∧ c ≠ '\\' ∧ c ≠ '\n' := by decide
  exact key c this

theorem fine_int (n : Int) : Fine (H2.Stringify.intText n) := by
  cases n with
  | ofNat k => rw [show Int.ofNat k = (k : Int) from rfl, H2.Stringify.nat_text]; exact fine_digits (number_digits k).2
  | negSucc k => rw [H2.Stringify.neg_text]; exact fine_cons (by decide) (fine_digits (number_digits _).2)

theorem fine_nil : Fine [] := by intro c hc; simp at hc

theorem fine_number (cast : Rat → Int) (q : Rat) : Fine (number cast (.fin q)) := by
  simp only [number]
  split
  · exact fine_int _
  · unfold H2.Stringify.floatText
    refine fine_append (fine_append ?_ (fine_digits (number_digits _).2)) (fine_cons (by decide) (fine_digits (number_six _ 0 (Nat.mod_lt _ (by omega))).2.1))
    split
    · exact fine_cons (by decide) fine_nil
    · exact fine_nil

/-- The quotation mark in the source and the one meant. -/
def Marks (sq : Str) (q : Char) : Prop := (sq = ['\\', '"'] ∧ q = '"') ∨ (sq = ['\''] ∧ q = '\'')

theorem Marks.visible {sq : Str} {q : Char} (h : Marks sq q) : Visible sq := by
  rcases h with ⟨rfl, rfl⟩ | ⟨rfl, rfl⟩ <;> exact ⟨_, _, rfl, by decide, by decide⟩

theorem Marks.dec {sq : Str} {q : Char} (h : Marks sq q) : dec sq = [q] ∧ Chars sq [q] := by
  rcases h with ⟨rfl, rfl⟩ | ⟨rfl, rfl⟩
  · exact ⟨by decide, .escape (.inl rfl) .nil⟩
  · exact ⟨by decide, .plain (by decide) (by decide) (by decide) .nil⟩

theorem Marks.either {sq : Str} {q : Char} (h : Marks sq q) : q = '"' ∨ q = '\'' := by
  rcases h with ⟨_, h⟩ | ⟨_, h⟩ <;> simp [h]

theorem bare_fine {q : Char} {s : Str} (h : Bare q s) : Fine s := fun c hc => (h c hc).2

theorem quoted_good {sq : Str} {q : Char} (hm : Marks sq q) {s t : Str} (hs : Fine s) (ht : Fine t) :
    Good (sq ++ s ++ sq ++ t) ∧ dec (sq ++ s ++ sq ++ t) = [q] ++ s ++ [q] ++ t := by
  have e : dec (sq ++ s ++ sq ++ t) = [q] ++ s ++ [q] ++ t := by
    rw [dec_append, dec_append, dec_append, hm.dec.1, (fine_chars hs).2, (fine_chars ht).2]
  refine ⟨⟨?_, ?_, ?_⟩, e⟩
  · rw [e]
    exact chars_append (chars_append (chars_append hm.dec.2 (fine_chars hs).1) hm.dec.2) (fine_chars ht).1
  · rw [List.append_assoc, List.append_assoc]; exact (hm.visible.append _).keep
  · rw [e]
    rcases hm.either with rfl | rfl <;> exact keep_head (by decide) (by decide)

/-- Words that are good, and what they mean. -/
def Means' (ws vs : List Str) : Prop := (∀ w ∈ ws, Good w) ∧ ws.map dec = vs

theorem means_append {a a' b b' : List Str} (h : Means' a a') (h' : Means' b b') : Means' (a ++ b) (a' ++ b') := by
  refine ⟨?_, by rw [List.map_append, h.2, h'.2]⟩
  intro w hw
  rcases List.mem_append.1 hw with hw | hw
  · exact h.1 w hw
  · exact h'.1 w hw

theorem means_fine {w : Str} (h : Fine w) (hv : Visible w) : Means' [w] [w] := by
  refine ⟨?_, by simp [(fine_chars h).2]⟩
  intro x hx
  rw [List.mem_singleton.1 hx]; exact h.good hv

theorem means_nil : Means' [] [] := ⟨by simp, rfl⟩

theorem means_comma (next : Bool) : Means' (comma next) (comma next) := by
  cases next
  · exact means_nil
  · exact means_fine (by unfold Fine; decide) ⟨',', _, rfl, by decide, by decide⟩

theorem means_char {c : Char} (h : c ≠ '"' ∧ c ≠ '\\' ∧ c ≠ '\n') (h1 : cSpace c = false) (h2 : c ≠ '\x1b') : Means' [[c]] [[c]] :=
  means_fine (fine_cons h fine_nil) ⟨c, [], rfl, h1, h2⟩

theorem words_good {m : Expr.Machine} (cast : Rat → Int) {sq : Str} {q : Char} (hm : Marks sq q) {x : Json} (h : Copyable m q x) :
    Means' (words (number cast) sq x) (words (number cast) [q] x) := by
  induction h with
  | null => exact means_fine (by unfold Fine; decide) ⟨'n', _, rfl, by decide, by decide⟩
  | bool b =>
    cases b
    · exact means_fine (by unfold Fine; decide) ⟨'f', _, rfl, by decide, by decide⟩
    · exact means_fine (by unfold Fine; decide) ⟨'t', _, rfl, by decide, by decide⟩
  | num _ => exact means_fine (fine_number cast _) (number_visible cast _)
  | str h =>
    have := quoted_good hm (bare_fine h) fine_nil
    simp only [List.append_nil] at this
    exact ⟨by intro w hw; rw [List.mem_singleton.1 hw]; exact this.1, congrArg (fun w => [w]) this.2⟩
  | pat _ h =>
    exact means_fine (fine_append (fine_append (fine_cons (by decide) fine_nil) (bare_fine h)) (fine_cons (by decide) fine_nil)) ⟨'/', _, rfl, by decide, by decide⟩
  | @arr l h ih =>
    rw [words, words]
    refine means_append (means_append (means_char (by decide) (by decide) (by decide)) ?_) (means_char (by decide) (by decide) (by decide))
    clear h
    induction l with
    | nil => exact means_nil
    | cons x l ihl =>
      rw [wordsAll, wordsAll]
      exact means_append (means_append (ih x (by simp)) (means_comma _)) (ihl fun y hy => ih y (by simp [hy]))
  | @obj l h1 h2 ih =>
    clear h2
    rw [words, words]
    refine means_append (means_append (means_char (by decide) (by decide) (by decide)) ?_) (means_char (by decide) (by decide) (by decide))
    induction l with
    | nil => exact means_nil
    | cons p l ihl =>
      obtain ⟨k, x⟩ := p
      rw [wordsMembers, wordsMembers]
      obtain ⟨hk, hb⟩ := h1 (k, x) (by simp)
      refine means_append (means_append (means_append ?_ (ih (k, x) (by simp))) (means_comma _)) (ihl (fun y hy => h1 y (by simp [hy])) (fun y hy => ih y (by simp [hy])) )
      have := quoted_good hm (bare_fine hb) (t := ": ".toList) (by unfold Fine; decide)
      unfold lab
      rw [if_neg hk, if_neg hk]
      exact ⟨by intro w hw; rw [List.mem_singleton.1 hw]; exact this.1, congrArg (fun w => [w]) this.2⟩

/-! ### Lines -/

theorem splice_append {l : Str} (h : '\n' ∉ l) (r : Str) : splice (l ++ '\\' :: '\n' :: r) = l ++ splice r := by
  induction l with
  | nil => rw [List.nil_append, splice, if_pos ⟨rfl, rfl⟩, List.nil_append]
  | cons c l ih =>
    simp only [List.mem_cons, not_or] at h
    have e := ih h.2
    cases l with
    | nil =>
      simp only [List.cons_append, List.nil_append] at e ⊢
      rw [splice, if_neg (fun hh => absurd hh.2 (by decide)), e]
    | cons d l =>
      simp only [List.mem_cons, not_or] at h
      simp only [List.cons_append] at e ⊢
      rw [splice, if_neg (fun hh => h.2.1 hh.2.symm), e]

theorem splice_end {l : Str} (h : '\n' ∉ l) : splice (l ++ [' ', '\n']) = l ++ [' ', '\n'] := by
  induction l with
  | nil => decide
  | cons c l ih =>
    simp only [List.mem_cons, not_or] at h
    have e := ih h.2
    cases l with
    | nil =>
      simp only [List.cons_append, List.nil_append] at e ⊢
      rw [splice, if_neg (by simp), e]
    | cons d l =>
      simp only [List.mem_cons, not_or] at h
      simp only [List.cons_append] at e ⊢
      rw [splice, if_neg (fun hh => h.2.1 hh.2.symm), e]

/-- A word of a line: good, or spaces. -/
def Ok (w : Str) : Prop := Good w ∨ ∃ n, w = List.replicate n ' '

theorem fine_spaces (n : Nat) : Fine (List.replicate n ' ') := by
  intro c hc; rw [List.eq_of_mem_replicate hc]; decide

theorem spaces_unkept (n : Nat) : keep (List.replicate n ' ') = false := by
  have : blank (List.replicate n ' ') = true := by
    unfold blank
    rw [List.all_eq_true]
    intro c hc
    rw [List.eq_of_mem_replicate hc]; decide
  simp [keep, this]

theorem ok_chars {w : Str} (h : Ok w) : Chars w (dec w) := by
  rcases h with h | ⟨n, rfl⟩
  · exact h.chars
  · exact fine_dec (fine_spaces n)

theorem ok_ctrl {w : Str} (h : Ok w) : isctrl w = false := by
  rcases h with h | ⟨n, rfl⟩
  · have := h.kept
    unfold keep at this
    cases e : isctrl w
    · rfl
    · rw [e] at this; simp at this
  · cases n with
    | zero => rfl
    | succ n => cases n <;> simp [isctrl, List.replicate_succ]

theorem ok_line {l : Line} (h : ∀ w ∈ l, Ok w) : Chars l.flatten (dec l.flatten) := by
  induction l with
  | nil => exact .nil
  | cons w l ih =>
    rw [List.flatten_cons, dec_append]
    exact chars_append (ok_chars (h w (by simp))) (ih fun x hx => h x (by simp [hx]))

theorem unctrl {l : Line} (h : ∀ w ∈ l, isctrl w = false) : l.filter (fun w => !isctrl w) = l := by
  rw [List.filter_eq_self]
  intro w hw
  simp [h w hw]

theorem pad_eq (l : Line) (n : Nat) : padding l (n + 3) = l ++ [List.replicate (n + 3) ' '] := by
  unfold padding H2.Layout.spaces; rw [if_neg (by omega)]

theorem shift_eq (l : Line) : H2.Layout.indent l 8 = List.replicate 8 ' ' :: l := rfl

theorem printed_cons (l : Line) (ls : Lines) : printed (l :: ls) = (l.filter fun w => !isctrl w).flatten ++ ['\n'] ++ printed ls := rfl

theorem replicate_end (n : Nat) : List.replicate (n + 3) ' ' ++ ['\n'] = List.replicate (n + 2) ' ' ++ [' ', '\n'] := by
  rw [show List.replicate (n + 3) ' ' = List.replicate (n + 2) ' ' ++ [' '] from List.replicate_succ', List.append_assoc]; rfl

/-- All lines behind the first. -/
theorem tail_lines (w : Nat) : ∀ (ls : Lines), ls ≠ [] → (∀ l ∈ ls, ∀ x ∈ l, Ok x) →
    ∃ (ws : List Str) (k : Nat), splice (printed ((padLines w (quoteLast ls)).map fun l => H2.Layout.indent l 8)) =
        ws.flatten ++ '"' :: (List.replicate (k + 3) ' ' ++ ['\n']) ∧
      (∀ x ∈ ws, Ok x) ∧ ws.filter keep = ls.flatten.filter keep := by
  intro ls
  induction ls with
  | nil => intro h; exact absurd rfl h
  | cons l ls ih =>
    intro _ hok
    have hl := hok l (by simp)
    cases ls with
    | nil =>
      refine ⟨List.replicate 8 ' ' :: l, w - lineWidth (l ++ [['"']]), ?_, ?_, ?_⟩
      · rw [quoteLast, padLines, List.map_cons, List.map_nil, pad_eq, shift_eq, printed_cons]
        have hc : ∀ x ∈ (List.replicate 8 ' ' :: (l ++ [['"']] ++ [List.replicate (w - lineWidth (l ++ [['"']]) + 3) ' ']) : Line), isctrl x = false := by
          intro x hx
          simp only [List.mem_cons, List.mem_append, List.not_mem_nil, or_false] at hx
          rcases hx with rfl | (hx | rfl) | rfl
          · decide
          · exact ok_ctrl (hl x hx)
          · decide
          · exact ok_ctrl (.inr ⟨_, rfl⟩)
        rw [unctrl hc]
        have e : (List.replicate 8 ' ' :: (l ++ [['"']] ++ [List.replicate (w - lineWidth (l ++ [['"']]) + 3) ' ']) : Line).flatten ++ ['\n'] ++ printed [] =
            ((List.replicate 8 ' ' :: l).flatten ++ '"' :: List.replicate (w - lineWidth (l ++ [['"']]) + 2) ' ') ++ [' ', '\n'] := by
          have : List.replicate (w - lineWidth (l ++ [['"']]) + 3) ' ' = List.replicate (w - lineWidth (l ++ [['"']]) + 2) ' ' ++ [' '] :=
            List.replicate_succ'
          rw [this]
          simp [printed]
        rw [e, splice_end]
        · rw [replicate_end]
          simp only [List.append_assoc, List.cons_append]
        · simp only [List.mem_append, List.mem_cons, not_or]
          refine ⟨chars_newline (ok_line (l := List.replicate 8 ' ' :: l) ?_), by decide, fun h => ?_⟩
          · intro x hx
            rcases List.mem_cons.1 hx with rfl | hx
            · exact .inr ⟨8, rfl⟩
            · exact hl x hx
          · exact (fine_spaces _ _ h).2.2 rfl
      · intro x hx
        rcases List.mem_cons.1 hx with rfl | hx
        · exact .inr ⟨8, rfl⟩
        · exact hl x hx
      · rw [List.filter_cons_of_neg (by rw [spaces_unkept]; simp)]; simp
    | cons l' ls =>
      obtain ⟨ws, k, h1, h2, h3⟩ := ih (by simp) (fun y hy => hok y (by simp [hy]))
      have hq : ∃ a b, quoteLast (l' :: ls) = a :: b := by
        cases ls with
        | nil => exact ⟨_, _, rfl⟩
        | cons l2 ls => exact ⟨_, _, rfl⟩
      obtain ⟨a, b, hq⟩ := hq
      have hok' : ∀ x ∈ (List.replicate 8 ' ' :: (l ++ [List.replicate (w - lineWidth l + 3) ' ']) : Line), Ok x := by
        intro x hx
        simp only [List.mem_cons, List.mem_append, List.not_mem_nil, or_false] at hx
        rcases hx with rfl | hx | rfl
        · exact .inr ⟨8, rfl⟩
        · exact hl x hx
        · exact .inr ⟨_, rfl⟩
      refine ⟨(List.replicate 8 ' ' :: (l ++ [List.replicate (w - lineWidth l + 3) ' '])) ++ ws, k, ?_, ?_, ?_⟩
      · rw [hq] at h1
        rw [quoteLast, hq, padLines, List.map_cons, pad_eq, shift_eq, printed_cons]
        have hc : ∀ x ∈ (List.replicate 8 ' ' :: (l ++ [List.replicate (w - lineWidth l + 3) ' '] ++ [['\\']]) : Line), isctrl x = false := by
          intro x hx
          rw [← List.cons_append] at hx
          rcases List.mem_append.1 hx with hx | hx
          · exact ok_ctrl (hok' x hx)
          · rw [List.mem_singleton.1 hx]; decide
        rw [unctrl hc]
        have e : ∀ r, (List.replicate 8 ' ' :: (l ++ [List.replicate (w - lineWidth l + 3) ' '] ++ [['\\']]) : Line).flatten ++ ['\n'] ++ r =
            (List.replicate 8 ' ' :: (l ++ [List.replicate (w - lineWidth l + 3) ' ']) : Line).flatten ++ '\\' :: '\n' :: r := by
          intro r; simp
        rw [e, splice_append (chars_newline (ok_line hok')), h1]
        simp
      · intro x hx
        rcases List.mem_append.1 hx with hx | hx
        · exact hok' x hx
        · exact h2 x hx
      · rw [List.filter_append, h3, List.filter_cons_of_neg (by rw [spaces_unkept]; simp), List.filter_append,
          List.filter_cons_of_neg (by rw [spaces_unkept]; simp)]
        simp

/-- All lines. -/
theorem all_lines (w : Nat) (ls : Lines) (hn : ls ≠ []) (hok : ∀ l ∈ ls, ∀ x ∈ l, Ok x) :
    ∃ (ws : List Str) (k : Nat), splice (printed (indentRest (padLines w (quoteLast (quoteFirst ls))))) =
        '"' :: ws.flatten ++ '"' :: (List.replicate (k + 3) ' ' ++ ['\n']) ∧
      (∀ x ∈ ws, Ok x) ∧ ws.filter keep = ls.flatten.filter keep := by
  cases ls with
  | nil => exact absurd rfl hn
  | cons l ls =>
    have hl := hok l (by simp)
    cases ls with
    | nil =>
      refine ⟨l, w - lineWidth (['"'] :: l ++ [['"']]), ?_, hl, by simp⟩
      rw [quoteFirst, quoteLast, padLines, indentRest, pad_eq, List.map_nil, printed_cons]
      have hc : ∀ x ∈ (['"'] :: l ++ [['"']] ++ [List.replicate (w - lineWidth (['"'] :: l ++ [['"']]) + 3) ' '] : Line), isctrl x = false := by
        intro x hx
        simp only [List.mem_cons, List.mem_append, List.not_mem_nil, or_false] at hx
        rcases hx with ((rfl | hx) | rfl) | rfl
        · decide
        · exact ok_ctrl (hl x hx)
        · decide
        · exact ok_ctrl (.inr ⟨_, rfl⟩)
      rw [unctrl hc]
      have e : (['"'] :: l ++ [['"']] ++ [List.replicate (w - lineWidth (['"'] :: l ++ [['"']]) + 3) ' '] : Line).flatten ++ ['\n'] ++ printed [] =
          ('"' :: l.flatten ++ '"' :: List.replicate (w - lineWidth (['"'] :: l ++ [['"']]) + 2) ' ') ++ [' ', '\n'] := by
        have : List.replicate (w - lineWidth (['"'] :: l ++ [['"']]) + 3) ' ' = List.replicate (w - lineWidth (['"'] :: l ++ [['"']]) + 2) ' ' ++ [' '] :=
          List.replicate_succ'
        rw [this]
        simp [printed]
      rw [e, splice_end]
      · rw [replicate_end]
        simp only [List.append_assoc, List.cons_append]
      · simp only [List.mem_append, List.mem_cons, not_or]
        exact ⟨⟨by decide, chars_newline (ok_line hl)⟩, by decide, fun h => (fine_spaces _ _ h).2.2 rfl⟩
    | cons l' ls =>
      obtain ⟨ws, k, h1, h2, h3⟩ := tail_lines w (l' :: ls) (by simp) (fun y hy => hok y (by simp [hy]))
      obtain ⟨a, b, hq⟩ : ∃ a b, quoteLast (l' :: ls) = a :: b := by
        cases ls with
        | nil => exact ⟨_, _, rfl⟩
        | cons l2 ls => exact ⟨_, _, rfl⟩
      have hok' : ∀ x ∈ (l ++ [List.replicate (w - lineWidth (['"'] :: l) + 3) ' '] : Line), Ok x := by
        intro x hx
        rcases List.mem_append.1 hx with hx | hx
        · exact hl x hx
        · rw [List.mem_singleton.1 hx]; exact .inr ⟨_, rfl⟩
      refine ⟨(l ++ [List.replicate (w - lineWidth (['"'] :: l) + 3) ' ']) ++ ws, k, ?_, ?_, ?_⟩
      · rw [hq] at h1
        rw [quoteFirst, quoteLast, hq, padLines, indentRest, pad_eq, printed_cons]
        have hc : ∀ x ∈ (['"'] :: l ++ [List.replicate (w - lineWidth (['"'] :: l) + 3) ' '] ++ [['\\']] : Line), isctrl x = false := by
          intro x hx
          rcases List.mem_append.1 hx with hx | hx
          · rw [List.cons_append] at hx
            rcases List.mem_cons.1 hx with rfl | hx
            · decide
            · exact ok_ctrl (hok' x hx)
          · rw [List.mem_singleton.1 hx]; decide
        rw [unctrl hc]
        have e : ∀ r, (['"'] :: l ++ [List.replicate (w - lineWidth (['"'] :: l) + 3) ' '] ++ [['\\']] : Line).flatten ++ ['\n'] ++ r =
            ('"' :: (l ++ [List.replicate (w - lineWidth (['"'] :: l) + 3) ' '] : Line).flatten) ++ '\\' :: '\n' :: r := by
          intro r; simp
        rw [e, splice_append (by simp only [List.mem_cons, not_or]; exact ⟨by decide, chars_newline (ok_line hok')⟩), h1]
        simp
      · intro x hx
        rcases List.mem_append.1 hx with hx | hx
        · exact hok' x hx
        · exact h2 x hx
      · rw [List.filter_append, h3, List.filter_append, List.filter_cons_of_neg (by rw [spaces_unkept]; simp)]
        simp

/-! ### All blank words are spaces -/

theorem unkept_append {a b : Line} (ha : ∀ x ∈ a, keep x = true ∨ ∃ n, x = List.replicate n ' ') (hb : ∀ x ∈ b, keep x = true ∨ ∃ n, x = List.replicate n ' ') :
    ∀ x ∈ a ++ b, keep x = true ∨ ∃ n, x = List.replicate n ' ' := by
  intro x hx
  rcases List.mem_append.1 hx with h | h
  · exact ha x h
  · exact hb x h

def Neat (l : Line) : Prop := ∀ x ∈ l, keep x = true ∨ ∃ n, x = List.replicate n ' '

theorem Neat.append {a b : Line} (ha : Neat a) (hb : Neat b) : Neat (a ++ b) := unkept_append ha hb

theorem neat_indent (n : Nat) : Neat (indent n) := by
  unfold indent
  split
  · intro x hx; simp at hx
  · intro x hx; rw [List.mem_singleton.1 hx]; exact .inr ⟨_, rfl⟩

theorem neat_word {w : Str} (h : keep w = true) : Neat [w] := by intro x hx; rw [List.mem_singleton.1 hx]; exact .inl h

theorem neat_key {quote : Str} (hq : Visible quote) (key : Str) : Neat (formatKey quote key) := by
  unfold formatKey
  split
  · intro x hx; simp at hx
  · rw [List.append_assoc, List.append_assoc]; exact neat_word (hq.append _).keep

theorem neat_comma (next : Bool) : Neat (comma next) := by
  cases next
  · intro x hx; simp [comma] at hx
  · exact neat_word (by decide)

theorem neat_around {quote : Str} (hq : Visible quote) (fold : Bool) (depth : Nat) (key : Str) (o c : Char) (next : Bool) (ls : Lines)
    (ho : keep [o] = true) (hc : keep [c] = true) (h : ∀ l ∈ ls, Neat l) :
    around fold depth (indent (depth * 2) ++ formatKey quote key) o c next ls ≠ [] ∧
    ∀ l ∈ around fold depth (indent (depth * 2) ++ formatKey quote key) o c next ls, Neat l := by
  have h0 : Neat (indent (depth * 2) ++ formatKey quote key ++ [[o]]) := ((neat_indent _).append (neat_key hq key)).append (neat_word ho)
  unfold around
  split
  · refine ⟨by simp, ?_⟩
    intro l hl
    rw [List.mem_singleton.1 hl]
    refine ((h0.append ?_).append (neat_word hc)).append (neat_comma _)
    intro x hx
    unfold folds at hx
    obtain ⟨l, h1, h2⟩ := List.mem_flatten.1 (List.mem_filter.1 hx).1
    exact h l h1 x h2
  · refine ⟨by simp, ?_⟩
    intro l hl
    rw [List.cons_append, List.mem_cons, List.mem_append, List.mem_singleton] at hl
    rcases hl with rfl | hl | rfl
    · exact h0
    · exact h l hl
    · exact ((neat_indent _).append (neat_word hc)).append (neat_comma _)

theorem neat_leaf {quote : Str} (hq : Visible quote) (depth : Nat) (key w : Str) (next : Bool) (hw : keep w = true ∨ w = []) :
    ([indent (depth * 2) ++ formatKey quote key ++ [w] ++ comma next] : Lines) ≠ [] ∧
    ∀ l ∈ ([indent (depth * 2) ++ formatKey quote key ++ [w] ++ comma next] : Lines), Neat l := by
  refine ⟨by simp, ?_⟩
  intro l hl
  rw [List.mem_singleton.1 hl]
  refine (((neat_indent _).append (neat_key hq key)).append ?_).append (neat_comma _)
  intro x hx
  rw [List.mem_singleton.1 hx]
  rcases hw with h | rfl
  · exact .inl h
  · exact .inr ⟨0, rfl⟩

mutual
theorem neat_format (num : Dbl → Str) (fold : Bool) {quote : Str} (hq : Visible quote) (hn : ∀ d, Visible (num d)) (depth : Nat) (next : Bool) (key : Str) :
    (x : Json) → format num fold quote depth next key x ≠ [] ∧ ∀ l ∈ format num fold quote depth next key x, Neat l
  | .arr l => by
    rw [format]; exact neat_around hq fold depth key _ _ next _ (by decide) (by decide) (neat_all num fold hq hn (depth + 1) l)
  | .obj l => by
    rw [format]; exact neat_around hq fold depth key _ _ next _ (by decide) (by decide) (neat_members num fold hq hn (depth + 1) l)
  | .absent => neat_leaf hq depth key _ next (.inr rfl)
  | .null => neat_leaf hq depth key _ next (.inl (keep_head (by decide) (by decide)))
  | .bool true => neat_leaf hq depth key _ next (.inl (keep_head (by decide) (by decide)))
  | .bool false => neat_leaf hq depth key _ next (.inl (keep_head (by decide) (by decide)))
  | .num d => neat_leaf hq depth key _ next (.inl (hn d).keep)
  | .str s => neat_leaf hq depth key _ next (.inl (by show keep (quote ++ s ++ quote) = true; rw [List.append_assoc]; exact (hq.append _).keep))
  | .pat s => neat_leaf hq depth key _ next (.inl (keep_head (by decide) (by decide)))
theorem neat_all (num : Dbl → Str) (fold : Bool) {quote : Str} (hq : Visible quote) (hn : ∀ d, Visible (num d)) (depth : Nat) :
    (l : List Json) → ∀ x ∈ formatAll num fold quote depth l, Neat x
  | [] => by intro x hx; simp [formatAll] at hx
  | x :: l => by
    intro y hy
    rw [formatAll] at hy
    rcases List.mem_append.1 hy with hy | hy
    · exact (neat_format num fold hq hn depth _ [] x).2 y hy
    · exact neat_all num fold hq hn depth l y hy
theorem neat_members (num : Dbl → Str) (fold : Bool) {quote : Str} (hq : Visible quote) (hn : ∀ d, Visible (num d)) (depth : Nat) :
    (l : List (Str × Json)) → ∀ x ∈ formatMembers num fold quote depth l, Neat x
  | [] => by intro x hx; simp [formatMembers] at hx
  | (k, x) :: l => by
    intro y hy
    rw [formatMembers] at hy
    rcases List.mem_append.1 hy with hy | hy
    · exact (neat_format num fold hq hn depth _ k x).2 y hy
    · exact neat_members num fold hq hn depth l y hy
end

/-! ### The property -/

/-- C73.  With `\"` or with `'` as quotation marks, what is printed of a copyable value, folded or not, is one string literal, and the text it
means is read as that value.  The full statement is for all values and all three kinds of quotation marks, and is false: see below. -/
theorem C73_literal_partial (m : Expr.Machine) (hm : Negates m) (cast : Rat → Int) (fold : Bool) {sq : Str} {q : Char}
    (hs : (sq = ['\\', '"'] ∧ q = '"') ∨ (sq = ['\''] ∧ q = '\'')) {x : Json} (h : Copyable m q x) :
    ∃ t, Literal (source (number cast) fold sq x) t ∧ tree m t = .ok x [] := by
  have hs : Marks sq q := hs
  have hg := words_good cast hs h
  have hf := neat_format (number cast) fold hs.visible (number_visible cast) 0 false [] x
  have hk := format_kept (number cast) fold hs.visible (number_visible cast) 0 false [] x
  have hb : blank sq = false := by
    rcases hs with ⟨rfl, _⟩ | ⟨rfl, _⟩ <;> decide
  simp only [lab, if_true, comma, Bool.false_eq_true, if_false, List.nil_append, List.append_nil] at hk
  have hok : ∀ l ∈ format (number cast) fold sq 0 false [] x, ∀ w ∈ l, Ok w := by
    intro l hl w hw
    rcases hf.2 l hl w hw with h1 | h1
    · refine .inl (hg.1 w ?_)
      rw [← hk]
      exact List.mem_filter.2 ⟨List.mem_flatten.2 ⟨l, hl, hw⟩, h1⟩
    · exact .inr h1
  obtain ⟨ws, k, h1, h2, h3⟩ := all_lines (linesWidth (quoteLast (quoteFirst (format (number cast) fold sq 0 false [] x)))) _ hf.1 hok
  refine ⟨dec ws.flatten, ⟨ws.flatten, List.replicate (k + 3) ' ' ++ ['\n'], ?_, ok_line h2, ?_⟩, ?_⟩
  · rw [source, dump, hb, if_neg (by simp), h1]
  · intro c hc
    rcases List.mem_append.1 hc with hc | hc
    · exact .inl (List.eq_of_mem_replicate hc)
    · exact .inr (List.mem_singleton.1 hc)
  · apply C14_restore
    have e : dec ws.flatten = (ws.map dec).flatten := by
      unfold dec; rw [List.filter_flatten]
    rw [e]
    refine spaced_text hs.either (fun d hd => number_numeral hm cast hd) h _ ?_ ?_
    · intro w hw hkw
      obtain ⟨u, hu, rfl⟩ := List.mem_map.1 hw
      rcases h2 u hu with hu | ⟨n, rfl⟩
      · rw [hu.decKept] at hkw; cases hkw
      · rw [(fine_chars (fine_spaces n)).2]
        intro c hc
        exact .inl (List.eq_of_mem_replicate hc)
    · rw [← hg.2, ← hk, ← h3]
      clear h1 h3
      induction ws with
      | nil => rfl
      | cons u ws ih =>
        have ih := ih (fun x hx => h2 x (by simp [hx])) (by unfold dec; rw [List.filter_flatten])
        rcases h2 u (by simp) with hu | ⟨n, rfl⟩
        · rw [List.map_cons, List.filter_cons_of_pos hu.decKept, List.filter_cons_of_pos hu.kept, List.map_cons, ih]
        · rw [List.map_cons, (fine_chars (fine_spaces n)).2, List.filter_cons_of_neg (by rw [spaces_unkept]; simp),
            List.filter_cons_of_neg (by rw [spaces_unkept]; simp), ih]

/-- C73.  All lines but the last end with a backslash, and nothing else is behind it, so that a compiler takes them for one line: no new line
is left but the one at the end. -/
theorem C73_one_line (m : Expr.Machine) (cast : Rat → Int) (fold : Bool) {sq : Str} {q : Char}
    (hs : (sq = ['\\', '"'] ∧ q = '"') ∨ (sq = ['\''] ∧ q = '\'')) {x : Json} (h : Copyable m q x) :
    ∃ s, splice (source (number cast) fold sq x) = s ++ ['\n'] ∧ '\n' ∉ s := by
  have hs : Marks sq q := hs
  have hg := words_good cast hs h
  have hf := neat_format (number cast) fold hs.visible (number_visible cast) 0 false [] x
  have hk := format_kept (number cast) fold hs.visible (number_visible cast) 0 false [] x
  have hb : blank sq = false := by
    rcases hs with ⟨rfl, _⟩ | ⟨rfl, _⟩ <;> decide
  simp only [lab, if_true, comma, Bool.false_eq_true, if_false, List.nil_append, List.append_nil] at hk
  have hok : ∀ l ∈ format (number cast) fold sq 0 false [] x, ∀ w ∈ l, Ok w := by
    intro l hl w hw
    rcases hf.2 l hl w hw with h1 | h1
    · refine .inl (hg.1 w ?_)
      rw [← hk]
      exact List.mem_filter.2 ⟨List.mem_flatten.2 ⟨l, hl, hw⟩, h1⟩
    · exact .inr h1
  obtain ⟨ws, k, h1, h2, h3⟩ := all_lines (linesWidth (quoteLast (quoteFirst (format (number cast) fold sq 0 false [] x)))) _ hf.1 hok
  refine ⟨'"' :: ws.flatten ++ '"' :: List.replicate (k + 3) ' ', ?_, ?_⟩
  · rw [source, dump, hb, if_neg (by simp), h1]; simp
  · simp only [List.mem_append, List.mem_cons, not_or]
    exact ⟨⟨by decide, chars_newline (ok_line h2)⟩, by decide, fun h => (fine_spaces _ _ h).2.2 rfl⟩

/-! ### Where it fails -/

/-- Finding.  With `"` as quotation marks (`-S "` or `-S double`) a string of one letter is not printed as a literal: its quotation marks end it. -/
theorem C73_double_false (cast : Rat → Int) (fold : Bool) : ¬ ∃ t, Literal (source (number cast) fold ['"'] (.str ['a'])) t := by
  have e : source (number cast) fold ['"'] (.str ['a']) = ['"', '"', 'a', '"', '"', ' ', ' ', ' ', '\n'] := rfl
  rintro ⟨t, b, w, h, hc, hw⟩
  rw [e, show splice ['"', '"', 'a', '"', '"', ' ', ' ', ' ', '\n'] = ['"', '"', 'a', '"', '"', ' ', ' ', ' ', '\n'] from by decide] at h
  cases hc with
  | nil =>
    simp only [List.cons_append, List.nil_append, List.cons.injEq, true_and] at h
    have := hw 'a' (by rw [← h]; simp)
    revert this; decide
  | plain h1 =>
    simp only [List.cons_append, List.cons.injEq, true_and] at h
    exact h1 h.1.symm
  | escape h1 =>
    simp only [List.cons_append, List.cons.injEq, true_and] at h
    exact absurd h.1 (by decide)

/-- Finding.  A pattern with a backslash is not printed as a literal with a meaning: the backslash is not doubled. -/
theorem C73_backslash_false (cast : Rat → Int) (fold : Bool) : ¬ ∃ t, Literal (source (number cast) fold ['\\', '"'] (.pat ['\\', 'd'])) t := by
  have e : source (number cast) fold ['\\', '"'] (.pat ['\\', 'd']) = ['"', '/', '\\', 'd', '/', '"', ' ', ' ', ' ', '\n'] := rfl
  rintro ⟨t, b, w, h, hc, hw⟩
  rw [e, show splice ['"', '/', '\\', 'd', '/', '"', ' ', ' ', ' ', '\n'] = ['"', '/', '\\', 'd', '/', '"', ' ', ' ', ' ', '\n'] from by decide] at h
  cases hc with
  | nil => simp only [List.cons_append, List.nil_append, List.cons.injEq, true_and] at h; exact absurd h.1 (by decide)
  | escape h1 => simp only [List.cons_append, List.cons.injEq, true_and] at h; exact absurd h.1 (by decide)
  | plain h1 h2 h3 hc =>
    simp only [List.cons_append, List.cons.injEq, true_and] at h
    obtain ⟨-, h⟩ := h
    cases hc with
    | nil => simp only [List.nil_append, List.cons.injEq] at h; exact absurd h.1 (by decide)
    | plain g1 g2 => simp only [List.cons_append, List.cons.injEq] at h; exact g2 h.1.symm
    | escape g1 =>
      simp only [List.cons_append, List.cons.injEq, true_and] at h
      rw [← h.1] at g1
      revert g1; decide

/-- Finding.  A string of two lines is not printed as a literal: the new line in it is printed as it is. -/
theorem C73_newline_false (cast : Rat → Int) (fold : Bool) : ¬ ∃ t, Literal (source (number cast) fold ['\''] (.str ['\n'])) t := by
  have e : source (number cast) fold ['\''] (.str ['\n']) = ['"', '\'', '\n', '\'', '"', ' ', ' ', ' ', '\n'] := rfl
  rintro ⟨t, b, w, h, hc, hw⟩
  rw [e, show splice ['"', '\'', '\n', '\'', '"', ' ', ' ', ' ', '\n'] = ['"', '\'', '\n', '\'', '"', ' ', ' ', ' ', '\n'] from by decide] at h
  cases hc with
  | nil => simp only [List.cons_append, List.nil_append, List.cons.injEq, true_and] at h; exact absurd h.1 (by decide)
  | escape h1 => simp only [List.cons_append, List.cons.injEq, true_and] at h; exact absurd h.1 (by decide)
  | plain h1 h2 h3 hc =>
    simp only [List.cons_append, List.cons.injEq, true_and] at h
    obtain ⟨-, h⟩ := h
    cases hc with
    | nil => simp only [List.nil_append, List.cons.injEq] at h; exact absurd h.1 (by decide)
    | plain g1 g2 g3 => simp only [List.cons_append, List.cons.injEq] at h; exact g3 h.1.symm
    | escape g1 => simp only [List.cons_append, List.cons.injEq] at h; exact absurd h.1 (by decide)

/-! ### Cases -/

theorem sample_copyable : Copyable exactly '"' sampleSimple := by
  have key : ∀ {x}, Simple exactly x → (∀ c ∈ (match x with | .str s => s | .pat s => s | _ => []), c ≠ '"' ∧ c ≠ '\\' ∧ c ≠ '\n') →
      (∀ l, x ≠ .arr l) → (∀ l, x ≠ .obj l) → Copyable exactly '"' x := by
    intro x h hc ha ho
    cases h with
    | null => exact .null
    | bool b => exact .bool b
    | num h => exact .num h
    | str h => exact .str fun c hc' => ⟨(hc c hc').1, hc c hc'⟩
    | pat h => exact .pat h fun c hc' => ⟨(hc c hc').1, hc c hc'⟩
    | arr _ => exact absurd rfl (ha _)
    | obj _ _ => exact absurd rfl (ho _)
  have hs := sample_simple
  unfold sampleSimple at hs ⊢
  cases hs with
  | obj h1 h2 =>
    refine .obj (by unfold Bare; simp) ?_
    intro p hp
    have hx := h2 p hp
    simp only [List.mem_cons, List.not_mem_nil, or_false] at hp
    rcases hp with rfl | rfl | rfl
    · cases hx with
      | arr h =>
        refine .arr ?_
        intro y hy
        have hy' := h y hy
        simp only [List.mem_cons, List.not_mem_nil, or_false] at hy
        rcases hy with rfl | rfl | rfl | rfl <;> exact key hy' (by simp) (by simp) (by simp)
    · exact key hx (by simp) (by simp) (by simp)
    · exact key hx (by simp) (by simp) (by simp)

example : source (number fun _ => 0) false ['\\', '"'] (.obj [("a".toList, .arr [.null, .bool true]), ("b".toList, .str "x".toList)]) =
    ("\"{               \\\n" ++
     "          \\\"a\\\": [       \\\n" ++
     "            null,        \\\n" ++
     "            true         \\\n" ++
     "          ],             \\\n" ++
     "          \\\"b\\\": \\\"x\\\"   \\\n" ++
     "        }\"               \n").toList := by decide +kernel
example : source (number fun _ => 0) true ['\''] (.arr [.num (.fin 1), .str "x".toList]) = "\"[1, 'x']\"   \n".toList := by decide +kernel

end H2.Json.Je
