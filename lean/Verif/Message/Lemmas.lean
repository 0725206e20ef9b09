import Verif.Abbrev.Props
import Verif.Message.Spec
namespace H2.Message
open H2.Layout (Word Line isctrl lineWidth spaces indent brush text room charWidth)
open H2.Abbrev

theorem text_append (a b : Line) : text (a ++ b) = text a ++ text b := by rw [text_vis, text_vis, text_vis, vis_append]

theorem text_nil : text [] = [] := rfl

theorem text_word (w : Word) (h : '\x1b' ∉ w) : text [w] = w := by
  rw [text_vis, vis_cons, vis_nil, not_ctrl h]; simp

theorem text_gray (w : Word) (h : '\x1b' ∉ w) : text (gray w) = w := by
  unfold gray
  cases w with
  | nil => rfl
  | cons c w => rw [text_vis]; exact vis_dim h

theorem text_brush (l : Line) (s : Word) : text (brush l s) = text l := by
  unfold brush
  split
  · rfl
  · rw [text_vis, List.cons_append, vis_cons, vis_append, vis_cons, vis_nil, text_vis]
    have h1 : isctrl (['\x1b', '{'] ++ s ++ ['}']) = true := by simp [isctrl]
    have h2 : isctrl ['\x1b', '{', 'r', 'e', 's', 'e', 't', '}'] = true := by decide
    rw [h1, h2]; simp

theorem text_indent (n : Nat) : text (indent [] n) = List.replicate n ' ' := by
  unfold indent
  split
  · next h => subst h; rfl
  · rw [text_word _ (by unfold spaces; intro h; exact absurd (List.eq_of_mem_replicate h) (by decide))]; rfl

theorem string_text (l : Line) : string l = text l := by
  rw [text_vis, vis_filter]; rfl

theorem escape_shown (w : Word) : escape w = shown w := by
  unfold escape shown
  congr 1
  funext c
  unfold escapeChar
  split
  · next h => subst h; rfl
  split
  · next h => subst h; rfl
  split
  · next h => subst h; rfl
  · split <;> simp_all

theorem width_zero (l : Line) : lineWidth l = 0 ↔ text l = [] := by
  rw [H2.Layout.lineWidth_room]
  constructor
  · intro h
    cases e : text l with
    | nil => rfl
    | cons c r =>
      rw [e, room_cons] at h
      have := charWidth_pos c
      omega
  · intro h; rw [h]; rfl

theorem abbreviate_esc (l : Line) (w t : Nat) (hesc : '\x1b' ∉ text l) (hlen : room (shown (text l)) < 2 ^ 64) (hr : t + 3 ≤ w) :
    '\x1b' ∉ text (abbreviate l w t) := by
  by_cases h : room (shown (text l)) ≤ w
  · rw [C60_whole l w t h]; exact esc_shown hesc
  · obtain ⟨m, ⟨head, gap, last, h1, h2, _⟩, _⟩ := C60_shortened l w t hesc hlen hr (by omega)
    have he := esc_shown hesc
    rw [h1] at he
    rw [h2]
    simp only [List.mem_append, not_or] at he ⊢
    refine ⟨⟨he.1.1, ?_⟩, he.2⟩
    split <;> decide

theorem abbreviate_shown (l : Line) (w t : Nat) (hesc : '\x1b' ∉ text l) (hlen : room (shown (text l)) < 2 ^ 64) (hr : t + 3 ≤ w) :
    ShownIn w t (text l) (text (abbreviate l w t)) :=
  ⟨fun h => C60_whole l w t h, fun h => by
    obtain ⟨m, h1, _⟩ := C60_shortened l w t hesc hlen hr h
    exact ⟨m, h1⟩⟩

theorem quote_shown (l : Line) (w t : Nat) (hesc : '\x1b' ∉ text l) (hlen : room (shown (text l)) < 2 ^ 64) (hr : t + 3 ≤ w) :
    ShownIn w t (text l) (text (grayQuote (abbreviate l w t))) := by
  rw [(C60_quotes _ (abbreviate_esc l w t hesc hlen hr)).1]
  exact abbreviate_shown l w t hesc hlen hr

theorem enclosed_iff (s : Word) : enclosed s '[' ']' = true ↔ ∃ l, s = '[' :: l ++ [']'] := by
  unfold enclosed
  rw [Bool.and_eq_true, beq_iff_eq, beq_iff_eq]
  constructor
  · rintro ⟨h1, h2⟩
    cases s with
    | nil => simp at h1
    | cons c r =>
      simp only [List.head?_cons, Option.some.injEq] at h1
      subst h1
      rcases List.eq_nil_or_concat r with rfl | ⟨i, d, rfl⟩
      · simp at h2
      · rw [List.concat_eq_append] at *
        rw [← List.cons_append, List.getLast?_append] at h2
        simp at h2
        subst h2
        exact ⟨i, rfl⟩
  · rintro ⟨l, rfl⟩
    exact ⟨rfl, by rw [List.getLast?_append]; rfl⟩

theorem isIn_iff (a : Word) (l : List String) : isIn a l = true ↔ ∃ x ∈ l, a = x.toList := by
  unfold isIn
  rw [List.any_eq_true]
  constructor
  · rintro ⟨x, h1, h2⟩; exact ⟨x, h1, (beq_iff_eq.1 h2).symm⟩
  · rintro ⟨x, h1, h2⟩; exact ⟨x, h1, beq_iff_eq.2 h2.symm⟩

theorem synonym_iff (a b : Word) : isSynonym a b = true ↔ Obvious a b := by
  unfold isSynonym Obvious
  simp only [escape_shown, Bool.or_eq_true, Bool.and_eq_true, isIn_iff, beq_iff_eq]
  have hl : isListOf (shown a) (shown b) = true ↔ (shown a = "ListOf(".toList ++ shown b ++ ")".toList ∧ ¬ (∃ l, shown b = '[' :: l ++ [']'])) ∨
        ∃ l, shown b = '[' :: l ++ [']'] ∧ shown a = "ListOf(".toList ++ l ++ ")".toList := by
    unfold isListOf unenclose
    by_cases he : enclosed (shown b) '[' ']' = true
    · rw [if_pos he]
      obtain ⟨l, hb⟩ := (enclosed_iff _).1 he
      have h1 : ((shown b).drop 1).dropLast = l := by rw [hb]; simp
      rw [if_neg (by rw [hb]; simp), h1]
      simp only [beq_iff_eq]
      constructor
      · intro h; exact .inr ⟨l, hb, h⟩
      · rintro (⟨_, h⟩ | ⟨l', h2, h3⟩)
        · exact absurd ⟨l, hb⟩ h
        · rw [hb] at h2
          have : l = l' := by simpa using h2
          rw [this]; exact h3
    · rw [if_neg he]
      have hn : ¬ ∃ l, shown b = '[' :: l ++ [']'] := fun x => he ((enclosed_iff _).2 x)
      simp only [beq_iff_eq]
      constructor
      · intro h; exact .inl ⟨h, hn⟩
      · rintro (⟨h, _⟩ | ⟨l', h2, h3⟩)
        · exact h
        · exact absurd ⟨l', h2⟩ hn
  rw [hl]
  have hs : (∃ m, ∃ x ∈ spellings m, ∃ y ∈ spellings m, shown a = x.toList ∧ shown b = y.toList) ↔
      ((∃ x ∈ nulls, shown a = x.toList) ∧ ∃ x ∈ nulls, shown b = x.toList) ∨ ((∃ x ∈ notNulls, shown a = x.toList) ∧ ∃ x ∈ notNulls, shown b = x.toList) ∨
      ((∃ x ∈ trues, shown a = x.toList) ∧ ∃ x ∈ trues, shown b = x.toList) ∨ ((∃ x ∈ falses, shown a = x.toList) ∧ ∃ x ∈ falses, shown b = x.toList) := by
    constructor
    · rintro ⟨m, x, hx, y, hy, h1, h2⟩
      cases m with
      | null => exact .inl ⟨⟨x, hx, h1⟩, ⟨y, hy, h2⟩⟩
      | notNull => exact .inr (.inl ⟨⟨x, hx, h1⟩, ⟨y, hy, h2⟩⟩)
      | yes => exact .inr (.inr (.inl ⟨⟨x, hx, h1⟩, ⟨y, hy, h2⟩⟩))
      | no => exact .inr (.inr (.inr ⟨⟨x, hx, h1⟩, ⟨y, hy, h2⟩⟩))
    · rintro (⟨⟨x, hx, h1⟩, ⟨y, hy, h2⟩⟩ | ⟨⟨x, hx, h1⟩, ⟨y, hy, h2⟩⟩ | ⟨⟨x, hx, h1⟩, ⟨y, hy, h2⟩⟩ | ⟨⟨x, hx, h1⟩, ⟨y, hy, h2⟩⟩)
      · exact ⟨.null, x, hx, y, hy, h1, h2⟩
      · exact ⟨.notNull, x, hx, y, hy, h1, h2⟩
      · exact ⟨.yes, x, hx, y, hy, h1, h2⟩
      · exact ⟨.no, x, hx, y, hy, h1, h2⟩
  rw [hs]
  simp only [or_assoc]

theorem limit_eq (v : Int) : limit v 120 = exprRoom v := rfl

theorem limit_room (v : Int) : 3 + 3 ≤ limit v 120 := by unfold limit; split <;> omega

theorem text_locate (f : Fail) (h : ∀ p, f.filine = some p → '\x1b' ∉ p) :
    text (locate f) = match f.filine with | none => [] | some p => " at ".toList ++ p := by
  unfold locate
  cases e : f.filine with
  | none => rfl
  | some p =>
    show text (gray " at ".toList ++ [p]) = " at ".toList ++ p
    rw [text_append, text_gray _ (by decide), text_word _ (h p e)]

theorem text_explanations (f : Fail) (c : Nat) (hu : '\x1b' ∉ f.user) (hp : ∀ p, f.filine = some p → '\x1b' ∉ p) :
    text ((explanations f c).1 ++ locate f) = ending (decide (c ≠ 0)) (text f.explain) f.user f.filine := by
  rw [text_append, text_locate f hp]
  unfold explanations ending
  congr 1
  have hc : ∀ b : Bool, '\x1b' ∉ commaIf b ", ".toList " ".toList := by intro b; cases b <;> decide
  have tc : ∀ b : Bool, commaIf b ", ".toList " ".toList = if b then ", ".toList else " ".toList := fun b => rfl
  by_cases hx : lineWidth f.explain = 0
  · have ht := (width_zero _).1 hx
    simp only [hx, ne_eq, not_true_eq_false, if_false, ht, if_true, List.nil_append, List.isEmpty_nil, Bool.not_true, Bool.or_false]
    by_cases h2 : f.user = []
    · simp only [h2, not_true_eq_false, if_false, if_true]; rfl
    · simp only [h2, not_false_eq_true, if_true, if_false]
      rw [show ∀ a b : Word, [a, b] = [a] ++ [b] from fun _ _ => rfl, text_append, text_word _ (hc _), text_word _ hu, tc]
  · have ht : text f.explain ≠ [] := fun e => hx ((width_zero _).2 e)
    have he : (text f.explain).isEmpty = false := by cases h : text f.explain with
      | nil => exact absurd h ht
      | cons => rfl
    simp only [hx, ne_eq, not_false_eq_true, if_true, ht, if_false, he, Bool.not_false, Bool.or_true]
    rw [text_append, text_append, text_word _ (hc _), tc]
    congr 1
    by_cases h2 : f.user = []
    · simp only [h2, not_true_eq_false, if_false, if_true]; rfl
    · simp only [h2, not_false_eq_true, if_true, if_false]
      rw [show ∀ a b : Word, [a, b] = [a] ++ [b] from fun _ _ => rfl, text_append, text_word _ (hc _), text_word _ hu, tc]
      rfl

theorem tells_expected (v : Int) (f : Fail) (h : Ordinary f) : TellsExpected v f.eExpr (text f.expection) (text (expectPart v f)) := by
  have te : text [f.eExpr] = f.eExpr := text_word _ h.eExpr
  have e1 : '\x1b' ∉ text [f.eExpr] := by rw [te]; exact h.eExpr
  have e2 : room (shown (text [f.eExpr])) < 2 ^ 64 := by rw [te]; exact h.lengths.1
  have q := fun w hw => quote_shown [f.eExpr] w 3 e1 e2 hw
  have q' := fun w hw => abbreviate_shown [f.eExpr] w 3 e1 e2 hw
  rw [te] at q q'
  unfold expectPart TellsExpected
  by_cases h0 : lineWidth f.expection = 0
  · have ht := (width_zero _).1 h0
    rw [if_pos h0, text_brush]
    exact ⟨fun _ => q _ (by omega), fun x => absurd (.inl ht) x⟩
  · have ht : text f.expection ≠ [] := fun e => h0 ((width_zero _).2 e)
    rw [if_neg h0]
    by_cases hs : isSynonym f.eExpr (string f.expection) = true
    · rw [if_pos hs, text_brush]
      rw [string_text] at hs
      exact ⟨fun _ => q' _ (by omega), fun x => absurd (.inr ((synonym_iff _ _).1 hs)) x⟩
    · rw [if_neg hs]
      rw [string_text] at hs
      refine ⟨fun x => ?_, fun _ => ⟨text (grayQuote (abbreviate [f.eExpr] (limit v 120) 3)), text (abbreviate f.expection 10000 3), ?_, ?_, ?_⟩⟩
      · rcases x with x | x
        · exact absurd x ht
        · exact absurd ((synonym_iff _ _).2 x) hs
      · rw [text_append, text_append, text_brush, text_brush, text_gray _ (by decide)]
      · exact q _ (limit_room v)
      · exact abbreviate_shown _ _ _ h.expection h.lengths.2.2.1 (by omega)

theorem tells_actual (v : Int) (f : Fail) (h : Ordinary f) : TellsActual v f.aExpr (text f.represent) (text (actualPart v f)) := by
  have te : text [f.aExpr] = f.aExpr := text_word _ h.aExpr
  have e1 : '\x1b' ∉ text [f.aExpr] := by rw [te]; exact h.aExpr
  have e2 : room (shown (text [f.aExpr])) < 2 ^ 64 := by rw [te]; exact h.lengths.2.1
  have q := fun w hw => quote_shown [f.aExpr] w 3 e1 e2 hw
  rw [te] at q
  have r := abbreviate_shown f.represent 10000 3 h.represent h.lengths.2.2.2 (by omega)
  unfold actualPart TellsActual
  by_cases h0 : lineWidth f.represent = 0
  · have ht := (width_zero _).1 h0
    rw [if_pos h0, text_brush]
    exact ⟨fun _ => q _ (by omega), fun x => absurd ht x, fun x => absurd ht x⟩
  · have ht : text f.represent ≠ [] := fun e => h0 ((width_zero _).2 e)
    rw [if_neg h0]
    have hx : (isSynonym f.aExpr (string f.represent) || f.aExpr.isEmpty) = true ↔ Obvious f.aExpr (text f.represent) ∨ f.aExpr = [] := by
      rw [Bool.or_eq_true, string_text, synonym_iff, List.isEmpty_iff]
    by_cases hs : (isSynonym f.aExpr (string f.represent) || f.aExpr.isEmpty) = true
    · rw [if_pos hs, text_brush]
      exact ⟨fun x => absurd x ht, fun _ _ => r, fun _ x => absurd (hx.1 hs) x⟩
    · rw [if_neg hs]
      refine ⟨fun x => absurd x ht, fun _ x => absurd (hx.2 x) hs, fun _ _ => ⟨text (abbreviate f.represent 10000 3), text (grayQuote (abbreviate [f.aExpr] (limit v 120) 3)), ?_, ?_, ?_⟩⟩
      · rw [text_append, text_append, text_brush, text_brush, text_gray _ (by decide)]
      · exact r
      · exact q _ (limit_room v)

theorem text_number (n : Int) : text (number n) = (toString n).toList ++ ". ".toList := by
  have h : '\x1b' ∉ decimal n ++ ". ".toList := by
    intro h
    rcases List.mem_append.1 h with h | h
    · unfold decimal at h
      cases n with
      | ofNat k =>
        have e : (toString (Int.ofNat k)).toList = Nat.toDigits 10 k := Nat.toList_repr
        rw [e] at h
        exact absurd (Nat.isDigit_of_mem_toDigits (by omega) (by omega) h) (by decide)
      | negSucc k =>
        have e : (toString (Int.negSucc k)).toList = '-' :: Nat.toDigits 10 (k + 1) := by
          show ("-" ++ Nat.repr (k + 1)).toList = _
          rw [String.toList_append, Nat.toList_repr]; rfl
        rw [e] at h
        rcases List.mem_cons.1 h with h | h
        · exact absurd h (by decide)
        · exact absurd (Nat.isDigit_of_mem_toDigits (by omega) (by omega) h) (by decide)
    · exact absurd h (by decide)
  unfold number
  rw [text_vis, vis_cons, vis_cons, vis_cons, vis_nil, not_ctrl h]
  have h1 : isctrl "\x1b{dark gray}".toList = true := by decide
  have h2 : isctrl "\x1b{reset}".toList = true := by decide
  rw [h1, h2]; simp [decimal]

theorem unenclose_eq (q : Char) (s t : Text) (h : Without q s t) : unenclose s q q = some t := by
  have key : ∀ s : Text, enclosed s q q = true → (∃ m, s = q :: m ++ [q]) ∨ s = [q] := by
    intro s hs
    unfold enclosed at hs
    rw [Bool.and_eq_true, beq_iff_eq, beq_iff_eq] at hs
    cases s with
    | nil => simp at hs
    | cons c r =>
      have h1 : c = q := by simpa using hs.1
      subst h1
      rcases List.eq_nil_or_concat r with rfl | ⟨i, d, rfl⟩
      · exact .inr rfl
      · rw [List.concat_eq_append] at hs
        rw [← List.cons_append, List.getLast?_append] at hs
        have h2 : d = c := by simpa using hs.2
        subst h2
        exact .inl ⟨i, by rw [List.concat_eq_append]; rfl⟩
  unfold unenclose
  rcases h with rfl | ⟨rfl, h1, h2⟩
  · rw [if_pos (by unfold enclosed; rw [List.getLast?_append]; simp), if_neg (by simp)]; simp
  · rw [if_neg (fun hs => (key s hs).elim h2 h1)]

theorem json_line (v : Int) (f : Fail) (c ci : Nat) (ht : f.type = "JE") :
    printUnexpect v f c ci = (printJE v f).map fun l => (Layout.indent [] (ci * 2 + 1) ++ l ++ (explanations f c).1 ++ locate f, (explanations f c).2) := by
  unfold printUnexpect
  rw [ht, if_neg (by decide), if_neg (by decide), if_neg (by decide), if_neg (by decide), if_neg (by decide), if_pos rfl, Option.map_map]
  rfl

theorem unquote_eq (s t : Text) (h : Unquoted s t) : unquote s = some t := by
  obtain ⟨m, h1, h2⟩ := h
  unfold unquote
  rw [unenclose_eq _ _ _ h1]
  exact unenclose_eq _ _ _ h2

theorem without_sub (q : Char) (s t : Text) (h : Without q s t) : (∀ x ∈ t, x ∈ s) ∧ room (shown t) ≤ room (shown s) := by
  rcases h with rfl | ⟨rfl, -, -⟩
  · refine ⟨fun x hx => by simp [hx], ?_⟩
    unfold room shown
    simp only [List.flatMap_append, List.flatMap_cons, List.map_append, List.sum_append]
    omega
  · exact ⟨fun _ h => h, Nat.le_refl _⟩

theorem unquoted_ordinary (s t : Text) (h : Unquoted s t) (h1 : '\x1b' ∉ s) (h2 : room (shown s) < 2 ^ 64) : '\x1b' ∉ t ∧ room (shown t) < 2 ^ 64 := by
  obtain ⟨m, a, b⟩ := h
  have a := without_sub _ _ _ a
  have b := without_sub _ _ _ b
  exact ⟨fun x => h1 (a.1 _ (b.1 _ x)), Nat.lt_of_le_of_lt (Nat.le_trans b.2 a.2) h2⟩

end H2.Message
