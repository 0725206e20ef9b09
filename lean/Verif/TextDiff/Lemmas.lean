import Verif.TextDiff.Model
import Verif.TextDiff.Spec
import Verif.Color.Props
import Verif.Layout.Props
import Verif.Diff.Props
import Verif.Message.Lemmas
namespace H2.TextDiff
open H2.Layout (Word Line Style Cell cells cellsFrom styleAfter text room isctrl style_iff Break lineBreak breakChars breakWords fill spaces padding lineWidth charWidth Pieces Shown ShownBy unified)
open H2.Abbrev (shown vis vis_cons vis_append vis_nil text_vis not_ctrl escape dim)
open H2.Color (Slots printl parse none8 state terminal code codesOn Known)

/-! ### Styles that do not depend on what was set before -/

/-- The styles switched on after a style word of a comparison. -/
def effect : Option Word → List Word
  | none => []
  | some w => if w = "\x1b{green}".toList then ["green".toList] else if w = "\x1b{red}".toList then ["red".toList]
    else if w = "\x1b{+dark gray}".toList then ["dark gray".toList] else []

def slotsOf (st : Option Word) : Slots := state (effect st)

/-- A style word that may follow another. -/
def Next (st : Option Word) (w : Word) : Prop := parse (slotsOf st) w = slotsOf (some w)

def Settles : Option Word → Line → Prop
  | _, [] => True
  | st, w :: ws => if Style w then Next st w ∧ Settles (some w) ws else Settles st ws

theorem settles_append (a b : Line) : ∀ st, Settles st (a ++ b) ↔ Settles st a ∧ Settles (styleAfter st a) b := by
  induction a with
  | nil => intro st; simp [Settles, styleAfter]
  | cons w a ih =>
    intro st
    by_cases h : Style w
    · simp only [List.cons_append, Settles, if_pos h, styleAfter, ih, and_assoc]
    · simp only [List.cons_append, Settles, if_neg h, styleAfter, ih]

theorem effect_known (st : Option Word) : ∀ n ∈ effect st, Known n := by
  intro n hn
  unfold effect at hn
  split at hn
  · simp at hn
  · split at hn
    · simp at hn; subst hn; exact ⟨("green", 32), by decide +kernel, rfl⟩
    · split at hn
      · simp at hn; subst hn; exact ⟨("red", 31), by decide +kernel, rfl⟩
      · split at hn
        · simp at hn; subst hn; exact ⟨("dark gray", 90), by decide +kernel, rfl⟩
        · simp at hn

def on (st : Option Word) : List Word := (effect st).map code

theorem codesOn_slots (st : Option Word) : codesOn (slotsOf st) = on st := H2.Color.codesOn_state (effect_known st)

/-- What a terminal shows of a line whose styles settle. -/
theorem term_settled (l : Line) : ∀ st r, Settles st l → '\x1b' ∉ (cellsFrom st l).map (·.2) →
    (printl true (slotsOf st) l).1 = slotsOf (styleAfter st l) ∧
    terminal .text (on st) ((printl true (slotsOf st) l).2 ++ r) =
      (cellsFrom st l).map (fun c => (on c.1, c.2)) ++ terminal .text (on (styleAfter st l)) r := by
  induction l with
  | nil => intro st r _ _; exact ⟨rfl, rfl⟩
  | cons w ws ih =>
    intro st r hs he
    by_cases h : Style w
    · have hc : isctrl w = true := (style_iff w).1 h
      simp only [Settles, if_pos h] at hs
      simp only [cellsFrom, if_pos h] at he
      obtain ⟨i1, i2⟩ := ih (some w) r hs.2 he
      have hp : H2.Color.print true (slotsOf st) w = (slotsOf (some w), H2.Color.change (slotsOf (some w))) := by
        unfold H2.Color.print
        rw [hc]; simp only [if_true]; rw [hs.1]
      simp only [printl, hp, styleAfter, cellsFrom, if_pos h, i1, true_and]
      rw [List.append_assoc, H2.Color.term_change, codesOn_slots, i2]
    · have hc : isctrl w = false := by rw [Bool.eq_false_iff]; exact fun e => h ((style_iff w).2 e)
      simp only [Settles, if_neg h] at hs
      simp only [cellsFrom, if_neg h, List.map_append, List.map_map] at he
      obtain ⟨i1, i2⟩ := ih st r hs (fun e => he (List.mem_append_right _ e))
      have hp : H2.Color.print true (slotsOf st) w = (slotsOf st, w) := by
        unfold H2.Color.print
        rw [hc]; rfl
      simp only [printl, hp, styleAfter, cellsFrom, if_neg h, i1, true_and]
      have hw : '\x1b' ∉ w := fun e => he (List.mem_append_left _ (List.mem_map.2 ⟨_, e, rfl⟩))
      rw [List.append_assoc, H2.Color.term_text hw, i2]
      simp [List.map_append, List.map_map, Function.comp_def]

/-! ### Breaking keeps styles settled -/

theorem settles_text {st : Option Word} (w : Word) (h : ¬ Style w) : Settles st [w] := by simp [Settles, h]

theorem styleAfter_text {st : Option Word} (w : Word) (h : ¬ Style w) : styleAfter st [w] = st := by simp [styleAfter, h]

structure Good (st : Option Word) (b : Break) : Prop where
  lines : ∀ l ∈ b.lines, Settles none l
  wrap : Settles none b.wrap
  after : styleAfter none b.wrap = st
  style : (st = none ∧ b.style = []) ∨ (st = some b.style ∧ Style b.style ∧ Next none b.style)

theorem fill_settles {width : Nat} {wrap l : Line} (h : fill width wrap = some l) (hw : Settles none wrap) : Settles none l := by
  unfold fill at h
  split at h
  · simp only [Option.some.injEq] at h
    subst h
    unfold padding
    split
    · exact hw
    · exact (settles_append _ _ _).2 ⟨hw, settles_text _ (H2.Layout.not_style_spaces _)⟩
  · simp at h

theorem good_chars {width : Nat} (cs : Word) : ∀ {st : Option Word} {b b' : Break}, Good st b → breakChars width cs b = some b' → Good st b' := by
  induction cs with
  | nil => intro st b b' g h; simp [breakChars] at h; subst h; exact g
  | cons c cs ih =>
    intro st b b' g h
    unfold breakChars at h
    split at h
    · split at h
      · simp at h
      · rename_i l hl
        refine ih ⟨?_, ?_, ?_, ?_⟩ h
        · intro x hx
          rcases List.mem_append.1 hx with hx | hx
          · exact g.lines x hx
          · rw [List.mem_singleton.1 hx]; exact fill_settles hl g.wrap
        · rcases g.style with ⟨e1, e2⟩ | ⟨e1, e2, e3⟩
          · rw [e2]; exact settles_text _ (H2.Layout.not_style_char c)
          · rw [if_neg (by intro e; obtain ⟨r, e'⟩ := e2; rw [e'] at e; simp at e)]
            simp only [List.cons_append, List.nil_append, Settles, if_pos e2, if_neg (H2.Layout.not_style_char c), and_true]
            exact e3
        · rcases g.style with ⟨e1, e2⟩ | ⟨e1, e2, e3⟩
          · rw [e2, e1]; exact styleAfter_text _ (H2.Layout.not_style_char c)
          · rw [if_neg (by intro e; obtain ⟨r, e'⟩ := e2; rw [e'] at e; simp at e)]
            simp only [List.cons_append, List.nil_append, styleAfter, if_pos e2, if_neg (H2.Layout.not_style_char c)]
            exact e1.symm
        · exact g.style
    · refine ih ?_ h
      refine ⟨g.lines, ?_, ?_, g.style⟩
      · exact (settles_append _ _ _).2 ⟨g.wrap, settles_text _ (H2.Layout.not_style_char c)⟩
      · rw [H2.Layout.styleAfter_append, styleAfter_text _ (H2.Layout.not_style_char c)]; exact g.after

theorem good_words {width : Nat} (ws : Line) : ∀ {st : Option Word} {b b' : Break}, Good st b → Settles st ws → (∀ w ∈ ws, Style w → Next none w) →
    breakWords width ws b = some b' → Good (styleAfter st ws) b' := by
  induction ws with
  | nil => intro st b b' g _ _ h; simp [breakWords] at h; subst h; exact g
  | cons w ws ih =>
    intro st b b' g hs hn h
    unfold breakWords at h
    by_cases hw : Style w
    · rw [if_pos ((style_iff w).1 hw)] at h
      simp only [Settles, if_pos hw] at hs
      simp only [styleAfter, if_pos hw]
      refine ih ?_ hs.2 (fun x hx => hn x (by simp [hx])) h
      refine ⟨g.lines, ?_, ?_, .inr ⟨rfl, hw, hn w (by simp) hw⟩⟩
      · rw [settles_append, g.after]
        refine ⟨g.wrap, ?_⟩
        simp only [Settles, if_pos hw, and_true]
        exact hs.1
      · rw [H2.Layout.styleAfter_append]; simp [styleAfter, hw]
    · rw [if_neg (fun e => hw ((style_iff w).2 e))] at h
      simp only [Settles, if_neg hw] at hs
      simp only [styleAfter, if_neg hw]
      split at h
      · simp at h
      · rename_i b1 h1
        exact ih (good_chars w g h1) hs (fun x hx => hn x (by simp [hx])) h

theorem break_settles {line : Line} {width : Nat} {lines : List Line} (h : lineBreak line width = some lines) (hs : Settles none line)
    (hn : ∀ w ∈ line, Style w → Next none w) : ∀ l ∈ lines, Settles none l := by
  unfold lineBreak at h
  split at h
  · simp at h
  · rename_i b hb
    rw [Option.map_eq_some_iff] at h
    obtain ⟨l, hl, rfl⟩ := h
    have g0 : Good none ⟨[], [], []⟩ := ⟨by simp, trivial, rfl, .inl ⟨rfl, rfl⟩⟩
    have g := good_words line g0 hs hn hb
    intro x hx
    rcases List.mem_append.1 hx with hx | hx
    · exact g.lines x hx
    · rw [List.mem_singleton.1 hx]; exact fill_settles hl g.wrap

/-! ### The lines of a comparison -/

theorem style_word (s : Word) : Style ("\x1b{".toList ++ s) := ⟨s, rfl⟩

theorem next_any (st : Option Word) (h : effect st = []) (w : Word) (hw : w ∈ ["\x1b{green}".toList, "\x1b{red}".toList, "\x1b{+dark gray}".toList]) : Next st w := by
  have H : ∀ w ∈ ["\x1b{green}".toList, "\x1b{red}".toList, "\x1b{+dark gray}".toList], parse (state []) w = state (effect (some w)) := by decide +kernel
  unfold Next slotsOf
  rw [h]
  exact H w hw

theorem next_reset (st : Option Word) : Next st "\x1b{reset}".toList := by
  unfold Next slotsOf
  rw [H2.Color.parse_reset]
  have h : effect (some "\x1b{reset}".toList) = [] := by decide +kernel
  rw [h]
  unfold effect
  split
  · decide
  · split
    · decide
    · split
      · decide
      · split <;> decide

theorem next_undim (st : Option Word) (h : effect st = [] ∨ effect st = ["dark gray".toList]) : Next st "\x1b{-dark gray}".toList := by
  unfold Next slotsOf
  rcases h with h | h <;> rw [h] <;> decide +kernel

theorem effect_reset : effect (some "\x1b{reset}".toList) = [] := by decide +kernel
theorem effect_undim : effect (some "\x1b{-dark gray}".toList) = [] := by decide +kernel
theorem effect_dim : effect (some "\x1b{+dark gray}".toList) = ["dark gray".toList] := by decide +kernel

theorem escape_one (c : Char) (h : c ≠ '\x1b') : ¬ Style (escape [c]) ∧ '\x1b' ∉ escape [c] := by
  have : '\x1b' ∉ escape [c] := by
    unfold escape H2.Abbrev.escapeChar
    simp only [List.flatMap_cons, List.flatMap_nil, List.append_nil]
    split
    · decide
    · split
      · decide
      · split
        · decide
        · simpa using fun e => h e.symm
  exact ⟨by rintro ⟨r, e⟩; rw [e] at this; simp at this, this⟩

/-- The styles of a side: green or red. -/
def Hue (style : Word) : Prop := style = "green".toList ∨ style = "red".toList

theorem hue_word {style : Word} (h : Hue style) : "\x1b{".toList ++ style ++ ['}'] ∈ ["\x1b{green}".toList, "\x1b{red}".toList, "\x1b{+dark gray}".toList] ∧
    effect (some ("\x1b{".toList ++ style ++ ['}'])) = [style] ∧ style.isEmpty = false := by
  rcases h with rfl | rfl <;> decide +kernel

theorem three (st : Option Word) {a t b : Word} (ha : Style a) (ht : ¬ Style t) (hb : Style b) :
    (Settles st [a, t, b] ↔ Next st a ∧ Next (some a) b) ∧ styleAfter st [a, t, b] = some b ∧ cellsFrom st [a, t, b] = t.map fun c => (some a, c) := by
  refine ⟨?_, ?_, ?_⟩
  · simp [Settles, ha, ht, hb]
  · simp [styleAfter, ha, ht, hb]
  · simp [cellsFrom, ha, ht, hb]

theorem three_next {a t b : Word} (ht : ¬ Style t) (ha : Next none a) (hb : Next none b) : ∀ w ∈ [a, t, b], Style w → Next none w := by
  intro w hw hst
  simp only [List.mem_cons, List.not_mem_nil, or_false] at hw
  rcases hw with rfl | rfl | rfl
  · exact ha
  · exact absurd hst ht
  · exact hb

theorem dot_plain : ¬ Style "‧".toList := by decide
theorem style_dim : Style "\x1b{+dark gray}".toList := ⟨_, rfl⟩
theorem style_undim : Style "\x1b{-dark gray}".toList := ⟨_, rfl⟩
theorem style_reset : Style "\x1b{reset}".toList := ⟨_, rfl⟩

theorem brush_hue {style : Word} (h : Hue style) (t : Word) : H2.Layout.brush [t] style = ["\x1b{".toList ++ style ++ ['}'], t, "\x1b{reset}".toList] := by
  unfold H2.Layout.brush
  rw [(hue_word h).2.2]
  rfl

/-- One character. -/
theorem fmtChar_ok (c : Char) (eq : Bool) (style : Word) (hs : Hue style) (hc : c ≠ '\x1b') (st : Option Word) (h : effect st = []) :
    Settles st (fmtChar true c eq style) ∧ (∀ w ∈ fmtChar true c eq style, Style w → Next none w) ∧ effect (styleAfter st (fmtChar true c eq style)) = [] ∧
    (cellsFrom st (fmtChar true c eq style)).map (fun x => (on x.1, x.2)) =
      (if c = ' ' then [([code "dark gray".toList], '‧')] else (shown [c]).map fun x => (if eq then [] else [code style], x)) := by
  unfold fmtChar
  by_cases hb : c = ' '
  · rw [if_pos ⟨hb, rfl⟩, if_pos hb]
    unfold dim
    obtain ⟨t1, t2, t3⟩ := three st style_dim dot_plain style_undim
    refine ⟨t1.2 ⟨next_any _ h _ (by simp only [List.mem_cons, true_or, or_true]), next_undim _ (.inr effect_dim)⟩, three_next dot_plain (next_any _ rfl _ (by simp only [List.mem_cons, true_or, or_true])) (next_undim _ (.inl rfl)), ?_, ?_⟩
    · rw [t2]; exact effect_undim
    · rw [t3]
      have e : on (some "\x1b{+dark gray}".toList) = [code "dark gray".toList] := by unfold on; rw [effect_dim]; rfl
      have d : "‧".toList = ['‧'] := by decide
      rw [d]
      simp only [List.map_cons, List.map_nil, e]
  · rw [if_neg (fun x => hb x.1), if_neg hb]
    obtain ⟨n1, n2⟩ := escape_one c hc
    cases eq with
    | true =>
      rw [if_pos rfl]
      refine ⟨settles_text _ n1, ?_, ?_, ?_⟩
      · intro w hw hst
        rw [List.mem_singleton.1 hw] at hst
        exact absurd hst n1
      · rw [styleAfter_text _ n1]; exact h
      · rw [H2.Message.escape_shown] at n1 ⊢
        simp only [cellsFrom, if_neg n1, List.append_nil, List.map_map, if_true, Function.comp_def, on, h, List.map_nil]
    | false =>
      obtain ⟨h1, h2, h3⟩ := hue_word hs
      rw [if_neg (by decide), brush_hue hs]
      have s1 : Style ("\x1b{".toList ++ style ++ ['}']) := ⟨style ++ ['}'], by rfl⟩
      obtain ⟨t1, t2, t3⟩ := three st s1 n1 style_reset
      refine ⟨t1.2 ⟨next_any _ h _ h1, next_reset _⟩, three_next n1 (next_any _ rfl _ h1) (next_reset _), ?_, ?_⟩
      · rw [t2]; exact effect_reset
      · rw [t3, H2.Message.escape_shown, List.map_map]
        have e : on (some ("\x1b{".toList ++ style ++ ['}'])) = [code style] := by unfold on; rw [h2]; rfl
        simp only [Function.comp_def, e]
        rfl

theorem sideLine_ok (style : Word) (hs : Hue style) (marks : List Bool) : ∀ (t : List Char), '\x1b' ∉ t → ∀ st, effect st = [] →
    Settles st (sideLine true style marks t) ∧ (∀ w ∈ sideLine true style marks t, Style w → Next none w) ∧
    effect (styleAfter st (sideLine true style marks t)) = [] ∧
    (cellsFrom st (sideLine true style marks t)).map (fun x => (on x.1, x.2)) = coloured style marks t := by
  induction marks with
  | nil => intro t _ st h; exact ⟨trivial, by simp [sideLine], h, rfl⟩
  | cons m ms ih =>
    intro t ht st h
    cases t with
    | nil => exact ⟨trivial, by simp [sideLine], h, rfl⟩
    | cons c t =>
      have hc : c ≠ '\x1b' := fun e => ht (by simp [e])
      have e1 : sideLine true style (m :: ms) (c :: t) = fmtChar true c m style ++ sideLine true style ms t := rfl
      have e2 : coloured style (m :: ms) (c :: t) = (if c = ' ' then [([code "dark gray".toList], '‧')] else (shown [c]).map fun x => (if m then [] else [code style], x)) ++
        coloured style ms t := rfl
      obtain ⟨f1, f2, f3, f4⟩ := fmtChar_ok c m style hs hc st h
      obtain ⟨g1, g2, g3, g4⟩ := ih t (fun e => ht (List.mem_cons_of_mem _ e)) _ f3
      rw [e1, e2]
      refine ⟨(settles_append _ _ _).2 ⟨f1, g1⟩, ?_, ?_, ?_⟩
      · intro w hw
        rcases List.mem_append.1 hw with hw | hw
        · exact f2 w hw
        · exact g2 w hw
      · rw [H2.Layout.styleAfter_append]; exact g3
      · rw [H2.Layout.cellsFrom_append, List.map_append, f4, g4]

/-! ### Titles -/

theorem push_length (s : Slots) (w : Word) : (H2.Color.pushStyle s w).length = s.length := by
  induction s with
  | nil => rfl
  | cons x s ih => cases x <;> simp [H2.Color.pushStyle, ih]

theorem apply_length (m : Bool) (s : Slots) (w : Word) : (H2.Color.apply m s w).length = s.length := by
  unfold H2.Color.apply
  have : (if m then H2.Color.popStyle s w else H2.Color.pushStyle s w).length = s.length := by
    split
    · simp [H2.Color.popStyle]
    · exact push_length s w
  simp only
  split
  · simp [H2.Color.clearStyle, this]
  · exact this

theorem applies_length (m : Bool) (ws : List Word) : ∀ s : Slots, (ws.foldl (H2.Color.apply m) s).length = s.length := by
  induction ws with
  | nil => intro s; rfl
  | cons w ws ih => intro s; rw [List.foldl_cons, ih, apply_length]

theorem parse_length (s : Slots) (w : Word) : (parse s w).length = s.length := by
  unfold parse
  split <;> exact applies_length _ _ _

theorem printl_length (b : Bool) (l : Line) : ∀ s : Slots, (printl b s l).1.length = s.length := by
  induction l with
  | nil => intro s; rfl
  | cons w l ih =>
    intro s
    simp only [printl]
    rw [ih]
    unfold H2.Color.print
    split
    · split
      · exact parse_length s w
      · rfl
    · rfl

/-- After a line that ends with `reset` nothing is switched on. -/
theorem term_title (t : Line) (h : '\x1b' ∉ text t) (s : Slots) (hs : s.length = 8) (on0 : List Word) (r : List Char) :
    (printl true s (t ++ ["\x1b{reset}".toList])).1 = none8 ∧
    ∃ shown, terminal .text on0 ((printl true s (t ++ ["\x1b{reset}".toList])).2 ++ r) = shown ++ terminal .text [] r ∧ chars shown = text t := by
  have hr : H2.Color.print true (printl true s t).1 "\x1b{reset}".toList = (none8, H2.Color.change none8) := by
    unfold H2.Color.print
    rw [if_pos (by decide), if_pos rfl, H2.Color.parse_reset]
    have : (printl true s t).1.map (fun _ => ([] : Word)) = none8 := by
      rw [List.map_const', printl_length, hs]; rfl
    rw [this]
  have e : printl true s (t ++ ["\x1b{reset}".toList]) = (none8, (printl true s t).2 ++ H2.Color.change none8) := by
    rw [H2.Color.printl_append]
    simp only [printl, hr, List.append_nil]
  rw [e]
  refine ⟨rfl, ?_⟩
  have key : ∀ (l : Line), '\x1b' ∉ vis l → ∀ s on0 r, ∃ shown on1, terminal .text on0 ((printl true s l).2 ++ r) = shown ++ terminal .text on1 r ∧ chars shown = vis l := by
    intro l
    induction l with
    | nil => intro _ s on0 r; exact ⟨[], on0, rfl, rfl⟩
    | cons w l ih =>
      intro h s on0 r
      rw [vis_cons] at h ⊢
      cases hc : isctrl w with
      | true =>
        rw [hc] at h
        have hp : H2.Color.print true s w = (parse s w, H2.Color.change (parse s w)) := by unfold H2.Color.print; rw [hc]; rfl
        simp only [printl, hp, List.append_assoc]
        rw [H2.Color.term_change]
        exact ih (by simpa using h) _ _ _
      | false =>
        rw [hc] at h
        have hp : H2.Color.print true s w = (s, w) := by unfold H2.Color.print; rw [hc]; rfl
        simp only [printl, hp, List.append_assoc]
        have hw : '\x1b' ∉ w := fun e => h (List.mem_append_left _ e)
        rw [H2.Color.term_text hw]
        obtain ⟨sh, on1, e1, e2⟩ := ih (fun e => h (List.mem_append_right _ e)) s on0 r
        refine ⟨w.map (fun c => (on0, c)) ++ sh, on1, by rw [e1, List.append_assoc], ?_⟩
        simp only [chars, List.map_append, List.map_map, Function.comp_def, List.map_id', ← e2, Bool.false_eq_true, if_false]
  rw [text_vis] at h ⊢
  obtain ⟨sh, on1, e1, e2⟩ := key t h s on0 (H2.Color.change none8 ++ r)
  refine ⟨sh, ?_, e2⟩
  rw [List.append_assoc, e1, H2.Color.term_change]
  rfl

theorem title_form {style : Word} (h : Hue style) (t : Word) :
    title t style = ["\x1b{+dark gray}".toList, t, "\x1b{-dark gray}".toList, "\x1b{".toList ++ style ++ ['}'], "> ".toList] ++ ["\x1b{reset}".toList] := by
  unfold title
  rw [brush_hue h]
  rfl

theorem up_form : ∃ t, upTitle = t ++ ["\x1b{reset}".toList] ∧ text t = "expect> ".toList :=
  ⟨_, title_form (.inl rfl) _, by decide +kernel⟩

theorem down_form : ∃ t, downTitle = t ++ ["\x1b{reset}".toList] ∧ text t = "actual> ".toList :=
  ⟨_, title_form (.inr rfl) _, by decide +kernel⟩

theorem up_width : lineWidth upTitle = 8 ∧ text upTitle = "expect> ".toList := by decide +kernel
theorem down_width : lineWidth downTitle = 8 ∧ text downTitle = "actual> ".toList := by decide +kernel

/-! ### Rows -/

theorem weave_nil (u d : Line) (us : List Line) : H2.Layout.weave u d us [] = us.map (u ++ ·) := by
  unfold H2.Layout.weave
  simp only [List.length_nil, Nat.max_zero, List.getElem?_nil, List.append_nil]
  induction us with
  | nil => rfl
  | cons x us ih =>
    rw [List.length_cons, List.range_succ_eq_map, List.flatMap_cons, List.flatMap_map, List.map_cons]
    simp only [List.getElem?_cons_zero, List.getElem?_cons_succ]
    rw [ih]; rfl

theorem weave_nil_left (u d : Line) (ds : List Line) : H2.Layout.weave u d [] ds = ds.map (d ++ ·) := by
  unfold H2.Layout.weave
  simp only [List.length_nil, Nat.zero_max, List.getElem?_nil, List.nil_append]
  induction ds with
  | nil => rfl
  | cons x us ih =>
    rw [List.length_cons, List.range_succ_eq_map, List.flatMap_cons, List.flatMap_map, List.map_cons]
    simp only [List.getElem?_cons_zero, List.getElem?_cons_succ]
    rw [ih]; rfl

theorem weave_turn (u d : Line) : ∀ (us ds : List Line), H2.Layout.weave u d us ds = (inTurn us ds).map fun x => (if x.1 then u else d) ++ x.2 := by
  intro us
  induction us with
  | nil =>
    intro ds
    rw [weave_nil_left]
    cases ds with
    | nil => rfl
    | cons x ds => simp [inTurn]
  | cons x us ih =>
    intro ds
    cases ds with
    | nil => rw [weave_nil]; simp [inTurn]
    | cons y ds =>
      rw [inTurn, List.map_cons, List.map_cons, ← ih]
      unfold H2.Layout.weave
      have : max (x :: us).length (y :: ds).length = max us.length ds.length + 1 := by simp only [List.length_cons]; omega
      rw [this, List.range_succ_eq_map, List.flatMap_cons, List.flatMap_map]
      simp [Function.comp_def]

theorem inTurn_map {α β : Type} (f : α → β) : ∀ (us ds : List α), inTurn (us.map f) (ds.map f) = (inTurn us ds).map fun x => (x.1, f x.2) := by
  intro us
  induction us with
  | nil => intro ds; cases ds <;> simp [inTurn]
  | cons u us ih => intro ds; cases ds <;> simp [inTurn, ih]

theorem inTurn_mem {α : Type} : ∀ (us ds : List α), ∀ x ∈ inTurn us ds, if x.1 then x.2 ∈ us else x.2 ∈ ds := by
  intro us
  induction us with
  | nil =>
    intro ds x hx
    cases ds with
    | nil => simp [inTurn] at hx
    | cons d ds =>
      simp only [inTurn, List.mem_map] at hx
      obtain ⟨y, hy, rfl⟩ := hx
      simpa using hy
  | cons u us ih =>
    intro ds x hx
    cases ds with
    | nil =>
      simp only [inTurn, List.mem_map] at hx
      obtain ⟨y, hy, rfl⟩ := hx
      simpa using hy
    | cons d ds =>
      simp only [inTurn, List.mem_cons] at hx
      rcases hx with rfl | rfl | hx
      · simp
      · simp
      · have := ih ds x hx
        split <;> rename_i h <;> simp only [h] at this <;> simp_all

/-- A piece and the line that shows it. -/
def Fit (width : Nat) (x : List Cell × Line) : Prop := ShownBy width x.1 x.2 ∧ Settles none x.2 ∧ '\x1b' ∉ x.1.map (·.2)

theorem rows_screen (width : Nat) (l : List (Bool × (List Cell × Line))) (h : ∀ x ∈ l, Fit width x.2) : ∀ (s : Slots) (on0 : List Word), s.length = 8 →
    ∃ rows, terminal .text on0 (printLines true s (l.map fun x => (if x.1 then upTitle else downTitle) ++ x.2.2)).2 = rows.flatten ∧
      Rows (width + 8) (l.map fun x => (x.1, x.2.1.map fun c => (on c.1, c.2))) rows := by
  induction l with
  | nil => intro s on0 _; exact ⟨[], rfl, .nil⟩
  | cons x l ih =>
    intro s on0 hs
    obtain ⟨⟨blanks, h1, h2, h3⟩, h4, h5⟩ := h x (by simp)
    obtain ⟨t, ht, htt⟩ : ∃ t, (if x.1 then upTitle else downTitle) = t ++ ["\x1b{reset}".toList] ∧ text t = (if x.1 then "expect> " else "actual> ").toList := by
      cases x.1
      · exact down_form
      · exact up_form
    have hesc : '\x1b' ∉ text t := by rw [htt]; cases x.1 <;> decide
    have hce : '\x1b' ∉ (cellsFrom none x.2.2).map (·.2) := by
      have : cellsFrom none x.2.2 = x.2.1 ++ blanks := h1
      rw [this, List.map_append]
      intro e
      rcases List.mem_append.1 e with e | e
      · exact h5 e
      · obtain ⟨b, hb, e⟩ := List.mem_map.1 e
        rw [h2 b hb] at e; exact absurd e (by decide)
    have hslots : none8 = slotsOf none := rfl
    -- the state after the row
    obtain ⟨s', es⟩ : ∃ s', s' = (printl true none8 x.2.2).1 := ⟨_, rfl⟩
    have hs' : s'.length = 8 := by rw [es, printl_length]; rfl
    obtain ⟨rows, r1, r2⟩ := ih (fun y hy => h y (by simp [hy])) s' (on (styleAfter none x.2.2)) hs'
    obtain ⟨p1, tshown, p2, p3⟩ := term_title t hesc s hs on0 ((printl true none8 x.2.2).2 ++ (['\n'] ++ (printLines true s' (l.map fun x => (if x.1 then upTitle else downTitle) ++ x.2.2)).2))
    obtain ⟨q1, q2⟩ := term_settled x.2.2 none (['\n'] ++ (printLines true s' (l.map fun x => (if x.1 then upTitle else downTitle) ++ x.2.2)).2) h4 hce
    refine ⟨(tshown ++ x.2.1.map (fun c => (on c.1, c.2)) ++ blanks.map (fun c => (on c.1, c.2)) ++ [(on (styleAfter none x.2.2), '\n')]) :: rows, ?_, .cons ⟨tshown, _, _, rfl, ?_, ?_, ?_⟩ r2⟩
    · have hprint : printl true s ((if x.1 then upTitle else downTitle) ++ x.2.2) =
          (s', (printl true s (t ++ ["\x1b{reset}".toList])).2 ++ (printl true none8 x.2.2).2) := by
        rw [ht, H2.Color.printl_append, p1, es]
      rw [List.map_cons]
      simp only [printLines]
      rw [hprint, List.flatten_cons, ← r1, List.append_assoc, List.append_assoc, p2]
      have : (cellsFrom none x.2.2) = x.2.1 ++ blanks := h1
      have e0 : on none = [] := rfl
      rw [hslots, ← e0, q2, this, List.map_append]
      simp only [List.append_assoc]
      congr 3
    · rw [p3, htt]
    · intro c hc
      obtain ⟨b, hb, rfl⟩ := List.mem_map.1 hc
      exact h2 b hb
    · have e : text x.2.2 = (x.2.1 ++ blanks).map (·.2) := by unfold text; rw [h1]
      have e2 : chars (tshown ++ x.2.1.map (fun c => (on c.1, c.2)) ++ blanks.map (fun c => (on c.1, c.2))) = text t ++ text x.2.2 := by
        rw [e]
        unfold chars at p3 ⊢
        rw [List.map_append, List.map_append, p3, List.map_append, List.append_assoc, List.map_map, List.map_map]
        rfl
      rw [e2, H2.Layout.room_append, h3, htt]
      cases x.1
      · show room "actual> ".toList + width = width + 8
        have : room "actual> ".toList = 8 := by decide
        omega
      · show room "expect> ".toList + width = width + 8
        have : room "expect> ".toList = 8 := by decide
        omega

/-- The same without colours. -/
theorem rows_plain (width : Nat) (l : List (Bool × (List Cell × Line))) (h : ∀ x ∈ l, ShownBy width x.2.1 x.2.2) : ∀ (s : Slots),
    ∃ rows, (printLines false s (l.map fun x => (if x.1 then upTitle else downTitle) ++ x.2.2)).2 = chars rows.flatten ∧
      Rows (width + 8) (l.map fun x => (x.1, x.2.1.map fun c => ([], c.2))) rows := by
  induction l with
  | nil => intro s; exact ⟨[], rfl, .nil⟩
  | cons x l ih =>
    intro s
    obtain ⟨blanks, h1, h2, h3⟩ := h x (by simp)
    have htt : text (if x.1 then upTitle else downTitle) = (if x.1 then "expect> " else "actual> ").toList := by
      cases x.1
      · exact down_width.2
      · exact up_width.2
    obtain ⟨rows, r1, r2⟩ := ih (fun y hy => h y (by simp [hy])) s
    have e : text x.2.2 = (x.2.1 ++ blanks).map (·.2) := by unfold text; rw [h1]
    let plain : List Char → Screen := fun t => t.map fun c => ([], c)
    have cp : ∀ t, chars (plain t) = t := by intro t; simp [chars, plain, Function.comp_def]
    have cm : ∀ (x : List Cell), chars (x.map fun c => (([] : List Word), c.2)) = x.map (·.2) := by intro t; simp [chars, Function.comp_def]
    have ca : ∀ a b, chars (a ++ b) = chars a ++ chars b := fun a b => List.map_append
    refine ⟨(plain (text (if x.1 then upTitle else downTitle)) ++ x.2.1.map (fun c => ([], c.2)) ++ blanks.map (fun c => ([], c.2)) ++ [([], '\n')]) :: rows, ?_, .cons ⟨_, _, _, rfl, ?_, ?_, ?_⟩ r2⟩
    · rw [List.map_cons]
      simp only [printLines, H2.Color.printl_off]
      rw [vis_append, ← text_vis, ← text_vis, r1, e, List.flatten_cons, ca, ca, ca, ca, cp, cm, cm, List.map_append]
      simp only [List.append_assoc]
      rfl
    · rw [cp, htt]
    · intro c hc
      obtain ⟨b, hb, rfl⟩ := List.mem_map.1 hc
      exact h2 b hb
    · rw [ca, ca, cp, cm, cm, List.append_assoc, ← List.map_append, ← e, H2.Layout.room_append, h3, htt]
      cases x.1
      · show room "actual> ".toList + width = width + 8
        have : room "actual> ".toList = 8 := by decide
        omega
      · show room "expect> ".toList + width = width + 8
        have : room "expect> ".toList = 8 := by decide
        omega

theorem parts_of (line : Line) (width : Nat) (parts : List (List Cell)) (h : Pieces line width parts) (g : Option Word → List Word) :
    Parts ((cells line).map fun c => (g c.1, c.2)) width (parts.map fun p => p.map fun c => (g c.1, c.2)) := by
  have cm : ∀ (x : List Cell), chars (x.map fun c => (g c.1, c.2)) = x.map (·.2) := by intro t; simp [chars, Function.comp_def]
  refine ⟨?_, ?_, ?_⟩
  · rw [← h.all, List.map_flatten]
  · intro p hp
    obtain ⟨q, hq, rfl⟩ := List.mem_map.1 hp
    rw [cm]; exact h.fit q hq
  · intro i p q hp hq
    rw [List.getElem?_map, Option.map_eq_some_iff] at hp hq
    obtain ⟨p', hp, rfl⟩ := hp
    obtain ⟨q', hq, rfl⟩ := hq
    obtain ⟨c, r, e, hw⟩ := h.full i p' q' hp hq
    refine ⟨(g c.1, c.2), r.map fun c => (g c.1, c.2), by rw [e]; rfl, ?_⟩
    rw [cm]; exact hw

theorem zip_shown {width : Nat} {parts : List (List Cell)} {lines : List Line} (h : Shown width parts lines) :
    (parts.zip lines).map (·.2) = lines ∧ (parts.zip lines).map (·.1) = parts ∧ ∀ x ∈ parts.zip lines, ShownBy width x.1 x.2 := by
  refine ⟨List.map_snd_zip (by rw [h.1]; exact Nat.le_refl _), List.map_fst_zip (by rw [h.1]; exact Nat.le_refl _), ?_⟩
  intro x hx
  obtain ⟨i, hi, e⟩ := List.getElem_of_mem hx
  have h1 : (parts.zip lines)[i]? = some x := by rw [List.getElem?_eq_getElem hi, e]
  rw [List.getElem?_zip_eq_some] at h1
  exact h.2 i _ _ h1.1 h1.2

theorem unified_turn (up down : Line) (width : Nat) (hw : 10 ≤ width) :
    ∃ us ds : List (List Cell × Line), unified up down upTitle downTitle width = some ((inTurn us ds).map fun x => (if x.1 then upTitle else downTitle) ++ x.2.2) ∧
      lineBreak up (width - 8) = some (us.map (·.2)) ∧ lineBreak down (width - 8) = some (ds.map (·.2)) ∧
      Pieces up (width - 8) (us.map (·.1)) ∧ Pieces down (width - 8) (ds.map (·.1)) ∧ ∀ x ∈ us ++ ds, ShownBy (width - 8) x.1 x.2 := by
  have wide : ∀ (l : Line), ∀ c ∈ text l, charWidth c ≤ width - 8 := fun l c _ => by unfold charWidth; split <;> omega
  obtain ⟨ls, ps, e1, p1, s1, -⟩ := H2.Layout.lineBreak_some up (width - 8) (wide up)
  obtain ⟨ms, qs, e2, p2, s2, -⟩ := H2.Layout.lineBreak_some down (width - 8) (wide down)
  obtain ⟨z1, z2, z3⟩ := zip_shown s1
  obtain ⟨y1, y2, y3⟩ := zip_shown s2
  refine ⟨ps.zip ls, qs.zip ms, ?_, by rw [z1]; exact e1, by rw [y1]; exact e2, by rw [z2]; exact p1, by rw [y2]; exact p2, ?_⟩
  · unfold unified
    rw [up_width.1, down_width.1, if_neg (by omega), e1, e2]
    have := weave_turn upTitle downTitle ((ps.zip ls).map (·.2)) ((qs.zip ms).map (·.2))
    rw [inTurn_map, z1, y1] at this
    simp only [this, List.map_map, Function.comp_def]
  · intro x hx
    rcases List.mem_append.1 hx with hx | hx
    · exact z3 x hx
    · exact y3 x hx

theorem alike_equals (caseless : Bool) : (fun x y : Char => H2.Str.equals [x] [y] caseless) = alike caseless := by
  funext x y
  unfold H2.Str.equals alike
  cases caseless
  · simp
  · simp [H2.Str.lower]

theorem common (caseless : Bool) (e a : List Char) :
    Common caseless e a (H2.Diff.lcs (fun x y : Char => H2.Str.equals [x] [y] caseless) e a).1 (H2.Diff.lcs (fun x y : Char => H2.Str.equals [x] [y] caseless) e a).2 := by
  rw [alike_equals]
  obtain ⟨h1, h2, h3, h4⟩ := H2.Diff.C18_lcs (alike caseless) e a
  exact ⟨⟨h1, h2⟩, h3, h4⟩

theorem coloured_esc (style : Word) (marks : List Bool) (t : List Char) (h : '\x1b' ∉ t) : '\x1b' ∉ chars (coloured style marks t) := by
  intro hm
  obtain ⟨x, hx, e⟩ := List.mem_map.1 hm
  obtain ⟨p, hp, hx⟩ := List.mem_flatMap.1 hx
  have hc : p.2 ≠ '\x1b' := fun e => h (by rw [← e]; exact (List.of_mem_zip hp).2)
  split at hx
  · rw [List.mem_singleton.1 hx] at e; exact absurd e (by decide)
  · obtain ⟨c, hc', rfl⟩ := List.mem_map.1 hx
    rw [← H2.Message.escape_shown] at hc'
    simp only at e
    rw [e] at hc'
    exact (escape_one _ hc).2 hc'

theorem text_plain (style : Word) (hs : Hue style) (marks : List Bool) : ∀ (t : List Char), '\x1b' ∉ t → marks.length = t.length → text (sideLine false style marks t) = shown t := by
  induction marks with
  | nil => intro t _ h; cases t with
    | nil => rfl
    | cons _ _ => simp at h
  | cons m ms ih =>
    intro t ht h
    cases t with
    | nil => simp at h
    | cons c t =>
      have hc : c ≠ '\x1b' := fun e => ht (by simp [e])
      obtain ⟨n1, n2⟩ := escape_one c hc
      have e1 : sideLine false style (m :: ms) (c :: t) = fmtChar false c m style ++ sideLine false style ms t := rfl
      have e2 : shown (c :: t) = shown [c] ++ shown t := by rw [← H2.Abbrev.shown_append]; rfl
      rw [e1, H2.Message.text_append, ih t (fun e => ht (List.mem_cons_of_mem _ e)) (by simpa using h), e2]
      congr 1
      unfold fmtChar
      rw [if_neg (by simp)]
      split
      · rw [H2.Message.text_word _ n2, H2.Message.escape_shown]
      · rw [H2.Message.text_brush, H2.Message.text_word _ n2, H2.Message.escape_shown]

end H2.TextDiff
