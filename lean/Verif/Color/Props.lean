import Verif.Color.Lemmas
/-
C61  Colours do not change what is written, and every part of a line has the colours it was given.
-/
namespace H2.Color
open H2.Layout (Word Line text)
open H2.Abbrev (vis text_vis)

/-- With colours off exactly the text of a line is written. -/
theorem C61_plain (l : Line) (s : Slots) : (printl false s l).2 = text l := by
  rw [printl_off, text_vis]

example : (printl false none8 ["\x1b{red}".toList, "a".toList, "\x1b{reset}".toList, "b".toList]).2 = "ab".toList := by decide +kernel

/-- With colours on a terminal shows the same characters, for any styles whatsoever (known or not, nested or not), when the text
has no escape characters. -/
theorem C61_text (l : Line) (s : Slots) (on : List Word) (h : '\x1b' ∉ text l) :
    (terminal .text on (printl true s l).2).map (·.2) = text l := by
  rw [text_vis] at h ⊢
  obtain ⟨on', h'⟩ := printl_text l h s on []
  simpa [terminal] using h'

example : (terminal .text [] (printl true none8 ["\x1b{red}".toList, "a".toList, "\x1b{reset}".toList, "b".toList]).2) =
    [(["31".toList], 'a'), ([], 'b')] := by decide +kernel

/-- With colours on, every character of a properly nested line is shown in the styles of the parts it is in, the outermost
first, and nothing remains switched on.  Missing: see `C61_inner_color`, `C61_same_style`, `C61_ninth`, `C61_order`. -/
theorem C61_nested_partial (m : Markup) (h : m.Proper []) :
    terminal .text [] (printl true none8 m.line).2 = (m.look []).map (fun x => (x.1.map code, x.2)) ∧
      (printl true none8 m.line).1 = none8 := by
  have H : ∀ (m : Markup) (outer : List Word), (∀ n ∈ outer, Known n) → outer.length ≤ 8 → m.Proper outer →
      (printl true (state outer) m.line).1 = state outer ∧ ∀ r,
        terminal .text (outer.map code) ((printl true (state outer) m.line).2 ++ r) =
          (m.look outer).map (fun x => (x.1.map code, x.2)) ++ terminal .text (outer.map code) r := by
    intro m
    induction m with
    | text t =>
      intro outer _ _ h
      have hc : H2.Layout.isctrl t = false := H2.Abbrev.not_ctrl h
      have e : printl true (state outer) (Markup.text t).line = (state outer, t) := by
        simp [Markup.line, printl, print, hc]
      rw [e]
      refine ⟨rfl, fun r => ?_⟩
      simp only
      rw [term_text h]
      simp [Markup.look, Function.comp_def]
    | seq a b iha ihb =>
      intro outer ho hl h
      obtain ⟨a1, a2⟩ := iha outer ho hl h.1
      obtain ⟨b1, b2⟩ := ihb outer ho hl h.2
      simp only [Markup.line, printl_append]
      rw [a1]
      refine ⟨b1, fun r => ?_⟩
      simp only [List.append_assoc]
      rw [a2, b2]
      simp [Markup.look]
    | delta ns a ih =>
      intro outer ho hl h
      obtain ⟨h1, h2, h3, h4, h5⟩ := h
      have hk : ∀ n ∈ outer ++ ns, Known n := by
        intro n hn
        rcases List.mem_append.1 hn with hn | hn
        · exact ho n hn
        · exact h2 n hn
      obtain ⟨a1, a2⟩ := ih (outer ++ ns) hk h4 h5
      have p1 : parse (state outer) ("\x1b{+".toList ++ commas ns ++ ['}']) = state (outer ++ ns) :=
        parse_push h1 h2 ho h4
      have p2 : parse (state (outer ++ ns)) ("\x1b{-".toList ++ commas ns ++ ['}']) = state outer :=
        parse_pop h1 h2 h3 h4
      have c1 : H2.Layout.isctrl ("\x1b{+".toList ++ commas ns ++ ['}']) = true := rfl
      have c2 : H2.Layout.isctrl ("\x1b{-".toList ++ commas ns ++ ['}']) = true := rfl
      have e1 : printl true (state outer) ["\x1b{+".toList ++ commas ns ++ ['}']] = (state (outer ++ ns), change (state (outer ++ ns))) := by
        simp only [printl, print, c1, if_true, p1, List.append_nil]
      have e2 : printl true (state (outer ++ ns)) ["\x1b{-".toList ++ commas ns ++ ['}']] = (state outer, change (state outer)) := by
        simp only [printl, print, c2, if_true, p2, List.append_nil]
      simp only [Markup.line, printl_append]
      rw [e1, a1, e2]
      refine ⟨rfl, fun r => ?_⟩
      simp only [List.append_assoc]
      rw [term_change, codesOn_state hk, a2, term_change, codesOn_state ho]
      rfl
    | color ns a ih =>
      intro outer ho hl h
      obtain ⟨h0, h1, h2, h3, h4, h5⟩ := h
      subst h0
      obtain ⟨a1, a2⟩ := ih ns h2 h4 h5
      have hh : ∀ c, (commas ns ++ ['}']).head? = some c → c ≠ '+' ∧ c ≠ '-' := by
        cases ns with
        | nil => exact absurd rfl h1
        | cons n l =>
          have kn := known (h2 n (by simp))
          cases n with
          | nil => exact absurd rfl kn.2.2.1
          | cons x y =>
            have hx1 : x ≠ '+' := fun e => kn.2.2.2.2.2.2.1 (by simp [e])
            have hx2 : x ≠ '-' := fun e => kn.2.2.2.2.2.2.2 (by simp [e])
            intro c hc
            cases l <;> · simp [commas] at hc; subst hc; exact ⟨hx1, hx2⟩
      have p1 : parse (state []) ("\x1b{".toList ++ commas ns ++ ['}']) = state ns := by
        have := parse_push (outer := []) h1 h2 (by simp) (by simpa using h4)
        rw [List.nil_append] at this
        rw [← this]
        have d : ("\x1b{".toList ++ commas ns ++ ['}']).drop 2 = commas ns ++ ['}'] := rfl
        unfold parse
        rw [d]
        generalize commas ns ++ ['}'] = t at hh
        split
        · exact absurd rfl (hh _ rfl).1
        · exact absurd rfl (hh _ rfl).2
        · rfl
      have p2 : parse (state ns) "\x1b{reset}".toList = state [] := by
        rw [parse_reset]
        unfold state
        rw [List.map_append, List.map_const', List.map_const', List.replicate_append_replicate]
        simp only [List.length_replicate, List.nil_append, List.length_nil]
        congr 1
        omega
      have c1 : H2.Layout.isctrl ("\x1b{".toList ++ commas ns ++ ['}']) = true := rfl
      have c2 : H2.Layout.isctrl "\x1b{reset}".toList = true := rfl
      have e1 : printl true (state []) ["\x1b{".toList ++ commas ns ++ ['}']] = (state ns, change (state ns)) := by
        simp only [printl, print, c1, if_true, p1, List.append_nil]
      have e2 : printl true (state ns) ["\x1b{reset}".toList] = (state [], change (state [])) := by
        simp only [printl, print, c2, if_true, p2, List.append_nil]
      simp only [Markup.line, printl_append]
      rw [e1, a1, e2]
      refine ⟨rfl, fun r => ?_⟩
      simp only [List.append_assoc]
      rw [term_change, codesOn_state h2, a2, term_change, codesOn_state (by simp)]
      rfl
  obtain ⟨h1, h2⟩ := H m [] (by simp) (by simp) h
  have := h2 []
  rw [List.append_nil] at this
  have e : state [] = none8 := rfl
  rw [e] at this h1
  exact ⟨by simpa [terminal] using this, h1⟩

/-- The line `OK(a == b)` of a failure, with the text dimmed in part. -/
def sample : Markup := .seq (.text "OK".toList) (.seq (.delta ["dark gray".toList] (.text "(".toList))
  (.color ["bold".toList, "red".toList] (.seq (.text "x".toList) (.delta ["dark gray".toList] (.text "\"".toList)))))

example : sample.Proper [] := by
  have k1 : Known "dark gray".toList := ⟨("dark gray", 90), by decide, rfl⟩
  have k2 : Known "bold".toList := ⟨("bold", 1), by decide, rfl⟩
  have k3 : Known "red".toList := ⟨("red", 31), by decide, rfl⟩
  have t : ∀ c : Char, c ≠ '\x1b' → '\x1b' ∉ [c] := fun c h e => h (List.mem_singleton.1 e).symm
  refine ⟨show '\x1b' ∉ "OK".toList by decide, ⟨by decide, by simpa using k1, by decide, by decide, t '(' (by decide)⟩, rfl, by decide, ?_,
    by decide, by decide, t 'x' (by decide), by decide, by simpa using k1, by decide, by decide, t '"' (by decide)⟩
  intro n hn
  simp only [List.mem_cons, List.not_mem_nil, or_false] at hn
  rcases hn with rfl | rfl
  · exact k2
  · exact k3
example : terminal .text [] (printl true none8 sample.line).2 =
    [([], 'O'), ([], 'K'), (["90".toList], '('), (["1".toList, "31".toList], 'x'), (["1".toList, "31".toList, "90".toList], '"')] := by decide +kernel

/-- A part in a colour of its own ends all styles, also those it stands in. -/
theorem C61_inner_color (s : Slots) : parse s "\x1b{reset}".toList = s.map (fun _ => []) ∧
    terminal .text [] (printl true none8 (Markup.delta ["bold".toList] (.seq (.color ["red".toList] (.text "a".toList)) (.text "b".toList))).line).2 =
      [(["1".toList, "31".toList], 'a'), ([], 'b')] := ⟨parse_reset s, by decide +kernel⟩

/-- A style inside itself ends too early. -/
theorem C61_same_style :
    terminal .text [] (printl true none8 (Markup.delta ["bold".toList] (.seq (.delta ["bold".toList] (.text "a".toList)) (.text "b".toList))).line).2 =
      [(["1".toList, "1".toList], 'a'), ([], 'b')] := by decide +kernel

/-- A ninth style is not shown. -/
theorem C61_ninth (outer : List Word) (h8 : outer.length = 8) (hk : ∀ n ∈ outer, Known n) (n : Word) (hn : Known n) :
    parse (state outer) ("\x1b{+".toList ++ n ++ ['}']) = state outer := by
  have kn := known hn
  show (pieces [] (n ++ ['}'])).foldl (apply false) (state outer) = state outer
  rw [pieces_name ⟨kn.2.2.2.1, kn.2.2.2.2.1⟩]
  simp only [List.nil_append, pieces, if_true, List.foldl_cons, List.foldl_nil, apply, Bool.false_eq_true, if_false, kn.2.2.2.2.2.1]
  have full : ∀ (l : List Word), (∀ m ∈ l, m ≠ []) → pushStyle l n = l := by
    intro l
    induction l with
    | nil => intro _; rfl
    | cons x l ih =>
      intro hl
      cases x with
      | nil => exact absurd rfl (hl [] (by simp))
      | cons c r => simp only [pushStyle]; rw [ih fun m hm => hl m (List.mem_cons_of_mem _ hm)]
  unfold state
  rw [h8]
  simpa using full outer fun m hm => (known (hk m hm)).2.2.1

example : (["bold", "italics", "underline", "inverse", "strikethrough", "red", "bg_blue", "default"].map String.toList).length = 8 := rfl

/-- Styles that are not nested may end up in another order than they were switched on, so that an earlier colour hides a later one. -/
theorem C61_order :
    terminal .text [] (printl true none8 ["\x1b{+green}".toList, "\x1b{+red}".toList, "\x1b{-green}".toList, "\x1b{+blue}".toList, "a".toList]).2 =
      [(["34".toList, "31".toList], 'a')] := by decide +kernel

end H2.Color
