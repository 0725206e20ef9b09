import Verif.Abbrev.Lemmas
/-
C60  Long texts in messages are shortened, short ones are shown completely; nothing is lost otherwise.
-/
namespace H2.Abbrev
open H2.Layout

/-- A text that fits is shown completely. -/
theorem C60_whole (l : Line) (width tail : Nat) (h : room (shown (text l)) ≤ width) :
    text (abbreviate l width tail) = shown (text l) := by
  rw [text_vis] at h
  unfold abbreviate
  have e : lineWidth (escaped l) = room (shown (vis l)) := by rw [lineWidth_room, text_vis, vis_escaped]
  simp only [e, if_pos h]
  rw [text_vis, vis_escaped, text_vis]

example : text (abbreviate ["a\nb".toList] 4 0) = "a\\nb".toList := by decide +kernel

/-- A text that does not fit: its beginning and its end remain, and something in between does not; it is marked with dots
exactly when the beginning ends at the column of the dots, which is always so unless a character of two columns is in
the way.  The text contains no escape character, is shorter than 2^64, and there is room for the dots and the end. -/
theorem C60_shortened (l : Line) (width tail : Nat) (hesc : '\x1b' ∉ text l) (hlen : room (shown (text l)) < 2 ^ 64)
    (hroom : tail + 3 ≤ width) (h : width < room (shown (text l))) :
    ∃ marked, Shortened (shown (text l)) width tail marked (text (abbreviate l width tail)) ∧
      ((∀ c ∈ text l, c.toNat < 128) → marked = true) := by
  rw [text_vis] at hesc hlen h ⊢
  have e : lineWidth (escaped l) = room (shown (vis l)) := by rw [lineWidth_room, text_vis, vis_escaped]
  have e0 : abbreviate l width tail = shortenWords (width - 3 - tail) (room (shown (vis l)) - tail) (escaped l) 0 := by
    unfold abbreviate
    simp only [e, if_neg (Nat.not_le.2 h)]
    rw [minus_le (by omega : 3 ≤ width) (by omega), minus_le (by omega) (by omega), minus_le (by omega) hlen]
  have e1 : text (abbreviate l width tail) = flat (width - 3 - tail) (room (shown (vis l)) - tail) (shown (vis l)) 0 := by
    rw [text_vis, e0, shortenWords_vis _ _ (by rw [vis_escaped]; exact esc_shown hesc), vis_escaped]
  obtain ⟨head, gap, last, h1, h2, h3, h4, h5, h6, h7⟩ :=
    flat_shortened (cut := width - 3 - tail) (last := room (shown (vis l)) - tail) (tail := tail) (shown (vis l)) 0 (by omega) (by omega) (by omega)
  refine ⟨decide (room head = width - 3 - tail), ⟨head, gap, last, h1, ?_, h3, by simp, by omega, fun i c hc => by simpa using h5 i c hc, h6, h7⟩, ?_⟩
  · rw [e1, h2]
    simp only [Nat.zero_add, decide_eq_true_eq]
  · intro hn
    have narrow : ∀ c ∈ shown (vis l), c.toNat < 128 := by
      intro c hc
      simp only [shown, List.mem_flatMap] at hc
      obtain ⟨d, hd, hc⟩ := hc
      split at hc
      · simp at hc; rcases hc with rfl | rfl <;> decide
      · simp at hc; rcases hc with rfl | rfl <;> decide
      · simp at hc; rcases hc with rfl | rfl <;> decide
      · simp at hc; subst hc; exact hn _ hd
    rw [decide_eq_true_eq]
    rcases List.eq_nil_or_concat head with rfl | ⟨init, c, rfl⟩
    · simp [room_nil] at h4 ⊢; omega
    · rw [List.concat_eq_append] at *
      have := h5 init c rfl
      have hc : c.toNat < 128 := narrow c (by rw [h1]; simp)
      rw [room_append, room_cons, room_nil] at h4 ⊢
      have : charWidth c = 1 := by simp [charWidth, hc]
      omega

example : text (abbreviate ["abcdefghij".toList, "klmnop".toList] 10 3) = "abcd...nop".toList := by decide +kernel

/-- The result fits. -/
theorem C60_fits (l : Line) (width tail : Nat) (hesc : '\x1b' ∉ text l) (hlen : room (shown (text l)) < 2 ^ 64)
    (hroom : tail + 3 ≤ width) : room (text (abbreviate l width tail)) ≤ width := by
  by_cases h : room (shown (text l)) ≤ width
  · rw [C60_whole l width tail h]; exact h
  · obtain ⟨marked, ⟨head, gap, last, h1, h2, h3, hk, h4, h5, h6, h7⟩, hm⟩ := C60_shortened l width tail hesc hlen hroom (by omega)
    have hh : room head ≤ width - 3 - tail + 1 := by
      rcases List.eq_nil_or_concat head with rfl | ⟨init, c, rfl⟩
      · simp [room_nil]
      · rw [List.concat_eq_append] at *
        have := h5 init c rfl
        have := charWidth_pos c
        rw [room_append, room_cons, room_nil]
        omega
    rw [h2, room_append, room_append]
    cases marked with
    | true =>
      have := hk.1 rfl
      have d : room (if true = true then "...".toList else []) = 3 := by decide
      rw [d]; omega
    | false =>
      have d : room (if false = true then "...".toList else []) = 0 := by decide
      rw [d]; omega

example : room (text (abbreviate ["日本語のテキスト".toList] 10 3)) = 9 := by decide +kernel

/-- So with characters of one column a shortened text is always marked as such.  Missing: see `C60_silent`. -/
theorem C60_marked_partial (l : Line) (width tail : Nat) (hesc : '\x1b' ∉ text l) (hlen : room (shown (text l)) < 2 ^ 64)
    (hroom : tail + 3 ≤ width) (h : width < room (shown (text l))) (hn : ∀ c ∈ text l, c.toNat < 128) :
    ∃ head last, (∃ gap, shown (text l) = head ++ gap ++ last ∧ gap ≠ []) ∧
      text (abbreviate l width tail) = head ++ "...".toList ++ last ∧ room head = width - 3 - tail ∧ room last = tail := by
  obtain ⟨marked, ⟨head, gap, last, h1, h2, h3, hk, h4, h5, h6, h7⟩, hm⟩ := C60_shortened l width tail hesc hlen hroom h
  have hm := hm hn
  subst hm
  refine ⟨head, last, ⟨gap, h1, h3⟩, h2, hk.1 rfl, ?_⟩
  have narrow : ∀ c ∈ shown (text l), charWidth c = 1 := by
    intro c hc
    have : c.toNat < 128 := by
      simp only [shown, List.mem_flatMap] at hc
      obtain ⟨d, hd, hc⟩ := hc
      split at hc
      · simp at hc; rcases hc with rfl | rfl <;> decide
      · simp at hc; rcases hc with rfl | rfl <;> decide
      · simp at hc; rcases hc with rfl | rfl <;> decide
      · simp at hc; subst hc; exact hn _ hd
    simp [charWidth, this]
  rcases List.eq_nil_or_concat gap with rfl | ⟨init, c, rfl⟩
  · exact absurd rfl h3
  · rw [List.concat_eq_append] at *
    have := h7 c init rfl
    have hc := narrow c (by rw [h1]; simp)
    rw [room_cons, hc] at this
    omega

example : room "abcd".toList = 10 - 3 - 3 := by decide

/-- A character of two columns may stand where the dots would be: then the text is cut without a mark. -/
theorem C60_silent : text (abbreviate ["abc日defghijkl".toList] 10 3) = "abc日jkl".toList := by decide +kernel

/-- When there is no room for the dots and the end, nothing is cut at all. -/
theorem C60_no_window (l : Line) (width tail : Nat) (hesc : '\x1b' ∉ text l) (hw : width < tail + 3)
    (hlen : room (shown (text l)) + tail + 3 ≤ 2 ^ 64) : text (abbreviate l width tail) = shown (text l) := by
  by_cases h : room (shown (text l)) ≤ width
  · exact C60_whole l width tail h
  · rw [text_vis] at hesc hlen h ⊢
    have e : lineWidth (escaped l) = room (shown (vis l)) := by rw [lineWidth_room, text_vis, vis_escaped]
    have ec : minus (minus width 3) tail = width + 2 ^ 64 - 3 - tail := by
      by_cases h3 : 3 ≤ width
      · rw [minus_le h3 (by omega), minus_gt (by omega) (by omega)]; omega
      · rw [show minus width 3 = width + 2 ^ 64 - 3 from minus_gt (by omega) (by omega), minus_le (by omega) (by omega)]
    unfold abbreviate
    simp only [e, if_neg h]
    rw [text_vis, shortenWords_vis _ _ (by rw [vis_escaped]; exact esc_shown hesc), vis_escaped, ec, flat_all _ _ (by omega)]

example : text (abbreviate ["abcdefgh".toList] 5 3) = "abcdefgh".toList := by decide +kernel

/-- Shortening changes no colours other than that of the dots. -/
theorem C60_styles (l : Line) (width tail : Nat) (hesc : '\x1b' ∉ text l) : styles (abbreviate l width tail) = styles l := by
  rw [text_vis] at hesc
  unfold abbreviate
  simp only
  split
  · exact escaped_styles l
  · rw [shortenWords_styles _ _ (by rw [vis_escaped]; exact esc_shown hesc), escaped_styles]

example : styles (abbreviate ["\x1b{red}".toList, "abcdefgh".toList, "\x1b{reset}".toList] 5 1) = ["\x1b{red}".toList, "\x1b{reset}".toList] := by
  decide +kernel

/-- Dimming the quotation marks changes neither the text nor other colours. -/
theorem C60_quotes (l : Line) (hesc : '\x1b' ∉ text l) : text (grayQuote l) = text l ∧ styles (grayQuote l) = styles l := by
  rw [text_vis] at hesc
  unfold grayQuote
  have hw : 0 + room (vis l) ≤ lineWidth l := by rw [lineWidth_room, text_vis]; omega
  split
  · exact ⟨rfl, rfl⟩
  · exact ⟨by rw [text_vis, text_vis, quoteWords_vis l 0 hesc hw], quoteWords_styles l 0 hesc hw⟩

example : grayQuote ["\"ab\"".toList] = dim "\"".toList ++ ["ab".toList] ++ dim "\"".toList := by decide +kernel

/-- Only a text between two quotation marks of one kind is touched. -/
theorem C60_unquoted (l : Line) (h : ∀ q, q = '"' ∨ q = '\'' → ¬ ((text l).head? = some q ∧ (text l).getLast? = some q)) : grayQuote l = l := by
  have key : ∀ q, enclosed l q = true → (text l).head? = some q ∧ (text l).getLast? = some q := by
    intro q e
    rw [text_vis]
    exact enclosed_vis l q e
  unfold grayQuote
  rw [if_pos]
  simp only [Bool.and_eq_true, Bool.not_eq_true', Bool.eq_false_iff]
  exact ⟨fun e => h _ (.inl rfl) (key _ e), fun e => h _ (.inr rfl) (key _ e)⟩

example : grayQuote ["\"ab'".toList] = ["\"ab'".toList] ∧ grayQuote ["a\"b\"".toList] = ["a\"b\"".toList] := by decide +kernel

/-- Of a quoted text just the two quotation marks are dimmed. -/
theorem C60_quoted (q : Char) (m : List Char) (hq : q = '"' ∨ q = '\'') :
    grayQuote [q :: m ++ [q]] = ["\x1b{+dark gray}".toList, [q], "\x1b{-dark gray}".toList] ++ (if m = [] then [] else [m]) ++
      ["\x1b{+dark gray}".toList, [q], "\x1b{-dark gray}".toList] := by
  have hw : charWidth q = 1 := by rcases hq with rfl | rfl <;> decide
  have hne : isctrl (q :: (m ++ [q])) = false := by
    rw [Bool.eq_false_iff]
    intro e
    obtain ⟨_, e⟩ := (style_iff _).2 e
    rcases hq with rfl | rfl <;> simp at e
  have he : enclosed [q :: m ++ [q]] q = true := by
    have g : (q :: (m ++ [q])).getLast? = some q := by rw [← List.cons_append, List.getLast?_append]; rfl
    simp [enclosed, hne, g]
  have hl : lineWidth [q :: m ++ [q]] = room m + 2 := by
    simp only [lineWidth, List.map_cons, List.map_nil, List.cons_append, hne, wordWidth_room, room_cons, room_append, room_nil, hw]
    simp
    omega
  have hc := quoteChars_quoted q m hw
  unfold grayQuote
  rw [if_neg, hl]
  · simp only [quoteWords, List.cons_append, hne]
    rw [hc]
    by_cases h : m = []
    · simp [h, dim, word]
    · simp [h, dim, word]
  · rcases hq with rfl | rfl <;> rw [he] <;> simp

example : grayQuote ["'你\"b'".toList] = dim "'".toList ++ ["你\"b".toList] ++ dim "'".toList := by
  have := C60_quoted '\'' "你\"b".toList (.inr rfl)
  simpa [dim] using this

/-- Two lines are made equally wide by blanks at their ends, and by no more than needed. -/
theorem C60_samesize (a b : Line) :
    room (text (samesizify a b).1) = max (room (text a)) (room (text b)) ∧
    room (text (samesizify a b).2) = max (room (text a)) (room (text b)) ∧
    (∃ n, text (samesizify a b).1 = text a ++ List.replicate n ' ') ∧ (∃ n, text (samesizify a b).2 = text b ++ List.replicate n ' ') := by
  have pad : ∀ (l : Line) (n : Nat), text (padding l n) = text l ++ List.replicate n ' ' := by
    intro l n
    unfold padding
    split
    · next h => subst h; simp
    · rw [text_vis, text_vis, vis_append, vis_cons, vis_nil]
      have : isctrl (spaces n) = false := by
        rw [Bool.eq_false_iff]; exact fun e => not_style_spaces n ((style_iff _).2 e)
      rw [this]
      simp [spaces]
  have rs : ∀ n, room (List.replicate n ' ') = n := room_spaces
  unfold samesizify
  simp only [pad, room_append, rs, lineWidth_room]
  exact ⟨by omega, by omega, ⟨_, rfl⟩, ⟨_, rfl⟩⟩

example : text (samesizify ["ab".toList] ["\x1b{red}".toList, "日c".toList]).1 = "ab ".toList := by decide +kernel

/-- A text with an escape character may lose more: what follows it can be taken for a colour. -/
theorem C60_escape_character :
    text ["\"\x1b{no}".toList, "\"".toList] = "\"\x1b{no}\"".toList ∧ text (grayQuote ["\"\x1b{no}".toList, "\"".toList]) = "\"\"".toList := by
  decide +kernel

end H2.Abbrev
