import Verif.Layout.Lemmas
/-
C45: breaking lines, and lines side by side.
-/
namespace H2.Layout

theorem narrow {line : Line} {width : Nat} (h : 2 ≤ width ∨ (1 ≤ width ∧ ∀ c ∈ text line, c.toNat < 128)) : ∀ c ∈ text line, charWidth c ≤ width := by
  intro c hc
  unfold charWidth
  rcases h with h | ⟨h1, h2⟩
  · split <;> omega
  · rw [if_pos (h2 c hc)]; exact h1

/-- **C45**: a line is broken into pieces that together are the whole text, in order and in its styles; each piece fits the width, no
piece could be longer, and each is shown on a line of exactly the width. -/
theorem C45_break (line : Line) (width : Nat) (h : 2 ≤ width ∨ (1 ≤ width ∧ ∀ c ∈ text line, c.toNat < 128)) :
    ∃ lines parts, lineBreak line width = some lines ∧ Pieces line width parts ∧ Shown width parts lines := by
  obtain ⟨lines, parts, h1, h2, h3, -⟩ := lineBreak_some line width (narrow h)
  exact ⟨lines, parts, h1, h2, h3⟩

/-- Breaking fails (the padding would be of negative length) exactly when a character is wider than the line. -/
theorem C45_too_wide (line : Line) (width : Nat) : lineBreak line width = none ↔ ∃ c ∈ text line, width < room [c] := by
  constructor
  · intro h
    apply Classical.byContradiction
    intro hn
    obtain ⟨lines, parts, h1, -⟩ := lineBreak_some line width (fun c hc => by
      rw [← charWidth_room]
      apply Classical.byContradiction
      intro h'
      exact hn ⟨c, hc, by omega⟩)
    rw [h] at h1; simp at h1
  · rintro ⟨c, hc, hw⟩
    exact lineBreak_none line width ⟨c, hc, by rw [← charWidth_room]; exact hw⟩

/-- The text is that of the lines, without the blanks added. -/
theorem C45_text (line : Line) (width : Nat) (lines : List Line) (h : lineBreak line width = some lines) :
    ∃ texts : List (List Char), texts.flatten = text line ∧ texts.length = lines.length ∧
      ∀ (i : Nat) (t : List Char) (l : Line), texts[i]? = some t → lines[i]? = some l → Filled width t (text l) := by
  have hn : ¬ ∃ c ∈ text line, width < room [c] := fun hc => by rw [(C45_too_wide line width).2 hc] at h; simp at h
  obtain ⟨lines', parts, h1, h2, h3, -⟩ := lineBreak_some line width (fun c hc => by
    rw [← charWidth_room]
    apply Classical.byContradiction
    intro h'
    exact hn ⟨c, hc, by omega⟩)
  rw [h] at h1
  simp at h1
  subst h1
  refine ⟨parts.map fun p => p.map (·.2), ?_, by simp [h3.1], fun i t l ht hl => ?_⟩
  · unfold text; rw [← h2.all]; simp [List.map_flatten]
  · rw [List.getElem?_map] at ht
    cases hp : parts[i]? with
    | none => rw [hp] at ht; simp at ht
    | some p =>
      rw [hp] at ht
      simp at ht
      subst ht
      obtain ⟨blanks, e1, e2, e3⟩ := h3.2 i p l hp hl
      refine ⟨blanks.length, ?_, e3⟩
      unfold text
      rw [e1, List.map_append]
      congr 1
      apply List.eq_replicate_iff.2
      refine ⟨by simp, fun b hb => ?_⟩
      simp at hb
      obtain ⟨s, hb⟩ := hb
      exact e2 _ hb

def sample : Line := ["\x1b{red}".toList, "ab中c".toList, "\x1b{blue}".toList, "de".toList]
example : lineBreak sample 3 = some [["\x1b{red}".toList, "a".toList, "b".toList, " ".toList], ["\x1b{red}".toList, "中".toList, "c".toList, "\x1b{blue}".toList],
    ["\x1b{blue}".toList, "d".toList, "e".toList, " ".toList]] := by decide +kernel
example : lineBreak sample 1 = none ∧ lineBreak ["ab".toList] 1 = some [["a".toList], ["b".toList]] ∧ lineBreak [] 3 = some [["   ".toList]] := by decide +kernel

/-! ### Side by side -/

theorem text_of_cells (l : Line) (st : Option Word) : (cellsFrom st l).map (·.2) = text l := by
  unfold text cells
  have : ∀ (l : Line) (a b : Option Word), (cellsFrom a l).map (·.2) = (cellsFrom b l).map (·.2) := by
    intro l
    induction l with
    | nil => intro a b; rfl
    | cons w l ih =>
      intro a b
      by_cases h : Style w
      · simp [cellsFrom, h]
      · simp only [cellsFrom, h, if_false, List.map_append, List.map_map, ih a b]
        rfl
  exact this l st none

theorem text_append (a b : Line) : text (a ++ b) = text a ++ text b := by
  conv => lhs; unfold text cells
  rw [cellsFrom_append, List.map_append, text_of_cells, text_of_cells]

theorem text_style {w : Word} (h : Style w) (l : Line) : text (w :: l) = text l := by
  conv => lhs; unfold text cells
  simp only [cellsFrom, h, if_true]
  exact text_of_cells l _

theorem text_word {w : Word} (h : ¬ Style w) (l : Line) : text (w :: l) = w ++ text l := by
  conv => lhs; unfold text cells
  simp only [cellsFrom, h, if_false, List.map_append, List.map_map]
  have : ((fun x : Cell => x.2) ∘ fun c => ((none : Option Word), c)) = id := by funext c; rfl
  rw [this, List.map_id]
  rfl

theorem text_nil : text [] = [] := rfl

theorem text_brush (l : Line) : text (brush l "reset".toList) = text l := by
  have e : brush l "reset".toList = ("\x1b{reset}".toList :: l) ++ ["\x1b{reset}".toList] := rfl
  have hs : Style "\x1b{reset}".toList := ⟨"reset}".toList, rfl⟩
  rw [e, text_append, text_style hs, text_style hs, text_nil, List.append_nil]

theorem text_gray (t : Word) (h : ¬ Style t) : text (gray t) = t := by
  have hs : Style "\x1b{reset}".toList := ⟨"reset}".toList, rfl⟩
  have hg : Style "\x1b{dark gray}".toList := ⟨"dark gray}".toList, rfl⟩
  unfold gray
  rw [text_style hg, text_word h, text_style hs, text_nil, List.append_nil]

theorem filled_of_shown {width : Nat} {p : List Cell} {l : Line} (h : ShownBy width p l) : Filled width (p.map (·.2)) (text l) := by
  obtain ⟨blanks, e1, e2, e3⟩ := h
  refine ⟨blanks.length, ?_, e3⟩
  unfold text
  rw [e1, List.map_append]
  congr 1
  apply List.eq_replicate_iff.2
  refine ⟨by simp, fun b hb => ?_⟩
  simp at hb
  obtain ⟨s, hb⟩ := hb
  exact e2 _ hb

theorem cell_filled {width : Nat} {parts : List (List Cell)} {lines : List Line} (h : Shown width parts lines) (j : Nat) :
    Filled width (pieceText parts j) (text (cell lines width j)) := by
  unfold cell pieceText
  cases hl : lines[j]? with
  | none =>
    have : parts[j]? = none := by
      rw [List.getElem?_eq_none_iff] at hl ⊢
      have := h.1; omega
    rw [this]
    simp only [Option.getD_none, List.map_nil]
    rw [text_brush, text_word (not_style_spaces width), text_nil, List.append_nil]
    exact ⟨width, rfl, room_spaces width⟩
  | some l =>
    have hj := (List.getElem?_eq_some_iff.1 hl).1
    have : ∃ p, parts[j]? = some p := ⟨_, List.getElem?_eq_getElem (by have := h.1; omega)⟩
    obtain ⟨p, hp⟩ := this
    rw [hp]
    simp only [Option.getD_some]
    rw [text_brush]
    exact filled_of_shown (h.2 j p l hp hl)

theorem rows_side {number : Nat → Word} (hn : ∀ i, ¬ Style (number i)) (step : Bool) (seqWidth : Nat) {lw rw : Nat} (hl : 2 ≤ lw) (hr : 2 ≤ rw)
    (l r : Line) (i : Nat) :
    ∃ block, rows number step seqWidth l r lw rw i = some block ∧
      SideBySide lw rw (if step then number i else []) (if step then List.replicate (seqWidth + 2) ' ' else []) l r block := by
  obtain ⟨ls, lp, e1, p1, s1, -⟩ := lineBreak_some l lw (narrow (.inl hl))
  obtain ⟨rs, rp, e2, p2, s2, -⟩ := lineBreak_some r rw (narrow (.inl hr))
  refine ⟨_, by unfold rows; rw [e1, e2], lp, rp, p1, p2, by simp [s1.1, s2.1], ?_⟩
  intro j row' hrow
  rw [List.getElem?_map] at hrow
  cases hj : (List.range (max ls.length rs.length))[j]? with
  | none => rw [hj] at hrow; simp at hrow
  | some j' =>
    have ej : j' = j := by
      rw [List.getElem?_range] at hj
      · simpa using hj.symm
      · have := (List.getElem?_eq_some_iff.1 hj).1
        simpa using this
    rw [hj] at hrow
    subst ej
    simp only [Option.map_some, Option.some.injEq] at hrow
    subst hrow
    refine ⟨text (cell ls lw j'), text (cell rs rw j'), cell_filled s1 j', cell_filled s2 j', ?_⟩
    unfold row
    simp only [text_append]
    have hb : ∀ (p : Prop) [Decidable p], text (gray (if p then "\\│ ".toList else " │ ".toList)) = [if p then '\\' else ' ', '│', ' '] := by
      intro p _
      split
      · exact text_gray _ (by decide)
      · exact text_gray _ (by decide)
    have hb' : ∀ (p : Prop) [Decidable p], text (gray (if p then "\\".toList else " ".toList)) = [if p then '\\' else ' '] := by
      intro p _
      split
      · exact text_gray _ (by decide)
      · exact text_gray _ (by decide)
    rw [hb, hb', s1.1, s2.1]
    congr 4
    cases step
    · simp [text_nil]
    · by_cases h0 : j' = 0
      · simp only [h0, if_true]; exact text_gray _ (hn i)
      · simp only [h0, if_false, if_true]
        unfold indent
        rw [if_neg (by omega), text_word (not_style_spaces _), text_nil, List.append_nil]; rfl

/-- **C45**: lines side by side: every line of both sides is shown completely, each row taking the next piece of both, and columns keep
their widths. -/
theorem C45_side_by_side (number : Nat → Word) (hn : ∀ i, ¬ Style (number i)) (step : Bool) (seqWidth lw rw : Nat) (hl : 2 ≤ lw) (hr : 2 ≤ rw)
    (left right : List Line) :
    ∃ blocks : List (List Line), linesMerge number step seqWidth lw rw left right = some blocks.flatten ∧
      blocks.length = max left.length right.length ∧
      ∀ (i : Nat) (block : List Line), blocks[i]? = some block →
        SideBySide lw rw (if step then number i else []) (if step then List.replicate (seqWidth + 2) ' ' else [])
          ((left[i]?).getD [List.replicate lw ' ']) ((right[i]?).getD [List.replicate rw ' ']) block := by
  have key : ∀ (is : List Nat), ∃ blocks : List (List Line),
      collect (is.map fun i => rows number step seqWidth ((left[i]?).getD [spaces lw]) ((right[i]?).getD [spaces rw]) lw rw i) = some blocks.flatten ∧
        blocks.length = is.length ∧
        ∀ (k i : Nat) (block : List Line), is[k]? = some i → blocks[k]? = some block →
          SideBySide lw rw (if step then number i else []) (if step then List.replicate (seqWidth + 2) ' ' else [])
            ((left[i]?).getD [List.replicate lw ' ']) ((right[i]?).getD [List.replicate rw ' ']) block := by
    intro is
    induction is with
    | nil => exact ⟨[], rfl, rfl, by simp⟩
    | cons i is ih =>
      obtain ⟨block, e1, h1⟩ := rows_side hn step seqWidth hl hr ((left[i]?).getD [spaces lw]) ((right[i]?).getD [spaces rw]) i
      obtain ⟨blocks, e2, h2, h3⟩ := ih
      refine ⟨block :: blocks, by rw [List.map_cons, e1, collect, e2]; rfl, by simp [h2], ?_⟩
      intro k i' b hi hb
      cases k with
      | zero =>
        simp at hi hb
        subst hi; subst hb
        exact h1
      | succ k => exact h3 k i' b (by simpa using hi) (by simpa using hb)
  obtain ⟨blocks, h1, h2, h3⟩ := key (List.range (max left.length right.length))
  refine ⟨blocks, h1, by simpa using h2, fun i b hb => h3 i i b ?_ hb⟩
  have := (List.getElem?_eq_some_iff.1 hb).1
  rw [List.getElem?_range (by rw [h2] at this; simpa using this)]

example : (linesMerge (fun _ => "7┊ ".toList) true 1 2 3 [["abc".toList]] [["xy".toList], ["z".toList]]).map (·.map text) =
    some ["7┊ ab\\│ xy  ".toList, "   c  │     ".toList, "7┊    │ z   ".toList] := by decide +kernel

/-- **C45**: both columns together fit the width, neither is wider than needed, and neither is narrower than two; when everything fits
(with a column to spare) nothing is broken. -/
theorem C45_columns (width seqWidth left right valid : Nat) (hv : valid = width - (seqWidth + 6)) :
    (columns width seqWidth left right).1 + (columns width seqWidth left right).2 ≤ valid ∧
    (columns width seqWidth left right).1 ≤ left ∧ (columns width seqWidth left right).2 ≤ right ∧
    (4 ≤ valid → 2 ≤ left → 2 ≤ right → 2 ≤ (columns width seqWidth left right).1 ∧ 2 ≤ (columns width seqWidth left right).2) ∧
    (left + right < valid → columns width seqWidth left right = (left, right)) := by
  have e : width - (seqWidth + 1) - 1 - 4 = valid := by omega
  unfold columns
  simp only [e]
  split
  · refine ⟨?_, ?_, ?_, ?_, ?_⟩ <;> simp only [Prod.mk.injEq, true_and] <;> omega
  · split
    · refine ⟨?_, ?_, ?_, ?_, ?_⟩ <;> simp only [Prod.mk.injEq, and_true] <;> omega
    · refine ⟨?_, ?_, ?_, ?_, ?_⟩ <;> simp only [Prod.mk.injEq] <;> omega

/-- Lines that would just fit an odd width are broken nevertheless. -/
example : columns 17 0 5 6 = (5, 5) := by decide

/-! ### One under the other -/

/-- **C45**: with a title, the first line has the title and the others are indented by its width; all have the width. -/
theorem C45_title (line title : Line) (width : Nat) (h : lineWidth title + 2 ≤ width) :
    ∃ lines parts, prefixBreak line title width = some lines ∧ Pieces line (width - room (text title)) parts ∧ lines.length = parts.length ∧
      ∀ (i : Nat) (l : Line), lines[i]? = some l → ∃ a, Filled (width - room (text title)) (pieceText parts i) a ∧
        text l = (if i = 0 then text title else List.replicate (room (text title)) ' ') ++ a := by
  obtain ⟨lines, parts, e, p, s, -⟩ := lineBreak_some line (width - lineWidth title) (narrow (.inl (by omega)))
  refine ⟨_, parts, by unfold prefixBreak; rw [if_neg (by omega), e]; rfl, by rw [← lineWidth_room]; exact p, by simp [s.1], ?_⟩
  intro i l hl
  rw [List.getElem?_mapIdx] at hl
  cases hi : lines[i]? with
  | none => rw [hi] at hl; simp at hl
  | some l' =>
    rw [hi] at hl
    simp only [Option.map_some, Option.some.injEq] at hl
    have hj := (List.getElem?_eq_some_iff.1 hi).1
    have : ∃ p, parts[i]? = some p := ⟨_, List.getElem?_eq_getElem (by have := s.1; omega)⟩
    obtain ⟨p', hp'⟩ := this
    refine ⟨text l', ?_, ?_⟩
    · unfold pieceText
      rw [hp', ← lineWidth_room]
      exact filled_of_shown (s.2 i p' l' hp' hi)
    · subst hl
      by_cases h0 : i = 0
      · simp only [h0, if_true, text_append]
      · simp only [h0, if_false]
        unfold indent
        by_cases hw : lineWidth title = 0
        · rw [if_pos hw]
          rw [lineWidth_room] at hw
          rw [hw]; rfl
        · rw [if_neg hw, text_word (not_style_spaces _), lineWidth_room]; rfl

example : (prefixBreak ["abcd".toList] ["e> ".toList] 5).map (·.map text) = some ["e> ab".toList, "   cd".toList] := by decide +kernel

/-- Line `i` of the upper side stands right above line `i` of the lower side. -/
theorem C45_unified (up down upTitle downTitle : Line) (width : Nat) (h1 : lineWidth upTitle + 2 ≤ width) (h2 : lineWidth downTitle + 2 ≤ width) :
    ∃ lines ups downs, unified up down upTitle downTitle width = some lines ∧
      Pieces up (width - room (text upTitle)) ups ∧ Pieces down (width - room (text downTitle)) downs ∧
      ∃ tagged : List (Bool × Nat × Line), tagged.map (·.2.2) = lines ∧
        -- the lines of each side, in order
        (tagged.filter (·.1)).map (·.2.1) = List.range ups.length ∧ (tagged.filter (!·.1)).map (·.2.1) = List.range downs.length ∧
        -- line by line
        tagged.Pairwise (fun x y => x.2.1 < y.2.1 ∨ (x.2.1 = y.2.1 ∧ x.1 = true ∧ y.1 = false)) ∧
        ∀ t ∈ tagged, ∃ a, text t.2.2 = text (if t.1 then upTitle else downTitle) ++ a ∧
          Filled (width - room (text (if t.1 then upTitle else downTitle))) (pieceText (if t.1 then ups else downs) t.2.1) a := by
  obtain ⟨us, ups, e1, p1, s1, -⟩ := lineBreak_some up (width - lineWidth upTitle) (narrow (.inl (by omega)))
  obtain ⟨ds, downs, e2, p2, s2, -⟩ := lineBreak_some down (width - lineWidth downTitle) (narrow (.inl (by omega)))
  refine ⟨weave upTitle downTitle us ds, ups, downs, ?_, by rw [← lineWidth_room]; exact p1, by rw [← lineWidth_room]; exact p2, ?_⟩
  · unfold unified
    rw [if_neg (by omega), e1, e2]
  · let f : Nat → List (Bool × Nat × Line) := fun i =>
      (match us[i]? with | some l => [(true, i, upTitle ++ l)] | none => []) ++ (match ds[i]? with | some l => [(false, i, downTitle ++ l)] | none => [])
    have hf : ∀ i, ∀ t ∈ f i, t.2.1 = i := by
      intro i t ht
      simp only [f, List.mem_append] at ht
      rcases ht with ht | ht <;> split at ht <;> simp at ht <;> rw [ht]
    refine ⟨(List.range (max us.length ds.length)).flatMap f, ?_, ?_, ?_, ?_, ?_⟩
    · unfold weave
      rw [List.map_flatMap]
      apply flatMap_congr
      intro i _
      simp only [f, List.map_append]
      congr 1
      · cases us[i]? <;> rfl
      · cases ds[i]? <;> rfl
    · rw [List.filter_flatMap, List.map_flatMap, s1.1]
      have : ∀ i, ((f i).filter (·.1)).map (·.2.1) = if i < us.length then [i] else [] := by
        intro i
        simp only [f, List.filter_append]
        by_cases hi : i < us.length
        · rw [if_pos hi, List.getElem?_eq_getElem hi]
          cases ds[i]? <;> rfl
        · rw [if_neg hi, List.getElem?_eq_none (by omega)]
          cases ds[i]? <;> rfl
      simp only [this]
      exact range_filter us.length (max us.length ds.length) (by omega)
    · rw [List.filter_flatMap, List.map_flatMap, s2.1]
      have : ∀ i, ((f i).filter (!·.1)).map (·.2.1) = if i < ds.length then [i] else [] := by
        intro i
        simp only [f, List.filter_append]
        by_cases hi : i < ds.length
        · rw [if_pos hi, List.getElem?_eq_getElem hi]
          cases us[i]? <;> rfl
        · rw [if_neg hi]
          have : ds[i]? = none := List.getElem?_eq_none (by omega)
          rw [this]
          cases us[i]? <;> rfl
      simp only [this]
      exact range_filter ds.length (max us.length ds.length) (by omega)
    · rw [List.pairwise_flatMap]
      refine ⟨?_, ?_⟩
      · intro i _
        simp only [f]
        cases us[i]? <;> cases ds[i]? <;> simp
      · apply List.Pairwise.imp _ (List.pairwise_lt_range)
        intro a b hab x hx y hy
        left
        rw [hf a x hx, hf b y hy]; exact hab
    · intro t ht
      rw [List.mem_flatMap] at ht
      obtain ⟨i, -, ht⟩ := ht
      simp only [f, List.mem_append] at ht
      rcases ht with ht | ht
      · cases hu : us[i]? with
        | none => rw [hu] at ht; simp at ht
        | some l =>
          rw [hu] at ht
          simp at ht
          subst ht
          have hj := (List.getElem?_eq_some_iff.1 hu).1
          have : ∃ p, ups[i]? = some p := ⟨_, List.getElem?_eq_getElem (by have := s1.1; omega)⟩
          obtain ⟨p', hp'⟩ := this
          refine ⟨text l, by simp [text_append], ?_⟩
          simp only [if_true]
          unfold pieceText
          rw [hp', ← lineWidth_room]
          exact filled_of_shown (s1.2 i p' l hp' hu)
      · cases hu : ds[i]? with
        | none => rw [hu] at ht; simp at ht
        | some l =>
          rw [hu] at ht
          simp at ht
          subst ht
          have hj := (List.getElem?_eq_some_iff.1 hu).1
          have : ∃ p, downs[i]? = some p := ⟨_, List.getElem?_eq_getElem (by have := s2.1; omega)⟩
          obtain ⟨p', hp'⟩ := this
          refine ⟨text l, by simp [text_append], ?_⟩
          simp only [Bool.false_eq_true, if_false]
          unfold pieceText
          rw [hp', ← lineWidth_room]
          exact filled_of_shown (s2.2 i p' l hp' hu)

example : (unified ["abcd".toList] ["xyz".toList] ["e> ".toList] ["a> ".toList] 5).map (·.map text) =
    some ["e> ab".toList, "a> xy".toList, "e> cd".toList, "a> z ".toList] := by decide +kernel

end H2.Layout
