import Verif.Layout.Spec
namespace H2.Layout

theorem style_iff (w : Word) : Style w ↔ isctrl w = true := by
  unfold Style isctrl
  constructor
  · rintro ⟨r, rfl⟩; simp
  · intro h
    match w with
    | [] => simp at h
    | [_] => simp at h
    | a :: b :: r => simp at h; exact ⟨r, by rw [h.1, h.2]⟩

theorem not_style_char (c : Char) : ¬ Style [c] := by rintro ⟨r, h⟩; simp at h

theorem not_style_spaces (n : Nat) : ¬ Style (spaces n) := by
  rintro ⟨r, h⟩
  unfold spaces at h
  cases n with
  | zero => simp at h
  | succ n => simp [List.replicate_succ] at h

/-- The style after a line. -/
def styleAfter (st : Option Word) : Line → Option Word
  | [] => st
  | w :: ws => if Style w then styleAfter (some w) ws else styleAfter st ws

theorem cellsFrom_append (a b : Line) : ∀ st, cellsFrom st (a ++ b) = cellsFrom st a ++ cellsFrom (styleAfter st a) b := by
  induction a with
  | nil => intro st; rfl
  | cons w a ih =>
    intro st
    by_cases h : Style w
    · simp [cellsFrom, styleAfter, h, ih]
    · simp [cellsFrom, styleAfter, h, ih]

theorem styleAfter_append (a b : Line) : ∀ st, styleAfter st (a ++ b) = styleAfter (styleAfter st a) b := by
  induction a with
  | nil => intro st; rfl
  | cons w a ih =>
    intro st
    by_cases h : Style w
    · simp [styleAfter, h, ih]
    · simp [styleAfter, h, ih]

theorem charWidth_room (c : Char) : room [c] = charWidth c := by simp [room, charWidth]

theorem room_append (a b : List Char) : room (a ++ b) = room a + room b := by simp [room]

theorem wordWidth_room (w : Word) : wordWidth w = room w := rfl

theorem lineWidth_from (l : Line) : ∀ st, lineWidth l = room ((cellsFrom st l).map (·.2)) := by
  induction l with
  | nil => intro st; rfl
  | cons w l ih =>
    intro st
    have e : lineWidth (w :: l) = (if isctrl w then 0 else wordWidth w) + lineWidth l := by simp [lineWidth]
    rw [e]
    by_cases h : Style w
    · rw [if_pos ((style_iff w).1 h), ih (some w)]
      simp [cellsFrom, h]
    · rw [if_neg (fun h' => h ((style_iff w).2 h')), ih st, wordWidth_room]
      simp only [cellsFrom, h, if_false, List.map_append, room_append, List.map_map]
      congr 2
      have : ((fun x : Cell => x.2) ∘ fun c => (st, c)) = id := by funext c; rfl
      rw [this, List.map_id]

theorem lineWidth_room (l : Line) : lineWidth l = room (text l) := lineWidth_from l none

theorem room_spaces (n : Nat) : room (spaces n) = n := by
  induction n with
  | zero => rfl
  | succ n ih =>
    have : spaces (n + 1) = [' '] ++ spaces n := rfl
    rw [this, room_append, ih]
    have : room [' '] = 1 := by decide
    omega

/-- Filling up a piece shows it. -/
theorem fill_shown {width : Nat} {wrap l : Line} (h : fill width wrap = some l) : ShownBy width (cells wrap) l := by
  unfold fill at h
  split at h
  · rename_i hw
    simp at h
    subst h
    unfold padding
    by_cases h0 : width - lineWidth wrap = 0
    · rw [if_pos h0]
      refine ⟨[], by simp, by simp, ?_⟩
      rw [← lineWidth_room]; omega
    · rw [if_neg h0]
      have e : cells (wrap ++ [spaces (width - lineWidth wrap)]) =
          cells wrap ++ (spaces (width - lineWidth wrap)).map fun c => (styleAfter none wrap, c) := by
        unfold cells
        rw [cellsFrom_append]
        simp [cellsFrom, not_style_spaces]
      refine ⟨_, e, ?_, ?_⟩
      · intro b hb
        simp [spaces] at hb
        exact hb.2 ▸ rfl
      · unfold text
        rw [e, List.map_append, room_append]
        have h1 : room ((cells wrap).map (·.2)) = lineWidth wrap := (lineWidth_room wrap).symm
        rw [h1, List.map_map]
        have : ((fun x : Cell => x.2) ∘ fun c => (styleAfter none wrap, c)) = id := by funext c; rfl
        rw [this, List.map_id, room_spaces]
        omega
  · simp at h

theorem fill_some {width : Nat} {wrap : Line} (h : lineWidth wrap ≤ width) : ∃ l, fill width wrap = some l := by
  unfold fill; rw [if_pos h]; exact ⟨_, rfl⟩

/-! ### The invariant of the loops -/

/-- `whole` is what has been seen so far. -/
structure Inv (width : Nat) (whole : List Cell) (st : Option Word) (b : Break) (parts : List (List Cell)) : Prop where
  shown : Shown width parts b.lines
  all : parts.flatten ++ cells b.wrap = whole
  fit : ∀ p ∈ parts, room (p.map (·.2)) ≤ width
  last : lineWidth b.wrap ≤ width
  full : ∀ (i : Nat) (p q : List Cell), (parts ++ [cells b.wrap])[i]? = some p → (parts ++ [cells b.wrap])[i + 1]? = some q →
    ∃ c r, q = c :: r ∧ width < room (p.map (·.2)) + room [c.2]
  style : styleAfter none b.wrap = st
  word : b.style = st.getD []
  ne : st ≠ some []

theorem shown_snoc {width : Nat} {parts : List (List Cell)} {lines : List Line} (h : Shown width parts lines) {p : List Cell} {l : Line}
    (hl : ShownBy width p l) : Shown width (parts ++ [p]) (lines ++ [l]) := by
  obtain ⟨h1, h2⟩ := h
  refine ⟨by simp [h1], fun i p' l' hp hl' => ?_⟩
  by_cases hi : i < parts.length
  · rw [List.getElem?_append_left hi] at hp
    rw [List.getElem?_append_left (by omega)] at hl'
    exact h2 i p' l' hp hl'
  · have : i = parts.length := by
      have := (List.getElem?_eq_some_iff.1 hp).1
      simp at this; omega
    subst this
    rw [List.getElem?_append_right (by omega)] at hp
    rw [List.getElem?_append_right (by omega)] at hl'
    simp [h1] at hp hl'
    rw [← hp, ← hl']; exact hl

theorem full_snoc {width : Nat} {parts : List (List Cell)} {p q : List Cell}
    (h : ∀ (i : Nat) (x y : List Cell), (parts ++ [p])[i]? = some x → (parts ++ [p])[i + 1]? = some y → ∃ c r, y = c :: r ∧ width < room (x.map (·.2)) + room [c.2])
    (hq : ∃ c r, q = c :: r ∧ width < room (p.map (·.2)) + room [c.2]) :
    ∀ (i : Nat) (x y : List Cell), (parts ++ [p] ++ [q])[i]? = some x → (parts ++ [p] ++ [q])[i + 1]? = some y →
      ∃ c r, y = c :: r ∧ width < room (x.map (·.2)) + room [c.2] := by
  intro i x y hx hy
  have hy' := (List.getElem?_eq_some_iff.1 hy).1
  simp at hy'
  by_cases hi : i + 1 < (parts ++ [p]).length
  · rw [List.getElem?_append_left (by omega)] at hx
    rw [List.getElem?_append_left hi] at hy
    exact h i x y hx hy
  · simp at hi
    have : i = parts.length := by omega
    subst this
    rw [List.getElem?_append_left (by simp), List.getElem?_append_right (by omega)] at hx
    rw [List.getElem?_append_right (by simp)] at hy
    simp at hx hy
    subst hx; subst hy
    exact hq

theorem full_grow {width : Nat} {parts : List (List Cell)} {p e : List Cell}
    (h : ∀ (i : Nat) (x y : List Cell), (parts ++ [p])[i]? = some x → (parts ++ [p])[i + 1]? = some y → ∃ c r, y = c :: r ∧ width < room (x.map (·.2)) + room [c.2]) :
    ∀ (i : Nat) (x y : List Cell), (parts ++ [p ++ e])[i]? = some x → (parts ++ [p ++ e])[i + 1]? = some y →
      ∃ c r, y = c :: r ∧ width < room (x.map (·.2)) + room [c.2] := by
  intro i x y hx hy
  have hy' := (List.getElem?_eq_some_iff.1 hy).1
  simp at hy'
  rw [List.getElem?_append_left (by omega)] at hx
  by_cases hi : i + 1 < parts.length
  · rw [List.getElem?_append_left hi] at hy
    exact h i x y (by rw [List.getElem?_append_left (by omega)]; exact hx) (by rw [List.getElem?_append_left hi]; exact hy)
  · have hi' : i + 1 = parts.length := by omega
    rw [List.getElem?_append_right (by omega)] at hy
    simp [hi'] at hy
    subst hy
    obtain ⟨c, r, e1, e2⟩ := h i x p (by rw [List.getElem?_append_left (by omega)]; exact hx)
      (by rw [List.getElem?_append_right (by omega)]; simp [hi'])
    exact ⟨c, r ++ e, by rw [e1]; rfl, e2⟩

theorem cells_snoc_char (wrap : Line) (c : Char) : cells (wrap ++ [[c]]) = cells wrap ++ [(styleAfter none wrap, c)] := by
  unfold cells
  rw [cellsFrom_append]
  simp [cellsFrom, not_style_char]

theorem styleAfter_char (wrap : Line) (c : Char) : styleAfter none (wrap ++ [[c]]) = styleAfter none wrap := by
  rw [styleAfter_append]
  simp [styleAfter, not_style_char]

theorem inv_char {width : Nat} {whole : List Cell} {st : Option Word} {b : Break} {parts : List (List Cell)} (hs : ∀ w, st = some w → Style w)
    (I : Inv width whole st b parts)
    {c : Char} (hc : charWidth c ≤ width) (cs : Word) :
    ∃ b' parts', breakChars width (c :: cs) b = breakChars width cs b' ∧ Inv width (whole ++ [(st, c)]) st b' parts' := by
  by_cases h : width < lineWidth b.wrap + charWidth c
  · obtain ⟨l, hl⟩ := fill_some I.last
    refine ⟨{ b with lines := b.lines ++ [l], wrap := (if b.style.isEmpty then [] else [b.style]) ++ [[c]] }, parts ++ [cells b.wrap], ?_, ?_⟩
    · rw [breakChars, if_pos h, hl]
    · have hstyle : styleAfter none (if b.style.isEmpty then [] else [b.style]) = st ∧ cells (if b.style.isEmpty then [] else [b.style]) = [] := by
        rw [I.word]
        cases hst : st with
        | none => exact ⟨rfl, rfl⟩
        | some w =>
          have hw : w ≠ [] := fun e => I.ne (by rw [hst, e])
          have hS : Style w := hs w hst
          have he : w.isEmpty = false := by cases w; exact absurd rfl hw; rfl
          simp [he, styleAfter, hS, cells, cellsFrom]
      have hcells : cells ((if b.style.isEmpty then [] else [b.style]) ++ [[c]]) = [(st, c)] := by
        rw [cells_snoc_char, hstyle.1, hstyle.2]; rfl
      refine ⟨shown_snoc I.shown (fill_shown hl), ?_, ?_, ?_, ?_, ?_, I.word, I.ne⟩
      · show (parts ++ [cells b.wrap]).flatten ++ cells (_ ++ [[c]]) = _
        rw [hcells, ← I.all]; simp
      · intro p hp
        rcases List.mem_append.1 hp with hp | hp
        · exact I.fit p hp
        · simp at hp; subst hp
          have := I.last
          rw [lineWidth_room] at this; exact this
      · show lineWidth (_ ++ [[c]]) ≤ width
        rw [lineWidth_room]; unfold text; rw [hcells]
        simp only [List.map_cons, List.map_nil, charWidth_room]; exact hc
      · show ∀ (i : Nat) (p q : List Cell), ((parts ++ [cells b.wrap]) ++ [cells (_ ++ [[c]])])[i]? = some p → _
        rw [hcells]
        refine full_snoc I.full ⟨(st, c), [], rfl, ?_⟩
        have e : room ((cells b.wrap).map (·.2)) = lineWidth b.wrap := (lineWidth_room b.wrap).symm
        rw [e, charWidth_room]; exact h
      · show styleAfter none (_ ++ [[c]]) = st
        rw [styleAfter_char, hstyle.1]
  · refine ⟨{ b with wrap := b.wrap ++ [[c]] }, parts, ?_, ?_⟩
    · rw [breakChars, if_neg h]
    · have hcells : cells (b.wrap ++ [[c]]) = cells b.wrap ++ [(st, c)] := by rw [cells_snoc_char, I.style]
      refine ⟨I.shown, ?_, I.fit, ?_, ?_, ?_, I.word, I.ne⟩
      · show parts.flatten ++ cells (b.wrap ++ [[c]]) = _
        rw [hcells, ← I.all]; simp
      · show lineWidth (b.wrap ++ [[c]]) ≤ width
        rw [lineWidth_room]; unfold text
        rw [hcells, List.map_append, room_append]
        have e : room ((cells b.wrap).map (·.2)) = lineWidth b.wrap := (lineWidth_room b.wrap).symm
        rw [e]
        simp only [List.map_cons, List.map_nil, charWidth_room]; omega
      · show ∀ (i : Nat) (p q : List Cell), (parts ++ [cells (b.wrap ++ [[c]])])[i]? = some p → _
        rw [hcells]
        exact full_grow I.full
      · show styleAfter none (b.wrap ++ [[c]]) = st
        rw [styleAfter_char]; exact I.style

theorem inv_chars {width : Nat} {st : Option Word} (hs : ∀ w, st = some w → Style w) (cs : Word) : ∀ {whole : List Cell} {b : Break} {parts : List (List Cell)},
    Inv width whole st b parts → (∀ c ∈ cs, charWidth c ≤ width) →
    ∃ b' parts', breakChars width cs b = some b' ∧ Inv width (whole ++ cs.map fun c => (st, c)) st b' parts' := by
  induction cs with
  | nil => intro whole b parts I _; exact ⟨b, parts, rfl, by simpa using I⟩
  | cons c cs ih =>
    intro whole b parts I hc
    obtain ⟨b1, p1, e1, I1⟩ := inv_char hs I (hc c (by simp)) cs
    obtain ⟨b2, p2, e2, I2⟩ := ih I1 (fun d hd => hc d (by simp [hd]))
    exact ⟨b2, p2, by rw [e1, e2], by simpa using I2⟩

theorem inv_words {width : Nat} (ws : Line) : ∀ {st : Option Word} {whole : List Cell} {b : Break} {parts : List (List Cell)},
    (∀ w, st = some w → Style w) → Inv width whole st b parts → (∀ c ∈ (cellsFrom st ws).map (·.2), charWidth c ≤ width) →
    ∃ b' parts' st', breakWords width ws b = some b' ∧ Inv width (whole ++ cellsFrom st ws) st' b' parts' := by
  induction ws with
  | nil => intro st whole b parts _ I _; exact ⟨b, parts, st, rfl, by simpa [cellsFrom] using I⟩
  | cons w ws ih =>
    intro st whole b parts hs I hc
    by_cases h : Style w
    · have e : cellsFrom st (w :: ws) = cellsFrom (some w) ws := by simp [cellsFrom, h]
      rw [e] at hc ⊢
      rw [breakWords, if_pos ((style_iff w).1 h)]
      have hcells : cells (b.wrap ++ [w]) = cells b.wrap := by
        unfold cells; rw [cellsFrom_append]; simp [cellsFrom, h]
      have I' : Inv width whole (some w) { b with wrap := b.wrap ++ [w], style := w } parts := by
        refine ⟨I.shown, ?_, I.fit, ?_, ?_, ?_, rfl, ?_⟩
        · show parts.flatten ++ cells (b.wrap ++ [w]) = _
          rw [hcells]; exact I.all
        · show lineWidth (b.wrap ++ [w]) ≤ width
          have := I.last
          rw [lineWidth_room] at this ⊢
          unfold text at this ⊢
          rw [hcells]; exact this
        · show ∀ (i : Nat) (p q : List Cell), (parts ++ [cells (b.wrap ++ [w])])[i]? = some p → _
          rw [hcells]; exact I.full
        · show styleAfter none (b.wrap ++ [w]) = some w
          rw [styleAfter_append]; simp [styleAfter, h]
        · rintro e
          simp at e
          subst e
          obtain ⟨r, hr⟩ := h
          simp at hr
      exact ih (by rintro w' hw'; simp at hw'; subst hw'; exact h) I' hc
    · have e : cellsFrom st (w :: ws) = w.map (fun c => (st, c)) ++ cellsFrom st ws := by simp [cellsFrom, h]
      rw [e] at hc ⊢
      rw [breakWords, if_neg (fun h' => h ((style_iff w).2 h'))]
      obtain ⟨b1, p1, e1, I1⟩ := inv_chars hs w I (fun c hcw => hc c (by simp [hcw]))
      rw [e1]
      obtain ⟨b2, p2, st2, e2, I2⟩ := ih hs I1 (fun c hcw => hc c (by simp at hcw ⊢; exact .inr hcw))
      exact ⟨b2, p2, st2, e2, by simpa using I2⟩

theorem lineBreak_some (line : Line) (width : Nat) (hc : ∀ c ∈ text line, charWidth c ≤ width) :
    ∃ lines parts, lineBreak line width = some lines ∧ Pieces line width parts ∧ Shown width parts lines ∧ lines ≠ [] := by
  have I0 : Inv width [] none ⟨[], [], []⟩ [] := by
    refine ⟨⟨rfl, by simp⟩, rfl, by simp, by simp [lineWidth], ?_, rfl, rfl, by simp⟩
    intro i p q h1 h2
    have := (List.getElem?_eq_some_iff.1 h2).1
    simp at this
  obtain ⟨b, parts, st, e, I⟩ := inv_words line (by simp) I0 hc
  obtain ⟨l, hl⟩ := fill_some I.last
  refine ⟨b.lines ++ [l], parts ++ [cells b.wrap], ?_, ⟨?_, ?_, I.full⟩, shown_snoc I.shown (fill_shown hl), by simp⟩
  · unfold lineBreak; rw [e]; simp [hl]
  · have := I.all
    simp at this ⊢
    exact this
  · intro p hp
    rcases List.mem_append.1 hp with hp | hp
    · exact I.fit p hp
    · simp at hp; subst hp
      have := I.last
      rw [lineWidth_room] at this; exact this

/-! ### Characters too wide -/

/-- What is in the current line does not fit any more. -/
def Bad (width : Nat) (b : Break) : Prop := width < lineWidth b.wrap

theorem bad_fill {width : Nat} {b : Break} (h : Bad width b) : fill width b.wrap = none := by
  unfold fill; rw [if_neg (by unfold Bad at h; omega)]

theorem bad_chars {width : Nat} (cs : Word) {b : Break} (h : Bad width b) : breakChars width cs b = none ∨ ∃ b', breakChars width cs b = some b' ∧ Bad width b' := by
  cases cs with
  | nil => exact .inr ⟨b, rfl, h⟩
  | cons c cs =>
    left
    rw [breakChars, if_pos (by unfold Bad at h; omega), bad_fill h]

theorem lineWidth_append (a b : Line) : lineWidth (a ++ b) = lineWidth a + lineWidth b := by simp [lineWidth]

theorem bad_words {width : Nat} (ws : Line) : ∀ {b : Break}, Bad width b → breakWords width ws b = none ∨ ∃ b', breakWords width ws b = some b' ∧ Bad width b' := by
  induction ws with
  | nil => intro b h; exact .inr ⟨b, rfl, h⟩
  | cons w ws ih =>
    intro b h
    rw [breakWords]
    split
    · apply ih
      unfold Bad at h ⊢
      simp only [lineWidth_append]; omega
    · rcases bad_chars w h with e | ⟨b', e, h'⟩
      · rw [e]; exact .inl rfl
      · rw [e]; exact ih h'

theorem wide_chars {width : Nat} (cs : Word) : ∀ {b : Break}, (∃ c ∈ cs, width < charWidth c) →
    breakChars width cs b = none ∨ ∃ b', breakChars width cs b = some b' ∧ Bad width b' := by
  induction cs with
  | nil => rintro b ⟨c, hc, -⟩; simp at hc
  | cons c cs ih =>
    rintro b ⟨d, hd, hw⟩
    rcases List.mem_cons.1 hd with rfl | hd
    · rw [breakChars, if_pos (by omega)]
      split
      · exact .inl rfl
      · apply bad_chars
        unfold Bad
        simp only [lineWidth_append]
        have : lineWidth [[d]] = charWidth d := by
          simp [lineWidth, wordWidth, isctrl]
        omega
    · rw [breakChars]
      split
      · split
        · exact .inl rfl
        · exact ih ⟨d, hd, hw⟩
      · exact ih ⟨d, hd, hw⟩

theorem wide_words {width : Nat} (ws : Line) : ∀ {b : Break} {st : Option Word}, (∃ c ∈ (cellsFrom st ws).map (·.2), width < charWidth c) →
    breakWords width ws b = none ∨ ∃ b', breakWords width ws b = some b' ∧ Bad width b' := by
  induction ws with
  | nil => rintro b st ⟨c, hc, -⟩; simp [cellsFrom] at hc
  | cons w ws ih =>
    rintro b st hw
    rw [breakWords]
    by_cases h : Style w
    · rw [if_pos ((style_iff w).1 h)]
      have e : cellsFrom st (w :: ws) = cellsFrom (some w) ws := by simp [cellsFrom, h]
      rw [e] at hw
      exact ih hw
    · rw [if_neg (fun h' => h ((style_iff w).2 h'))]
      have e : cellsFrom st (w :: ws) = w.map (fun c => (st, c)) ++ cellsFrom st ws := by simp [cellsFrom, h]
      rw [e] at hw
      obtain ⟨c, hc, hcw⟩ := hw
      rw [List.map_append, List.mem_append] at hc
      rcases hc with hc | hc
      · have hc' : c ∈ w := by simpa using hc
        rcases wide_chars w (b := b) ⟨c, hc', hcw⟩ with e | ⟨b', e, h'⟩
        · rw [e]; exact .inl rfl
        · rw [e]; exact bad_words ws h'
      · cases hb : breakChars width w b with
        | none => exact .inl rfl
        | some b' => exact ih ⟨c, hc, hcw⟩

theorem lineBreak_none (line : Line) (width : Nat) (h : ∃ c ∈ text line, width < charWidth c) : lineBreak line width = none := by
  unfold lineBreak
  rcases wide_words line (b := ⟨[], [], []⟩) h with e | ⟨b, e, hb⟩
  · rw [e]
  · rw [e]; simp [bad_fill hb]

end H2.Layout

namespace H2.Layout

theorem flatMap_congr {α β : Type} {l : List α} {f g : α → List β} (h : ∀ x ∈ l, f x = g x) : l.flatMap f = l.flatMap g := by
  induction l with
  | nil => rfl
  | cons x l ih => rw [List.flatMap_cons, List.flatMap_cons, h x (by simp), ih fun y hy => h y (by simp [hy])]

theorem range_filter (n m : Nat) (h : n ≤ m) : (List.range m).flatMap (fun i => if i < n then [i] else []) = List.range n := by
  induction m with
  | zero => have : n = 0 := by omega
            subst this; rfl
  | succ m ih =>
    rw [List.range_succ, List.flatMap_append]
    by_cases hm : n ≤ m
    · rw [ih hm]
      have : ¬ m < n := by omega
      simp [this]
    · have : n = m + 1 := by omega
      subst this
      have e : (List.range m).flatMap (fun i => if i < m + 1 then [i] else []) = List.range m := by
        have : ∀ i ∈ List.range m, (if i < m + 1 then [i] else []) = [i] := by
          intro i hi
          simp at hi
          rw [if_pos (by omega)]
        rw [flatMap_congr this]
        simp
      rw [e, List.range_succ]
      simp

end H2.Layout
