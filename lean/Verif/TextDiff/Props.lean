import Verif.TextDiff.Lemmas
/-
C65: two texts that differ are shown below each other, with what they do not have in common in colour.

The full statement is false of the code: with colours a blank looks the same whether in common or not (`C65_blank`).
-/
namespace H2.TextDiff
open H2.Layout (Word Line room text Pieces Filled pieceText)
open H2.Abbrev (shown)
open H2.Color (Slots terminal none8)

/-- With colours: what a terminal shows, whatever was switched on before, is rows of pieces of the two texts in turn; what is not in
common is green or red, blanks excepted. -/
theorem C65_coloured_partial (verbose : Int) (width : Nat) (caseless : Bool) (e a : List Char) (hw : 10 ≤ width)
    (hn : 5 ≤ verbose ∨ 8 < room e ∨ 8 < room a) (he : '\x1b' ∉ e) (ha : '\x1b' ∉ a) :
    ∃ em am lines ups downs, Common caseless e a em am ∧ strcmpMore true verbose width caseless e a = some lines ∧
      Parts (coloured "green".toList em e) (width - 8) ups ∧ Parts (coloured "red".toList am a) (width - 8) downs ∧
      ∀ (s : Slots) (on : List Word), s.length = 8 →
        ∃ rows, terminal .text on (printLines true s lines).2 = rows.flatten ∧ Rows width (inTurn ups downs) rows := by
  obtain ⟨us, ds, u1, u2, u3, u4, u5, u6⟩ := unified_turn
    (sideLine true "green".toList (H2.Diff.lcs (fun x y : Char => H2.Str.equals [x] [y] caseless) e a).1 e)
    (sideLine true "red".toList (H2.Diff.lcs (fun x y : Char => H2.Str.equals [x] [y] caseless) e a).2 a) width hw
  obtain ⟨s1, s2, -, s4⟩ := sideLine_ok "green".toList (.inl rfl) (H2.Diff.lcs (fun x y : Char => H2.Str.equals [x] [y] caseless) e a).1 e he none rfl
  obtain ⟨t1, t2, -, t4⟩ := sideLine_ok "red".toList (.inr rfl) (H2.Diff.lcs (fun x y : Char => H2.Str.equals [x] [y] caseless) e a).2 a ha none rfl
  have pu := parts_of _ _ _ u4 on
  have pd := parts_of _ _ _ u5 on
  have s4' : ((H2.Layout.cells (sideLine true "green".toList (H2.Diff.lcs (fun x y : Char => H2.Str.equals [x] [y] caseless) e a).1 e)).map fun c => (on c.1, c.2)) = _ := s4
  have t4' : ((H2.Layout.cells (sideLine true "red".toList (H2.Diff.lcs (fun x y : Char => H2.Str.equals [x] [y] caseless) e a).2 a)).map fun c => (on c.1, c.2)) = _ := t4
  rw [s4'] at pu
  rw [t4'] at pd
  have hmore : strcmpMore true verbose width caseless e a = some ((inTurn us ds).map fun x => (if x.1 then upTitle else downTitle) ++ x.2.2) := by
    unfold strcmpMore
    rw [if_pos (show verbose ≥ 5 ∨ 8 < Layout.wordWidth e ∨ 8 < Layout.wordWidth a from hn)]
    exact u1
  refine ⟨_, _, _, _, _, common caseless e a, hmore, pu, pd, ?_⟩
  · intro s o hs
    have fit : ∀ x ∈ inTurn us ds, Fit (width - 8) x.2 := by
      have esc : ∀ (style : Word) (marks : List Bool) (t : List Char), '\x1b' ∉ t → ∀ (parts : List (List H2.Layout.Cell)),
          Parts (coloured style marks t) (width - 8) (parts.map fun p => p.map fun c => (on c.1, c.2)) → ∀ p ∈ parts, '\x1b' ∉ p.map (·.2) := by
        intro style marks t ht parts hp p hm hx
        refine coloured_esc style marks t ht ?_
        rw [← hp.all]
        unfold chars
        obtain ⟨c, hc, e⟩ := List.mem_map.1 hx
        exact List.mem_map.2 ⟨(on c.1, c.2), List.mem_flatten.2 ⟨_, List.mem_map.2 ⟨p, hm, rfl⟩, List.mem_map.2 ⟨c, hc, rfl⟩⟩, e⟩
      have su := break_settles u2 s1 s2
      have sd := break_settles u3 t1 t2
      intro x hx
      have hm := inTurn_mem us ds x hx
      cases hb : x.1 with
      | true =>
        simp only [hb, if_true] at hm
        exact ⟨u6 x.2 (by simp [hm]), su _ (List.mem_map.2 ⟨x.2, hm, rfl⟩), esc _ _ _ he _ pu x.2.1 (List.mem_map.2 ⟨x.2, hm, rfl⟩)⟩
      | false =>
        simp only [hb] at hm
        exact ⟨u6 x.2 (by simp at hm; simp [hm]), sd _ (List.mem_map.2 ⟨x.2, by simpa using hm, rfl⟩), esc _ _ _ ha _ pd x.2.1 (List.mem_map.2 ⟨x.2, by simpa using hm, rfl⟩)⟩
    obtain ⟨rows, r1, r2⟩ := rows_screen (width - 8) (inTurn us ds) fit s o hs
    refine ⟨rows, r1, ?_⟩
    have e8 : width - 8 + 8 = width := by omega
    rw [e8] at r2
    rw [List.map_map, List.map_map]
    have := inTurn_map (fun x : List H2.Layout.Cell × Line => x.1.map fun c => (on c.1, c.2)) us ds
    rw [show (fun p => List.map (fun c => (on c.1, c.2)) p) ∘ (fun x : List H2.Layout.Cell × Line => x.1) = fun x : List H2.Layout.Cell × Line => x.1.map fun c => (on c.1, c.2) from rfl, this]
    exact r2

/-- For example: `abc d` expected, `abxc  d` found. -/
example : (strcmpMore true 5 30 false "abc d".toList "abxc  d".toList).map (fun l => (terminal .text [] (printLines true none8 l).2).map (·.2)) =
    some "expect> abc‧d                \nactual> abxc‧‧d             \n".toList := by decide +kernel
example : (strcmpMore true 5 30 false "ab".toList "ax".toList).map (fun l => ((terminal .text [] (printLines true none8 l).2).filter (fun c => c.1 ≠ [])).drop 8) =
    some [(["32".toList], 'b'), (["90".toList], 'a'), (["90".toList], 'c'), (["90".toList], 't'), (["90".toList], 'u'), (["90".toList], 'a'), (["90".toList], 'l'),
      (["31".toList], '>'), (["31".toList], ' '), (["31".toList], 'x')] := by decide +kernel
/-- Broken within a coloured part. -/
example : (strcmpMore true 5 11 false "abcd".toList "x".toList).map (fun l => ((terminal .text [] (printLines true none8 l).2).filter (fun c => c.1 = ["32".toList]))) =
    some [(["32".toList], '>'), (["32".toList], ' '), (["32".toList], 'a'), (["32".toList], 'b'), (["32".toList], 'c'), (["32".toList], '\n'),
      (["32".toList], '>'), (["32".toList], ' '), (["32".toList], 'd')] := by decide +kernel

/-- Without colours: rows of pieces of the two texts in turn. -/
theorem C65_plain (verbose : Int) (width : Nat) (caseless : Bool) (e a : List Char) (hw : 10 ≤ width)
    (hn : 5 ≤ verbose ∨ 8 < room e ∨ 8 < room a) (he : '\x1b' ∉ e) (ha : '\x1b' ∉ a) :
    ∃ lines ups downs, strcmpMore false verbose width caseless e a = some lines ∧
      Parts ((shown e).map fun c => ([], c)) (width - 8) ups ∧ Parts ((shown a).map fun c => ([], c)) (width - 8) downs ∧
      ∀ s : Slots, ∃ rows, (printLines false s lines).2 = chars rows.flatten ∧ Rows width (inTurn ups downs) rows := by
  obtain ⟨⟨l1, l2⟩, -, -⟩ := common caseless e a
  obtain ⟨us, ds, u1, u2, u3, u4, u5, u6⟩ := unified_turn
    (sideLine false "green".toList (H2.Diff.lcs (fun x y : Char => H2.Str.equals [x] [y] caseless) e a).1 e)
    (sideLine false "red".toList (H2.Diff.lcs (fun x y : Char => H2.Str.equals [x] [y] caseless) e a).2 a) width hw
  have pu := parts_of _ _ _ u4 (fun _ => [])
  have pd := parts_of _ _ _ u5 (fun _ => [])
  have plain : ∀ l : Line, ((H2.Layout.cells l).map fun c => (([] : List Word), c.2)) = (text l).map fun c => ([], c) := by
    intro l; unfold text; rw [List.map_map]; rfl
  rw [plain, text_plain _ (.inl rfl) _ _ he l1] at pu
  rw [plain, text_plain _ (.inr rfl) _ _ ha l2] at pd
  have hmore : strcmpMore false verbose width caseless e a = some ((inTurn us ds).map fun x => (if x.1 then upTitle else downTitle) ++ x.2.2) := by
    unfold strcmpMore
    rw [if_pos (show verbose ≥ 5 ∨ 8 < Layout.wordWidth e ∨ 8 < Layout.wordWidth a from hn)]
    exact u1
  refine ⟨_, _, _, hmore, pu, pd, ?_⟩
  intro s
  obtain ⟨rows, r1, r2⟩ := rows_plain (width - 8) (inTurn us ds) (by
    intro x hx
    have hm := inTurn_mem us ds x hx
    refine u6 x.2 ?_
    split at hm <;> simp [hm]) s
  refine ⟨rows, r1, ?_⟩
  have e8 : width - 8 + 8 = width := by omega
  rw [e8] at r2
  rw [List.map_map, List.map_map]
  have := inTurn_map (fun x : List H2.Layout.Cell × Line => x.1.map fun c => (([] : List Word), c.2)) us ds
  rw [show (fun p => List.map (fun c => (([] : List Word), c.2)) p) ∘ (fun x : List H2.Layout.Cell × Line => x.1) = fun x : List H2.Layout.Cell × Line => x.1.map fun c => (([] : List Word), c.2) from rfl, this]
  exact r2

example : (strcmpMore false 4 20 false "hello, world".toList "hello world".toList).map (fun l => (printLines false none8 l).2) =
    some "expect> hello, world\nactual> hello world \n".toList := by decide +kernel

/-- Short texts are not repeated below the line, unless asked for. -/
theorem C65_short (colorful : Bool) (verbose : Int) (width : Nat) (caseless : Bool) (e a : List Char) (hn : ¬ (5 ≤ verbose ∨ 8 < room e ∨ 8 < room a)) :
    strcmpMore colorful verbose width caseless e a = some [] := by
  unfold strcmpMore
  exact if_neg hn

example : ¬ (5 ≤ (4 : Int) ∨ 8 < room "yes".toList ∨ 8 < room "no".toList) := by decide

/-- With colours, a blank that is not in common looks as one that is: of two texts that differ in blanks only, nothing is green or red. -/
theorem C65_blank : ∃ e a : List Char, e ≠ a ∧ ∃ lines, strcmpMore true 5 80 false e a = some lines ∧
    ∀ c ∈ terminal .text [] (printLines true none8 lines).2, c.2 ∈ ['b', '‧'] → c.1 ≠ [Color.code "green".toList] ∧ c.1 ≠ [Color.code "red".toList] := by
  have h : (strcmpMore true 5 80 false "b b".toList "b  b".toList).map (fun lines => (terminal .text [] (printLines true none8 lines).2).all fun c =>
      decide (c.2 ∈ ['b', '‧'] → c.1 ≠ [Color.code "green".toList] ∧ c.1 ≠ [Color.code "red".toList])) = some true := by decide +kernel
  obtain ⟨lines, h1, h2⟩ := Option.map_eq_some_iff.1 h
  exact ⟨"b b".toList, "b  b".toList, by decide, lines, h1, fun c hc => of_decide_eq_true (List.all_eq_true.1 h2 c hc)⟩

/-- A text in which another was sought: the one sought and below it the text, completely. -/
theorem C65_find (width : Nat) (e a : List Char) (hw : 10 ≤ width) (he : '\x1b' ∉ e) (ha : '\x1b' ∉ a) (hn : 16 < room e ∨ 16 < room a) :
    ∃ ups downs up down, strfindMore width e a = some (up ++ down) ∧ Pieces [shown e] (width - 8) ups ∧ Pieces [shown a] (width - 8) downs ∧
      up.length = ups.length ∧ down.length = downs.length ∧
      (∀ (i : Nat) (l : Line), up[i]? = some l → ∃ t, Filled (width - 8) (pieceText ups i) t ∧ text l = (if i = 0 then "expect> ".toList else List.replicate 8 ' ') ++ t) ∧
      (∀ (i : Nat) (l : Line), down[i]? = some l → ∃ t, Filled (width - 8) (pieceText downs i) t ∧ text l = (if i = 0 then "actual> ".toList else List.replicate 8 ' ') ++ t) := by
  obtain ⟨up, ups, u1, u2, u3, u4⟩ := H2.Layout.C45_title [H2.Abbrev.escape e] upTitle width (by rw [up_width.1]; exact hw)
  obtain ⟨down, downs, d1, d2, d3, d4⟩ := H2.Layout.C45_title [H2.Abbrev.escape a] downTitle width (by rw [down_width.1]; exact hw)
  have r1 : room (text upTitle) = 8 := by rw [up_width.2]; decide
  have r2 : room (text downTitle) = 8 := by rw [down_width.2]; decide
  rw [r1] at u2 u4
  rw [r2] at d2 d4
  rw [up_width.2] at u4
  rw [down_width.2] at d4
  rw [H2.Message.escape_shown] at u1 u2 d1 d2
  refine ⟨ups, downs, up, down, ?_, u2, d2, u3, d3, u4, d4⟩
  unfold strfindMore
  rw [if_pos (show 16 < Layout.wordWidth e ∨ 16 < Layout.wordWidth a from hn), H2.Message.escape_shown, H2.Message.escape_shown, u1, d1]

example : (strfindMore 24 "needle".toList "a haystack without it\n".toList).map (fun l => l.map text) =
    some ["expect> needle          ".toList, "actual> a haystack witho".toList, "        ut it\\n         ".toList] := by decide +kernel

end H2.TextDiff
