import Verif.Expect.Reading
/-
C89: the text of an expectation says what the matcher checks.
-/
namespace H2.Expect
open Spec
open H2.Layout (Word Line)

theorem says_of {E : Env} {l : Line} {f : Form} {P : Val → Prop} (h : IsOr (toks l) f)
    (hP : ∀ a, Holds E false false f a ↔ P a) : Says E (Message.string l) P := by
  have hr : Reads (Message.string l) f := h.whole
  refine ⟨⟨f, hr⟩, fun g hg a => ?_⟩
  rw [reads_unique hg hr]
  exact hP a

/-- Whatever matchers of numbers, texts and containers are nested in whatever way, under negations, `~` and `*` or not
(`n`, `ci` and `sq` for those around it; `n` is also set by `KO`), the text of the expectation in the failure can be read
with the usual precedence of signs, `and` and `or`, and what it says is true of just the values that the matcher accepts.
Missing: a number without a matcher inside another matcher, or a pair, under an odd number of negations; a text without a
matcher inside another matcher under a negation, `~` or `*`; `Every`, `Has` and `CountOf` under `~`; `Substr`, `StartsWith`
and `EndsWith` of a text with needless white space under `*`; and texts with quotation marks.  There this is false
(`C89_value_false`, `C89_pair_false`, `C89_text_false`, `C89_caseless_false`, `C89_squash_false`, `C89_quote_false`). -/
theorem C89_failure_partial (E : Env) (m : Mx) (n ci sq : Bool) (h : ClearTop m n ci sq) :
    Says E (Message.string (failure m { neg := n, ci := ci, sq := sq })) fun a => fits E m a { neg := n, ci := ci, sq := sq } = true := by
  obtain ⟨f, h1, h2⟩ := (reads_failure E m { neg := n, ci := ci, sq := sq } rfl h).one
  exact says_of h1.or fun a => h2 false (by simp) a

example : ClearTop (.not (.plain 3)) false false false ∧ text (.not (.plain 3)) = "≠3".toList := ⟨trivial, by decide +kernel⟩

example : ClearTop (.bang (.caseless (.spaceless (.str " a  b".toList)))) false false false ∧
    text (.bang (.caseless (.spaceless (.str " a  b".toList)))) = "≠~*\"a b\"".toList :=
  ⟨show Plain _ by decide, by decide +kernel⟩

/-- The same of `OK`. -/
theorem C89_text_partial (E : Env) (m : Mx) (h : ClearTop m false false false) : Says E (text m) fun a => ok E m a = true :=
  C89_failure_partial E m false false false h

/-- A matcher of texts. -/
def texts : Mx :=
  .spaceless (.or (.caseless (.and (.find .startsWith "Ab".toList) (.bang (.find .substr "c d".toList)))) (.anyOf (.cons (.se "x".toList) .nil)))

example : ClearTop texts false false false ∧
    text texts = "**~*StartsWith(\"Ab\") and !~*Substr(\"c d\") or *AnyOf(*\"x\")".toList := by
  refine ⟨⟨⟨⟨?_, ?_⟩, ⟨?_, ?_⟩⟩, ⟨?_, trivial⟩⟩, by decide +kernel⟩
  · exact show Plain _ by decide
  · exact fun _ => .inr (.inr (by decide))
  · exact show Plain _ by decide
  · exact fun _ => .inr (.inr (by decide))
  · exact show Plain _ by decide

/-- The same of the text of a matcher wherever it stands in another. -/
theorem C89_expected_partial (E : Env) (m : Mx) (n ci sq : Bool) (h : Clear m n ci sq false) :
    Says E (Message.string (expect m { neg := n, ci := ci, sq := sq })) fun a => fits E m a { neg := n, ci := ci, sq := sq } = true := by
  obtain ⟨f, h1, h2⟩ := (reads E m { neg := n, ci := ci, sq := sq } false rfl h).one
  exact says_of h1.or fun a => h2 false (by simp) a

/-- A matcher of some depth. -/
def sample : Mx :=
  .bang (.or (.and (.ord .gt 1) (.or (.ord .lt (-5)) (.plain 9))) (.allOf (.cons (.not (.eq 7)) (.cons (.user "Near".toList [3, 4]) .nil))))

example : Clear sample false false false false ∧ text sample = "!(>1 and (<-5 or 9) or AllOf(≠7, Near(3, 4)))".toList :=
  ⟨⟨⟨trivial, trivial, .inl rfl⟩, trivial, ⟨⟨'N', "ear".toList, rfl, by decide, by decide⟩, by decide⟩, trivial⟩, by decide +kernel⟩

example : Clear (.has (.pair (.ord .ge 1) (.every (.str "k".toList)))) true false false false ∧
    Message.string (expect (.has (.pair (.ord .ge 1) (.every (.str "k".toList)))) { neg := true }) = "!Has((≥1, Every(\"k\")))".toList :=
  ⟨⟨rfl, rfl, trivial, rfl, show Plain _ by decide, .inl ⟨rfl, rfl, rfl⟩⟩, by decide +kernel⟩

example : Clear (.hasPair (.str "k".toList) (.not (.hasKey (.ord .gt 1)))) true false false false ∧
    Message.string (expect (.hasPair (.str "k".toList) (.not (.hasKey (.ord .gt 1)))) { neg := true }) =
      "!Has(\"k\", !HasKey(>1))".toList :=
  ⟨⟨⟨show Plain _ by decide, .inl ⟨rfl, rfl, rfl⟩⟩, trivial⟩, by decide +kernel⟩

example : Clear (.everyPair (.ord .ge 1) (.hasValue (.eq 7))) false true false false ∧
    Message.string (expect (.everyPair (.ord .ge 1) (.hasValue (.eq 7))) { ci := true }) = "Every(≥1, HasValue(7))".toList :=
  ⟨⟨rfl, trivial, trivial⟩, by decide +kernel⟩

/-- No text reads in two ways. -/
theorem C89_unique (t : List Char) (f g : Form) (hf : Reads t f) (hg : Reads t g) : f = g := reads_unique hf hg

example : Reads "!(>1 and \"a, b\")".toList (.neg (.and (.rel .gt 1) (.text "a, b".toList))) := ⟨20, by decide +kernel⟩

/-- `and` binds tighter than `or`, and both are read from the left. -/
example : Reads "1 or 2 and 3 or 4".toList (.or (.or (.rel .eq 1) (.and (.rel .eq 2) (.rel .eq 3))) (.rel .eq 4)) :=
  ⟨20, by decide +kernel⟩

/-- Two matchers with the same text accept the same values. -/
theorem C89_same (E : Env) (m m' : Mx) (n n' ci ci' sq sq' : Bool) (h : ClearTop m n ci sq) (h' : ClearTop m' n' ci' sq')
    (he : Message.string (failure m { neg := n, ci := ci, sq := sq }) = Message.string (failure m' { neg := n', ci := ci', sq := sq' }))
    (a : Val) : fits E m a { neg := n, ci := ci, sq := sq } = fits E m' a { neg := n', ci := ci', sq := sq' } := by
  obtain ⟨⟨f, hf⟩, h1⟩ := C89_failure_partial E m n ci sq h
  obtain ⟨_, h2⟩ := C89_failure_partial E m' n' ci' sq' h'
  rw [Bool.eq_iff_iff]
  exact (h1 f hf a).symm.trans (h2 f (he ▸ hf) a)

example : text (.and (.and (.ord .gt 1) (.eq 2)) (.eq 3)) =
    text (.cond true (.and (.and (.ord .gt 1) (.plain 2)) (.not (.not (.eq 3)))) .any) := by decide +kernel

/-- What a text in `AllOf` with nothing else says. -/
theorem says_allOf {E : Env} {l : Line} {f : Form} {P : Val → Prop} (hl : Level l f)
    (hP : ∀ a, Holds E false false f a ↔ P a) : Says E (Message.string (callText {} "AllOf".toList l)) P := by
  refine says_of (f := .call "AllOf".toList (.cons f .nil)) ?_ fun a => ?_
  · rw [callText, List.append_assoc, show pre {} ['!'] = [] from rfl, List.nil_append,
      toks_call _ _ hl.bal (by decide) (by decide)]
    exact (unit_call (args_one hl) (by decide) (by decide)).and.or
  · rw [Holds, if_pos rfl]; simp [HoldAll, hP]

/-- The text of `Nq(z)`, which is `Not(z)`, inside another matcher says the contrary of what is checked: with
`AllOf(Nq(z))` it is true of the one value that the matcher rejects. -/
theorem C89_value_false (E : Env) (z : Int) :
    (Says E (text (.allOf (.cons (.not (.plain z)) .nil))) fun a => a = .num z) ∧
      ∀ a, ok E (.allOf (.cons (.not (.plain z)) .nil)) a = true ↔ a ≠ .num z := by
  constructor
  · have := says_allOf (E := E) (P := fun a => a = .num z) (level_number z) fun a => by simp [Holds, Rel.Of]
    simpa [text, failure, expect, list, tail] using this
  · intro a
    cases a <;> simp [ok, fits, allFit, Val.is, Typed.fit]

example : text (.allOf (.cons (.not (.plain 3)) (.cons (.ord .gt 1) .nil))) = "AllOf(3, >1)".toList := by decide +kernel

/-- The text of a plain text inside another matcher under `~` does not say that case is ignored: with `~AllOf("s")` it is
true of `s` alone, where the matcher accepts each text that differs from it in case only. -/
theorem C89_text_false (E : Env) (s : Word) (hs : Plain s) :
    (Says E (text (.caseless (.allOf (.cons (.str s) .nil)))) fun a => a = .text s) ∧
      ∀ t, ok E (.caseless (.allOf (.cons (.str s) .nil))) (.text t) = true ↔ t.map Char.toLower = s.map Char.toLower := by
  constructor
  · have := says_allOf (E := E) (P := fun a => a = .text s) (Level.of_unit (bal_quoted hs) (unit_quoted hs)) fun a => by
      simp [Holds, norm]
    simpa [text, failure, expect, list, tail, callText, pre] using this
  · intro t
    simp [ok, fits, allFit, Val.same, Typed.fit, Str.strTest, Str.equals, Str.lower]

example : text (.caseless (.allOf (.cons (.str "Abc".toList) .nil))) = "AllOf(\"Abc\")".toList ∧ Plain "Abc".toList :=
  ⟨by decide +kernel, show Plain _ by decide⟩

/-- `Every`, `Has` and `CountOf` hide `~` from the text: that of `~Has(Se("s"))` is true of a container with just `s`, where
the matcher accepts one with a text that differs from it in case only. -/
theorem C89_caseless_false (E : Env) (s : Word) (hs : Plain s) :
    (Says E (text (.caseless (.has (.se s)))) fun a => .text s ∈ a.elems) ∧
      ∀ ts : List Word, ok E (.caseless (.has (.se s))) (.seq (ts.map Val.text)) = true ↔ ∃ t ∈ ts, t.map Char.toLower = s.map Char.toLower := by
  constructor
  · have hl := Level.of_unit (bal_quoted hs) (unit_quoted hs)
    have : Says E (Message.string (callText {} "Has".toList (quoted s))) fun a => .text s ∈ a.elems := by
      refine says_of (f := .call "Has".toList (.cons (.text s) .nil)) ?_ fun a => ?_
      · rw [callText, List.append_assoc, show pre {} ['!'] = [] from rfl, List.nil_append,
          toks_call _ _ hl.bal (by decide) (by decide)]
        exact (unit_call (args_one hl) (by decide) (by decide)).and.or
      · rw [Holds, if_neg (by decide), if_neg (by decide), if_neg (by decide), if_neg (by decide), if_pos rfl]
        simp [HoldElem, Holds, norm]
    simpa [text, failure, expect, seText, callText, pre] using this
  · intro ts
    simp [ok, fits, Val.elems, Val.same, Typed.fit, Str.strTest, Str.equals, Str.lower]

example : text (.caseless (.has (.se "A".toList))) = "Has(\"A\")".toList ∧ Plain "A".toList :=
  ⟨by decide +kernel, show Plain _ by decide⟩

/-- The text of `*Substr("s")` says that white space does not matter, but only the actual text is squashed: a text with two
blanks is not found in itself. -/
theorem C89_squash_false (E : Env) :
    (∀ s, Plain s → Says E (text (.spaceless (.find .substr s))) fun a => ∃ t l r, a = .text t ∧ Str.squash t = l ++ Str.squash s ++ r) ∧
      ok E (.spaceless (.find .substr "a  b".toList)) (.text "a  b".toList) = false := by
  constructor
  · intro s hs
    have hl := Level.of_unit (bal_quoted hs) (unit_quoted hs)
    refine says_of (f := .spaceless (.call "Substr".toList (.cons (.text s) .nil))) ?_ fun a => ?_
    · show IsOr (toks ([['*']] ++ ["Substr".toList] ++ paren (quoted s))) _
      rw [List.append_assoc, toks_sign _ _ (by decide) (by decide) (by decide), toks_call _ _ hl.bal (by decide) (by decide)]
      exact (unit_spaceless (unit_call (args_one hl) (by decide) (by decide))).and.or
    · rw [Holds, Holds, if_neg (by decide), if_neg (by decide), if_neg (by decide), if_neg (by decide), if_neg (by decide),
        if_neg (by decide), if_neg (by decide), if_neg (by decide), if_pos (by decide)]
      simp only [Forms.text, Named, if_pos, norm]
      constructor
      · rintro ⟨_, t, e, h, l, r, k⟩; cases e; exact ⟨t, l, r, h, k⟩
      · rintro ⟨t, l, r, h, k⟩; exact ⟨s, t, rfl, h, l, r, k⟩
  · rfl

example : text (.spaceless (.find .substr "a  b".toList)) = "*Substr(\"a  b\")".toList := by decide +kernel

/-- A quotation mark in a text is not marked: `Se("a\" or \"b")` and `Se("a") || Se("b")` have one text. -/
theorem C89_quote_false (E : Env) :
    text (.se "a\" or \"b".toList) = text (.or (.se "a".toList) (.se "b".toList)) ∧
      ok E (.se "a\" or \"b".toList) (.text "a".toList) = false ∧ ok E (.or (.se "a".toList) (.se "b".toList)) (.text "a".toList) = true :=
  ⟨by decide +kernel, by rfl, by rfl⟩

/-- The text of a negated pair negates the parts as well: for `Not(Pair(Eq(k), Eq(v)))` it is true of a pair if one
of the parts is equal, where the matcher accepts a pair if one of the parts differs. -/
theorem C89_pair_false (E : Env) (k v : Int) :
    (Says E (text (.not (.pair (.eq k) (.eq v)))) fun a => ∀ x y, a = .pair x y → x = .num k ∨ y = .num v) ∧
      ∀ x y, ok E (.not (.pair (.eq k) (.eq v))) (.pair x y) = true ↔ x ≠ .num k ∨ y ≠ .num v := by
  have one : ∀ z, Bal (expect (.eq z) { neg := true }) ∧ IsUnit (toks (expect (.eq z) { neg := true })) (.neg (.rel .eq z)) := by
    intro z
    refine ⟨bal_append (by decide) (bal_number z), ?_⟩
    show IsUnit (toks ([['≠']] ++ number z)) _
    rw [toks_sign _ _ (by decide) (by decide) (by decide)]
    exact unit_neg (.inr rfl) (unit_num z)
  constructor
  · refine says_of (f := .neg (.pair (.neg (.rel .eq k)) (.neg (.rel .eq v)))) ?_ fun a => ?_
    · show IsOr (toks ([['!']] ++ Message.gray ['('] ++ expect (.eq k) { neg := true } ++ Message.gray ", ".toList ++
        expect (.eq v) { neg := true } ++ Message.gray [')'])) _
      rw [List.append_assoc, List.append_assoc, List.append_assoc, List.append_assoc, toks_sign _ _ (by decide) (by decide) (by decide),
        ← List.append_assoc, ← List.append_assoc, ← List.append_assoc, toks_pair _ _ (one k).1 (one v).1]
      exact (unit_neg (.inl rfl) (unit_pair (one k).2.and.or (one v).2.and.or)).and.or
    · simp only [Holds, Rel.Of, not_exists, not_and]
      constructor
      · intro h x y e
        by_cases hx : x = .num k
        · exact .inl hx
        · exact .inr (Classical.byContradiction fun hy => h x y e hx hy)
      · intro h x y e hx hy
        rcases h x y e with h | h
        · exact hx h
        · exact hy h
  · intro x y
    simp only [ok, fits, Typed.fit]
    cases x <;> cases y <;> simp [Val.is]

example : text (.not (.pair (.eq 1) (.eq 2))) = "!(≠1, ≠2)".toList := by decide +kernel

/-- The text of a negated `Every` of two negates these as well: for `Not(Every(Eq(k), Eq(v)))` it is true of a map if one
entry has that key or that value, where the matcher accepts a map if one entry has another key or another value. -/
theorem C89_every_false (E : Env) (k v : Int) :
    (Says E (text (.not (.everyPair (.eq k) (.eq v)))) fun a => ∃ e ∈ a.elems, ∀ x y, e = .pair x y → x = .num k ∨ y = .num v) ∧
      ∀ l : List (Val × Val), ok E (.not (.everyPair (.eq k) (.eq v))) (.seq (l.map fun p => .pair p.1 p.2)) = true ↔
        ∃ p ∈ l, p.1 ≠ .num k ∨ p.2 ≠ .num v := by
  have one : ∀ z, Level (expect (.eq z) { neg := true }) (.neg (.rel .eq z)) := by
    intro z
    refine Level.of_unit (bal_append (by decide) (bal_number z)) ?_
    show IsUnit (toks ([['≠']] ++ number z)) _
    rw [toks_sign _ _ (by decide) (by decide) (by decide)]
    exact unit_neg (.inr rfl) (unit_num z)
  constructor
  · refine says_of (f := .neg (.call "Every".toList (.cons (.neg (.rel .eq k)) (.cons (.neg (.rel .eq v)) .nil)))) ?_ fun a => ?_
    · show IsOr (toks ([['!']] ++ ["Every".toList] ++ paren (expect (.eq k) { neg := true } ++ Message.gray ", ".toList ++
        expect (.eq v) { neg := true }))) _
      rw [List.append_assoc, toks_sign _ _ (by decide) (by decide) (by decide),
        toks_call _ _ (bal_two (one k).bal (one v).bal) (by decide) (by decide)]
      exact (unit_neg (.inl rfl) (unit_call (args_two (one k) (one v)) (by decide) (by decide))).and.or
    · rw [Holds, Holds, if_neg (by decide), if_neg (by decide), if_neg (by decide), if_pos rfl]
      simp only [HoldElem, Holds, Rel.Of]
      constructor
      · intro h
        refine Classical.byContradiction fun hn => h fun e he => ?_
        refine Classical.byContradiction fun hx => hn ⟨e, he, fun x y hxy => ?_⟩
        by_cases h1 : x = .num k
        · exact .inl h1
        · exact .inr (Classical.byContradiction fun h2 => hx ⟨x, y, hxy, h1, h2⟩)
      · rintro ⟨e, he, h⟩ hall
        obtain ⟨x, y, hxy, h1, h2⟩ := hall e he
        rcases h x y hxy with h | h
        · exact h1 h
        · exact h2 h
  · intro l
    have is : ∀ (x : Val) (z : Int), x.is z = true ↔ x = .num z := fun x z => by cases x <;> simp [Val.is]
    rw [show ok E (.not (.everyPair (.eq k) (.eq v))) (.seq (l.map fun p => .pair p.1 p.2)) =
      !((l.map fun p => Val.pair p.1 p.2).all fun e => e.parts fun y z => (y.is k == true) && (z.is v == true)) from by
        simp [ok, fits, Typed.fit, Val.elems]]
    rw [Bool.not_eq_true', List.all_eq_false]
    constructor
    · rintro ⟨e, he, h⟩
      obtain ⟨p, hp, rfl⟩ := List.mem_map.1 he
      refine ⟨p, hp, Classical.byContradiction fun hn => h ?_⟩
      simp only [not_or, Classical.not_not] at hn
      simp [Val.parts, is, hn]
    · rintro ⟨p, hp, h⟩
      refine ⟨_, List.mem_map_of_mem hp, fun hn => ?_⟩
      simp only [Val.parts, Bool.and_eq_true, beq_iff_eq, is] at hn
      rcases h with h | h
      · exact h hn.1
      · exact h hn.2

example : text (.not (.everyPair (.eq 1) (.eq 2))) = "!Every(≠1, ≠2)".toList := by decide +kernel

/-- Where the relation is written by the user, as in `OK(a > b)` or `OK(s != "t")`, the text is the number or the quoted
text alone. -/
theorem C89_bare (o : Typed.Ord) (z : Int) (s : Word) (hs : Plain s) (n : Bool) :
    intOf (Message.string (expect (.ord o z) { bare := true, neg := n })) = some z ∧
      intOf (Message.string (expect (.eq z) { bare := true, neg := n })) = some z ∧
      Message.string (expect (.se s) { bare := true, neg := n }) = ['"'] ++ s ++ ['"'] := by
  have h1 : expect (.ord o z) { bare := true, neg := n } = [[]] ++ number z := by simp [expect, pre]
  have h2 : expect (.eq z) { bare := true, neg := n } = number z := by simp [expect, eqText, pre]
  have h3 : expect (.se s) { bare := true, neg := n } = quoted s := by simp [expect, seText, pre]
  rw [h1, h2, h3, str_append, str_number, str_quoted hs]
  exact ⟨intOf_decimal z, intOf_decimal z, by simp⟩

example : Message.string (expect (.ord .gt (-12)) { bare := true, neg := true }) = "-12".toList := by decide +kernel

end H2.Expect
