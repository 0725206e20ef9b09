import Verif.Json.SyntaxText
/-
C14: JSON texts and the trees the parser makes of them.
-/
namespace H2.Json

/-! ### Tokens and trees -/

/-- C14.  A sequence of tokens is accepted exactly when it is well formed, and the tree is the one it stands for
(no token at all: nothing). -/
theorem C14_parse (m : Expr.Machine) (ts : List Str) (j : Json) :
    readAll m ts = .ok j [] ↔ (ts = [] ∧ j = .absent) ∨ WellFormed m (.value j) ts := by
  constructor
  · intro h
    obtain ⟨j', r, h1, h2⟩ := bind_ok h
    split at h2
    · rename_i hr
      subst hr
      simp at h2; subst h2
      rcases read_shows _ _ _ _ _ _ h1 with ⟨h3, h4, -⟩ | ⟨us, -, h3, hw⟩
      · exact .inl ⟨h3, h4⟩
      · simp at h3; subst h3; exact .inr hw
    · cases h2
  · rintro (⟨rfl, rfl⟩ | h)
    · rfl
    · have := (wellFormed_accepts h).2 []
      rw [List.append_nil] at this
      rw [readAll, yields_at this (by simp [Part.rank])]
      rfl

/-- C14.  One sequence of tokens stands for one tree at most. -/
theorem C14_unambiguous (m : Expr.Machine) {ts j j'} (h : WellFormed m (.value j) ts) (h' : WellFormed m (.value j') ts) : j = j' := by
  have h1 := (C14_parse m ts j).2 (.inr h)
  have h2 := (C14_parse m ts j').2 (.inr h')
  rw [h1] at h2
  injection h2

/-- C14.  The parser ends for every text: with a tree, or with the text reported as ill-formed, or, where a quote or a
slash stands all alone as a token, perhaps with an exception. -/
theorem C14_ends (m : Expr.Machine) (s : Str) : (∃ j, tree m s = .ok j []) ∨ tree m s = .illformed ∨
    (tree m s = .crash ∧ ∃ t ∈ lex s, t = ['"'] ∨ t = ['\''] ∨ t = ['/']) := by
  unfold tree readAll
  cases h : read m (2 * (lex s).length + 2) .value (lex s) with
  | fuel => exact absurd h (read_fuel _ _ _ _ (by simp [Part.rank]))
  | illformed => exact .inr (.inl rfl)
  | crash => exact .inr (.inr ⟨rfl, read_crash _ _ _ _ h⟩)
  | ok j r =>
    by_cases hr : r = []
    · exact .inl ⟨j, by simp [Reading.bind, hr]⟩
    · exact .inr (.inl (by simp [Reading.bind, hr]))

/-! ### Texts and trees -/

/-- What the lexer and the parser make of the text of a piece. -/
def Lexes (m : Expr.Machine) (p : Piece) (s : Str) : Prop :=
  ∃ ts, (∀ b r, White b → Ends r → lex (s ++ (b ++ r)) = ts ++ lex r) ∧
    match p with
    | .value j => WellFormed m (.value j) ts ∧ ts ≠ [] ∧ ts.head? ≠ some (tok ']')
    | .bare j => WellFormed m (.value j) ts ∧ ts ≠ [] ∧ ts.head? ≠ some (tok ']')
    | .key k => ∃ t, ts = [t] ∧ t ≠ tok '}' ∧ StringToken t k
    | .elements l => WellFormed m (.elements l) ts
    | .members l => WellFormed m (.members l) ts

theorem word_ne_punct {w c} (hw : Word w) (hc : isPunct c = true) : w ≠ tok c := by
  rintro rfl
  have := (hw.2.1 c (by simp [tok])).1
  rw [hc] at this; cases this

theorem word_string {w} (hw : Word w) : StringToken w w := by
  refine .bare ?_ ⟨w, ?_, ?_⟩
  · rintro q hq ⟨h, -⟩
    have := hw.2.2.1 q h
    simp at hq
    rcases hq with rfl | rfl
    · exact this.2.1 rfl
    · exact this.2.2.1 rfl
  · have := hw.2.1
    generalize w = u at this
    induction u with
    | nil => exact .nil
    | cons c u ih => exact .other (fun h => absurd h (this c (by simp)).2) (ih fun d hd => this d (by simp [hd]))
  · have := hw.2.1
    generalize w = u at this
    induction u with
    | nil => exact .nil
    | cons c u ih => exact .other (fun h => absurd h (this c (by simp)).2) (ih fun d hd => this d (by simp [hd]))

theorem word_wellFormed {m w j} (hw : Word w) (hk : w ∉ ["null".toList, "true".toList, "false".toList]) (hs : Scalar m w j) :
    WellFormed m (.value j) [w] := by
  refine .scalar ?_ hs
  simp only [List.mem_cons, List.not_mem_nil, or_false, not_or] at hk ⊢
  exact ⟨hk.1, hk.2.1, hk.2.2, word_ne_punct hw (by decide), word_ne_punct hw (by decide), word_ne_punct hw (by decide), word_ne_punct hw (by decide)⟩

theorem word_head {w} (hw : Word w) : w.head? ≠ some '/' := by
  intro h
  exact (hw.2.2.1 _ h).2.2.2 rfl

theorem lexes_word {m w j} (hw : Word w) (h : WellFormed m (.value j) [w]) : Lexes m (.bare j) w :=
  ⟨[w], fun _ _ hb hr => lex_word hw hb hr, h, by simp, by simpa [tok] using word_ne_punct hw (c := ']') (by decide)⟩

theorem keyword_word : Word "null".toList ∧ Word "true".toList ∧ Word "false".toList := by
  refine ⟨⟨by decide, by decide, ?_, ?_⟩, ⟨by decide, by decide, ?_, ?_⟩, ⟨by decide, by decide, ?_, ?_⟩⟩ <;> (intro c hc; revert hc; decide +revert)

theorem quoted_wellFormed {m t s} (h : Quoted t s) : WellFormed m (.value (.str t)) [s] := by
  obtain ⟨q, e, hq, rfl, -, hm⟩ := quoted_split h
  have hp : ∀ c, isPunct c = true → q :: e ++ [q] ≠ tok c := by
    intro c hc h
    have := congrArg List.length h
    simp [tok] at this
  refine .scalar ?_ (.string ?_ (quote_no_value m hq _) (.quoted hq hm))
  · simp only [List.mem_cons, List.not_mem_nil, or_false, not_or]
    refine ⟨?_, ?_, ?_, hp _ (by decide), hp _ (by decide), hp _ (by decide), hp _ (by decide)⟩ <;>
      (intro h; have := congrArg List.head? h; revert this; rcases hq with rfl | rfl <;> simp)
  · rcases hq with rfl | rfl <;> simp

theorem ends_punct {c s} (h : isPunct c = true) : Ends (c :: s) := by
  intro d hd; simp at hd; subst hd; exact h

theorem white_nil : White [] := by intro c hc; simp at hc

theorem text_lexes {m p s} (h : Text m p s) : Lexes m p s := by
  induction h with
  | @value j a s b ha _ hb ih =>
    obtain ⟨ts, h1, h2⟩ := ih
    refine ⟨ts, fun b' r hb' hr => ?_, h2⟩
    have : a ++ s ++ b ++ (b' ++ r) = a ++ (s ++ ((b ++ b') ++ r)) := by simp
    rw [this, lex_white ha, h1 _ _ _ hr]
    intro c hc
    rcases List.mem_append.1 hc with hc | hc
    · exact hb c hc
    · exact hb' c hc
  | null => exact lexes_word keyword_word.1 .null
  | true => exact lexes_word keyword_word.2.1 .true
  | false => exact lexes_word keyword_word.2.2 .false
  | number h =>
    obtain ⟨hw, -, c, r, rfl, hc⟩ := numeral_word h
    refine lexes_word hw (word_wellFormed hw ?_ (.number (word_head hw) (numeral_eval h)))
    intro hm
    simp at hm
    rcases hm with ⟨rfl, -⟩ | ⟨rfl, -⟩ | ⟨rfl, -⟩ <;> revert hc <;> decide
  | @string t s h =>
    have hwf := quoted_wellFormed (m := m) h
    obtain ⟨q, e, hq, rfl, hbody, hm⟩ := quoted_split h
    refine ⟨_, fun b r hb hr => ?_, hwf, by simp, ?_⟩
    · rw [lex_quoted hq hbody, lex_white hb]; rfl
    · rcases hq with rfl | rfl <;> simp [tok]
  | @word w hw hk hv => exact lexes_word hw (word_wellFormed hw hk (.string (word_head hw) hv (word_string hw)))
  | @pattern p hp =>
    refine ⟨['/' :: p ++ ['/']], fun b r hb hr => ?_, .scalar ?_ .pattern, by simp, by simp [tok]⟩
    · rw [lex_pattern hp, lex_white hb]; rfl
    · simp [tok]
  | @emptyArray a ha =>
    refine ⟨[tok '[', tok ']'], fun b r hb hr => ?_, .array .noElement, by simp, by simp [tok]⟩
    have : '[' :: a ++ [']'] ++ (b ++ r) = '[' :: (a ++ ']' :: (b ++ r)) := by simp
    rw [this, lex_punct (by decide), lex_white ha, lex_punct (by decide), lex_white hb]; rfl
  | @array l s _ ih =>
    obtain ⟨ts, h1, h2⟩ := ih
    refine ⟨tok '[' :: ts ++ [tok ']'], fun b r hb hr => ?_, .array h2, by simp, by simp [tok]⟩
    have : '[' :: s ++ [']'] ++ (b ++ r) = '[' :: (s ++ ([] ++ ']' :: (b ++ r))) := by simp
    rw [this, lex_punct (by decide), h1 _ _ white_nil (ends_punct (by decide)), lex_punct (by decide), lex_white hb]
    simp [tok]
  | @emptyObject a ha =>
    refine ⟨[tok '{', tok '}'], fun b r hb hr => ?_, .object .noMember, by simp, by simp [tok]⟩
    have : '{' :: a ++ ['}'] ++ (b ++ r) = '{' :: (a ++ '}' :: (b ++ r)) := by simp
    rw [this, lex_punct (by decide), lex_white ha, lex_punct (by decide), lex_white hb]; rfl
  | @object l s _ ih =>
    obtain ⟨ts, h1, h2⟩ := ih
    refine ⟨tok '{' :: ts ++ [tok '}'], fun b r hb hr => ?_, .object h2, by simp, by simp [tok]⟩
    have : '{' :: s ++ ['}'] ++ (b ++ r) = '{' :: (s ++ ([] ++ '}' :: (b ++ r))) := by simp
    rw [this, lex_punct (by decide), h1 _ _ white_nil (ends_punct (by decide)), lex_punct (by decide), lex_white hb]
    simp [tok]
  | element _ ih =>
    obtain ⟨ts, h1, h2, h3, h4⟩ := ih
    exact ⟨ts, h1, .element h4 h2⟩
  | @elements j l s t _ _ ih ih' =>
    obtain ⟨ts, h1, h2, h3, h4⟩ := ih
    obtain ⟨us, g1, g2⟩ := ih'
    refine ⟨ts ++ tok ',' :: us, fun b r hb hr => ?_, .elements h4 h2 g2⟩
    have : s ++ ',' :: t ++ (b ++ r) = s ++ ([] ++ ',' :: (t ++ (b ++ r))) := by simp
    rw [this, h1 _ _ white_nil (ends_punct (by decide)), lex_punct (by decide), g1 _ _ hb hr]
    simp [tok]
  | @key k a s b ha hqd hb =>
    obtain ⟨q, e, hq, rfl, hbody, hm⟩ := quoted_split hqd
    refine ⟨[q :: e ++ [q]], fun b' r hb' hr => ?_, _, rfl, ?_, .quoted hq hm⟩
    · have : a ++ (q :: e ++ [q]) ++ b ++ (b' ++ r) = a ++ ((q :: e ++ [q]) ++ (b ++ (b' ++ r))) := by simp
      rw [this, lex_white ha, lex_quoted hq hbody, lex_white hb, lex_white hb']; rfl
    · intro h; have := congrArg List.length h; simp [tok] at this
  | @keyWord a w b ha hw hb =>
    refine ⟨[w], fun b' r hb' hr => ?_, _, rfl, word_ne_punct hw (by decide), word_string hw⟩
    have : a ++ w ++ b ++ (b' ++ r) = a ++ (w ++ ((b ++ b') ++ r)) := by simp
    rw [this, lex_white ha, lex_word hw _ hr]; rfl
    intro c hc
    rcases List.mem_append.1 hc with hc | hc
    · exact hb c hc
    · exact hb' c hc
  | @member k j s t _ _ ih ih' =>
    obtain ⟨ts, h1, t', rfl, h2, h3⟩ := ih
    obtain ⟨us, g1, g2, g3, g4⟩ := ih'
    refine ⟨t' :: tok ':' :: us, fun b r hb hr => ?_, .member h2 h3 g2⟩
    have : s ++ ':' :: t ++ (b ++ r) = s ++ ([] ++ ':' :: (t ++ (b ++ r))) := by simp
    rw [this, h1 _ _ white_nil (ends_punct (by decide)), lex_punct (by decide), g1 _ _ hb hr]
    simp [tok]
  | @members k j l s t u _ _ _ ih ih' ih'' =>
    obtain ⟨ts, h1, t', rfl, h2, h3⟩ := ih
    obtain ⟨us, g1, g2, g3, g4⟩ := ih'
    obtain ⟨vs, f1, f2⟩ := ih''
    refine ⟨t' :: tok ':' :: us ++ tok ',' :: vs, fun b r hb hr => ?_, .members h2 h3 g2 f2⟩
    have : s ++ ':' :: t ++ ',' :: u ++ (b ++ r) = s ++ ([] ++ ':' :: (t ++ ([] ++ ',' :: (u ++ (b ++ r))))) := by simp
    rw [this, h1 _ _ white_nil (ends_punct (by decide)), lex_punct (by decide), g1 _ _ white_nil (ends_punct (by decide)),
      lex_punct (by decide), f1 _ _ hb hr]
    simp [tok]

/-- C14.  From every text of a value, whatever the white space, nesting and escapes, the value is restored. -/
theorem C14_restore (m : Expr.Machine) {j s} (h : Text m (.value j) s) : tree m s = .ok j [] := by
  obtain ⟨ts, h1, h2, -⟩ := text_lexes h
  have := h1 [] [] white_nil (by intro c hc; simp at hc)
  simp only [List.append_nil, lex_nil] at this
  rw [tree, this]
  exact (C14_parse m ts j).2 (.inr h2)

/-- C14.  One text stands for one value at most. -/
theorem C14_text_unambiguous (m : Expr.Machine) {j j' s} (h : Text m (.value j) s) (h' : Text m (.value j') s) : j = j' := by
  have h1 := C14_restore m h
  have h2 := C14_restore m h'
  rw [h1] at h2
  injection h2

/-! ### Writing and reading back -/

theorem escape_escaped {s : Str} (h : ∀ a b c, s = a ++ '\\' :: c :: b → c ∉ ['b', 'f', 'n', 'r', 't']) : Escaped '"' s (escape s) := by
  induction s with
  | nil => exact .nil
  | cons c s ih =>
    have hs := ih fun a b d e => h (c :: a) b d (by simp [e])
    rw [escape]
    cases hf : escapes.find? (·.2 = c) with
    | some p =>
      obtain ⟨x, y⟩ := p
      have h1 := List.mem_of_find?_eq_some hf
      have h2 := List.find?_some hf
      simp at h2; subst h2
      exact .escape h1 hs
    | none =>
      simp only
      by_cases hc : c = '\\'
      · subst hc
        rw [if_pos rfl]
        refine .backslash ?_ hs
        intro x hx
        cases s with
        | nil => simp [escape] at hx
        | cons d s =>
          have hd := h [] s d rfl
          rw [escape] at hx
          cases hf : escapes.find? (·.2 = d) with
          | some p => rw [hf] at hx; simp at hx; subst hx; decide
          | none =>
            rw [hf] at hx
            simp only at hx
            split at hx
            · simp at hx; subst hx; decide
            · simp at hx; subst hx
              rw [List.find?_eq_none] at hf
              have := hf ('"', '"') (by decide)
              intro hm
              simp only [escapes, List.map_cons, List.map_nil, List.mem_cons, List.not_mem_nil, or_false] at hm hd
              simp at this
              grind
      · rw [if_neg hc]
        rw [List.find?_eq_none] at hf
        have := hf ('"', '"') (by decide)
        simp at this
        exact .plain (fun h => this h.symm) hc hs

theorem quote_text {m s} (h : Sayable.string s) : Text m (.bare (.str s)) (quote s) := .string (.double (escape_escaped h))

theorem bare_value {m j s} (h : Text m (.bare j) s) : Text m (.value j) s := by
  have := Text.value (a := []) (b := []) white_nil h white_nil
  simpa using this

theorem key_text {m s} (h : Sayable.string s) : Text m (.key s) (quote s) := by
  have := Text.key (m := m) (a := []) (b := []) white_nil (.double (escape_escaped h)) white_nil
  simpa [quote] using this

mutual
theorem print_text {m : Expr.Machine} {num : Dbl → Str} (j : Json) (h : Sayable m num j) : Text m (.bare j) (print num j) := by
  match j, h with
  | .null, _ => exact .null
  | .bool true, _ => exact .true
  | .bool false, _ => exact .false
  | .num d, h => rw [print]; exact .number (by simpa [Sayable] using h)
  | .str s, h => exact quote_text (by simpa [Sayable] using h)
  | .pat p, h => exact .pattern (by simpa [Sayable] using h)
  | .arr l, h =>
    have ih := elements_text l h
    match l with
    | [] => exact .emptyArray white_nil
    | j :: l => exact .array (ih (by simp))
  | .obj l, h =>
    have ih := members_text l h
    match l with
    | [] => exact .emptyObject white_nil
    | p :: l => exact .object (ih (by simp))
theorem elements_text {m : Expr.Machine} {num : Dbl → Str} (l : List Json) (h : Sayable.all m num l) (hne : l ≠ []) :
    Text m (.elements l) (printAll num l) := by
  match l, h, hne with
  | j :: l, h, _ =>
    have h1 := print_text j h.1
    have h2 := elements_text l h.2
    match l with
    | [] => exact .element (bare_value h1)
    | j' :: l => exact .elements (bare_value h1) (h2 (by simp))
theorem members_text {m : Expr.Machine} {num : Dbl → Str} (l : List (Str × Json)) (h : Sayable.members m num l) (hne : l ≠ []) :
    Text m (.members l) (printMembers num l) := by
  match l, h, hne with
  | (k, j) :: l, h, _ =>
    have h1 := print_text j h.2.1
    have h2 := members_text l h.2.2
    match l with
    | [] => exact .member (key_text h.1) (bare_value h1)
    | p' :: l => exact .members (key_text h.1) (bare_value h1) (h2 (by simp))
end

/-- C14.  A value that is written down, and read, is restored. -/
theorem C14_round_trip (m : Expr.Machine) (num : Dbl → Str) (j : Json) (h : Sayable m num j) : tree m (print num j) = .ok j [] :=
  C14_restore m (bare_value (print_text j h))

/-! ### What goes wrong -/

/-- C14 does not extend to all strings: a backslash and an `n`, escaped as JSON demands, is read as a backslash and
a new line. -/
theorem C14_backslash_misread (m : Expr.Machine) : tree m "\"\\\\n\"".toList = .ok (.str ['\\', '\n']) [] := by
  have hl : lex "\"\\\\n\"".toList = ["\"\\\\n\"".toList] := by decide
  rw [tree, hl, C14_parse]
  refine .inr (.scalar (by decide) (.string (by decide) (quote_no_value m (.inl rfl) _) ?_))
  exact .quoted (q := '"') (e := ['\\', '\\', 'n']) (.inl rfl)
    ⟨['\\', '\n'], .other (by intro _ x hx; simp at hx; subst hx; decide) (.escape (x := 'n') (by decide) .nil), .other (by simp) (.other (by simp) .nil)⟩

/-- A text of one quote makes the parser throw. -/
theorem C14_quote_crashes (m : Expr.Machine) : tree m ['"'] = .crash := by
  have hl : lex ['"'] = [['"']] := by decide
  have hv : Expr.evaluate m ['"'] = none := quote_no_value m (.inl rfl) []
  rw [tree, hl, readAll]
  simp only [List.length_singleton, read, readScalar, hv]
  rfl

/-! ### Cases -/

/-- A machine for the examples. -/
def someMachine : Expr.Machine := { fl := fun q => .fin q, apply := fun _ _ => .nan }

/-- ` { "a" : [ 1e2, null ] , 'b\t' : {} }` -/
example (m : Expr.Machine) : tree m " { \"a\" : [ 15, null ] , 'b\\t' : {} }".toList =
    .ok (.obj [("a".toList, .arr [.num (m.fl (((15 : Nat) : Rat) * (10 : Rat) ^ ((0 : Int) - ((0 : Nat) : Int)))), .null]), ("b\t".toList, .obj [])]) [] := by
  apply C14_restore
  have sp : White [' '] := by intro c hc; simp at hc; exact .inl hc
  have n15 : Numeral m "15".toList (m.fl (((15 : Nat) : Rat) * (10 : Rat) ^ ((0 : Int) - ((0 : Nat) : Int)))) :=
    .plain (.decimal (s := "15".toList) (x := []) (n := 15) (k := 0) (.whole (by decide) (by decide)) .none)
  have e1 : Text m (.elements [.num (m.fl (((15 : Nat) : Rat) * (10 : Rat) ^ ((0 : Int) - ((0 : Nat) : Int)))), .null]) " 15, null ".toList :=
    .elements (s := " 15".toList) (.value (a := [' ']) (b := []) sp (.number n15) white_nil)
      (.element (.value (a := [' ']) (b := [' ']) sp .null sp))
  have k1 : Text m (.key "a".toList) " \"a\" ".toList :=
    .key (a := [' ']) (b := [' ']) sp (.double (.plain (by decide) (by decide) .nil)) sp
  have k2 : Text m (.key "b\t".toList) " 'b\\t' ".toList :=
    .key (a := [' ']) (b := [' ']) sp (.single (.plain (by decide) (by decide) (.escape (x := 't') (by decide) .nil))) sp
  have v1 := Text.value (a := [' ']) (b := [' ']) sp (.array e1) sp
  have v2 : Text m (.value (.obj [])) " {} ".toList := .value (a := [' ']) (b := [' ']) sp (.emptyObject (a := []) white_nil) sp
  exact .value (a := [' ']) (b := []) sp (.object (.members k1 v1 (.member k2 v2))) white_nil

/-- Not well formed. -/
example (m : Expr.Machine) : tree m "[null".toList = .illformed := by
  have hl : lex "[null".toList = [['['], "null".toList] := by decide
  rw [tree, hl, readAll]
  rfl

example (m : Expr.Machine) (num : Dbl → Str) : Sayable m num (.obj [("a\\\n".toList, .arr [.null, .bool true, .str "x\"y".toList, .pat "a.*".toList]), ([], .obj [])]) := by
  simp only [Sayable, Sayable.members, Sayable.all]
  refine ⟨?_, ⟨trivial, trivial, ?_, by decide, trivial⟩, ?_, trivial, trivial⟩ <;>
  · intro a b c h
    match a, h with
    | [], h => simp at h <;> (obtain ⟨rfl, -⟩ := h; decide)
    | [_], h => simp at h <;> (obtain ⟨-, rfl, -⟩ := h; decide)
    | [_, _], h => simp at h
    | _ :: _ :: _ :: _, h => simp at h

end H2.Json
