import Verif.Json.SyntaxSound
namespace H2.Json

/-- The text ends, or a structural character follows. -/
def Ends (s : Str) : Prop := ∀ c ∈ s.head?, isPunct c = true

theorem white_space {c} (h : c = ' ' ∨ c = '\t' ∨ c = '\n' ∨ c = '\r') : isSpace c = true := by
  rcases h with rfl | rfl | rfl | rfl <;> decide

theorem lex_white {b : Str} (hb : White b) (s : Str) : lex (b ++ s) = lex s := by
  induction b with
  | nil => rfl
  | cons c b ih =>
    have hc := white_space (hb c (by simp))
    rw [← ih (fun d hd => hb d (by simp [hd])), C13_tokens]
    exact .space hc ((C13_tokens _ _).1 rfl)

theorem lex_punct {c} (hc : isPunct c = true) (s : Str) : lex (c :: s) = [c] :: lex s := by
  rw [C13_tokens]
  exact .punct hc ((C13_tokens _ _).1 rfl)

theorem lex_nil : lex [] = [] := rfl

theorem space_not_punct {c} (h : isSpace c = true) : isPunct c = false := by
  cases hp : isPunct c with
  | false => rfl
  | true => rw [punct_not_space hp] at h; cases h

theorem body_plain {stop : Char → Bool} {w : Str} (h : ∀ c ∈ w, stop c = false ∧ c ≠ '\\') : Body stop w := by
  induction w with
  | nil => exact .nil
  | cons c w ih => exact .char (h c (by simp)).2 (h c (by simp)).1 (ih fun d hd => h d (by simp [hd]))

theorem lex_word {w b r : Str} (hw : Word w) (hb : White b) (hr : Ends r) : lex (w ++ (b ++ r)) = w :: lex r := by
  obtain ⟨hne, hall, hhead, hlast⟩ := hw
  have hbegin : ∃ c' w', w ++ b = c' :: w' ∧ Begins c' := by
    cases w with
    | nil => exact absurd rfl hne
    | cons c w =>
      have h1 := hhead c rfl
      exact ⟨c, w ++ b, rfl, h1.1, (hall c (by simp)).1, h1.2.1, h1.2.2.1, h1.2.2.2⟩
  have hbody : Body isPunct (w ++ b) := by
    apply body_plain
    intro c hc
    rcases List.mem_append.1 hc with hc | hc
    · exact hall c hc
    · have := hb c hc
      exact ⟨space_not_punct (white_space this), by rintro rfl; revert this; decide⟩
  have hstrip : Stripped (w ++ b) w := by
    refine ⟨[], b, rfl, ?_, fun c hc => (hhead c hc).1, hlast⟩
    intro c hc
    exact white_space (hb c (by simpa using hc))
  rw [← List.append_assoc]
  cases r with
  | nil =>
    rw [C13_tokens, List.append_nil]
    exact .lastWord hbegin (.body hbody) hstrip
  | cons c r =>
    have hc := hr c rfl
    rw [lex_punct hc, C13_tokens]
    exact .word hbegin hbody hc hstrip ((C13_tokens _ _).1 rfl)

theorem lex_quoted {q : Char} {e : Str} (hq : q = '"' ∨ q = '\'') (he : Body (· == q) e) (s : Str) :
    lex ((q :: e ++ [q]) ++ s) = (q :: e ++ [q]) :: lex s := by
  rw [C13_tokens]
  have : (q :: e ++ [q]) ++ s = q :: e ++ q :: s := by simp
  rw [this]
  exact .quoted hq he ((C13_tokens _ _).1 rfl)

theorem lex_pattern {p : Str} (hp : '/' ∉ p) (s : Str) :
    lex (('/' :: p ++ ['/']) ++ s) = ('/' :: p ++ ['/']) :: lex s := by
  rw [C13_tokens]
  have : ('/' :: p ++ ['/']) ++ s = '/' :: p ++ '/' :: s := by simp
  rw [this]
  exact .pattern hp ((C13_tokens _ _).1 rfl)

theorem escaped_body {q t e} (h : Escaped q t e) : Body (· == q) e := by
  induction h with
  | nil => exact .nil
  | plain h1 h2 _ ih => exact .char h2 (by simpa using h1) ih
  | escape _ _ ih => exact .escaped ih
  | backslash _ _ ih => exact .escaped ih

theorem quoted_split {t s} (h : Quoted t s) : ∃ q e, (q = '"' ∨ q = '\'') ∧ s = q :: e ++ [q] ∧ Body (· == q) e ∧ Means e t := by
  cases h with
  | double h => exact ⟨_, _, .inl rfl, rfl, escaped_body h, escaped_means h⟩
  | single h => exact ⟨_, _, .inr rfl, rfl, escaped_body h, escaped_means h⟩

/-- Letters, digits and signs: what numbers are made of. -/
def numeric (c : Char) : Prop := c ∈ "0123456789abcdefABCDEFpPxX.+-".toList

instance : DecidablePred numeric := fun c => inferInstanceAs (Decidable (c ∈ "0123456789abcdefABCDEFpPxX.+-".toList))

theorem numeric_hex {c} (h : Expr.isHex c = true) : numeric c := by
  simp only [Expr.isHex, List.contains_iff_mem] at h
  have : ∀ c ∈ "0123456789abcdefABCDEF".toList, numeric c := by decide
  exact this c h

theorem numeric_digits {base isD s n k} (hD : ∀ c, isD c = true → Expr.isHex c = true) (h : Expr.Digits base isD s n k) : ∀ c ∈ s, numeric c := by
  cases h with
  | whole _ h => exact fun c hc => numeric_hex (hD c (h c hc))
  | point _ h1 h2 =>
    intro c hc
    simp only [List.mem_append, List.mem_cons] at hc
    rcases hc with hc | rfl | hc
    · exact numeric_hex (hD c (h1 c hc))
    · decide
    · exact numeric_hex (hD c (h2 c hc))

theorem numeric_exponent {l x e} (hl : ∀ c ∈ l, numeric c) (h : Expr.Exponent l x e) : ∀ c ∈ x, numeric c := by
  have hd : ∀ c, Expr.isDecimal c = true → numeric c := fun c hc => numeric_hex (Expr.hex_of_dec hc)
  cases h with
  | none => simp
  | plain h1 _ h2 =>
    intro c hc
    rcases List.mem_cons.1 hc with rfl | hc
    · exact hl _ h1
    · exact hd _ (h2 _ hc)
  | plus h1 _ h2 =>
    intro c hc
    rcases List.mem_cons.1 hc with rfl | hc
    · exact hl _ h1
    rcases List.mem_cons.1 hc with rfl | hc
    · decide
    · exact hd _ (h2 _ hc)
  | minus h1 _ h2 =>
    intro c hc
    rcases List.mem_cons.1 hc with rfl | hc
    · exact hl _ h1
    rcases List.mem_cons.1 hc with rfl | hc
    · decide
    · exact hd _ (h2 _ hc)

theorem numeric_literal {s q} (h : Expr.Literal s q) : ∀ c ∈ s, numeric c := by
  cases h with
  | decimal h1 h2 =>
    intro c hc
    rcases List.mem_append.1 hc with hc | hc
    · exact numeric_digits (fun _ => Expr.hex_of_dec) h1 c hc
    · exact numeric_exponent (by decide) h2 c hc
  | hexadecimal hx h1 h2 =>
    intro c hc
    simp only [List.cons_append, List.mem_cons, List.mem_append] at hc
    rcases hc with rfl | rfl | hc | hc
    · decide
    · rcases hx with rfl | rfl <;> decide
    · exact numeric_digits (fun _ h => h) h1 c hc
    · exact numeric_exponent (by decide) h2 c hc

theorem numeric_not {c} (h : numeric c) : isPunct c = false ∧ isSpace c = false ∧ c ≠ '"' ∧ c ≠ '\'' ∧ c ≠ '/' ∧ c ≠ '\\' := by
  revert h
  simp only [numeric]
  have : ∀ c ∈ "0123456789abcdefABCDEFpPxX.+-".toList, isPunct c = false ∧ isSpace c = false ∧ c ≠ '"' ∧ c ≠ '\'' ∧ c ≠ '/' ∧ c ≠ '\\' := by decide
  exact this c

theorem literal_writes {q : Rat} : Expr.Writes .products [.num q] [.num q] :=
  .product (.power (by have := Expr.Writes.signed (signs := []) (by simp) (.postfix (.atom (.num q))); simpa [Expr.odd] using this))

theorem numeral_eval {m s d} (h : Numeral m s d) : Expr.evaluate m s = some d := by
  rw [Expr.C16_value]
  have hn : Expr.NumberEnds [] := ⟨by intro c hc; simp at hc, by simp⟩
  cases h with
  | @plain s q h =>
    refine ⟨[.num q], .num q, ?_, .single (.sum literal_writes), rfl⟩
    have := Expr.Spells.number h hn .nil
    simpa using this
  | @minus s q h =>
    refine ⟨[.minus, .num q], .neg (.num q), .operator (by decide) ?_, ?_, rfl⟩
    · have := Expr.Spells.number h hn .nil
      simpa using this
    · exact .single (.sum (.product (.power (by have := Expr.Writes.signed (signs := [.minus]) (by simp) (.postfix (.atom (.num q))); simpa [Expr.odd] using this))))

theorem numeral_word {m s d} (h : Numeral m s d) : Word s ∧ s.all (fun c => "0123456789abcdefABCDEFpPxX.+-".toList.contains c) = true ∧
    ∃ c r, s = c :: r ∧ "0123456789.-".toList.contains c = true := by
  have key : (∀ c ∈ s, numeric c) ∧ ∃ c r, s = c :: r ∧ "0123456789.-".toList.contains c = true := by
    cases h with
    | @plain s q h =>
      refine ⟨numeric_literal h, ?_⟩
      obtain ⟨c, r, rfl, hc⟩ := Expr.literal_head h
      refine ⟨c, r, rfl, ?_⟩
      rw [Expr.digit_eq] at hc
      revert hc
      simp [Expr.isDecimal]
      grind
    | @minus s q h =>
      refine ⟨?_, _, _, rfl, by decide⟩
      intro c hc
      rcases List.mem_cons.1 hc with rfl | hc
      · decide
      · exact numeric_literal h c hc
  obtain ⟨h1, c, r, rfl, hc⟩ := key
  refine ⟨⟨by simp, fun d hd => ⟨(numeric_not (h1 d hd)).1, (numeric_not (h1 d hd)).2.2.2.2.2⟩, ?_, ?_⟩, ?_, c, r, rfl, hc⟩
  · intro d hd
    simp at hd; subst hd
    have := numeric_not (h1 c (by simp))
    exact ⟨this.2.1, this.2.2.1, this.2.2.2.1, this.2.2.2.2.1⟩
  · intro d hd
    exact (numeric_not (h1 d (List.mem_of_getLast? hd))).2.1
  · rw [List.all_eq_true]
    intro d hd
    rw [List.contains_iff_mem]
    exact h1 d hd

theorem not_numeric {m : Expr.Machine} {c s d} (h : Numeral m (c :: s) d) : "0123456789.-".toList.contains c = true := by
  obtain ⟨-, -, c', r, he, hc⟩ := numeral_word h
  injection he with h1 h2
  rw [h1]; exact hc

/-- A quote does not begin an expression. -/
theorem quote_no_value (m : Expr.Machine) {q : Char} (hq : q = '"' ∨ q = '\'') (s : Str) : Expr.evaluate m (q :: s) = none := by
  cases h : Expr.evaluate m (q :: s) with
  | none => rfl
  | some d =>
    exfalso
    obtain ⟨ss, e, hs, hw, -⟩ := (Expr.C16_value _ _ _).1 h
    generalize he : q :: s = t at hs
    cases hs with
    | nil => cases he
    | blank hb _ => injection he with h1; subst h1; revert hb; rcases hq with rfl | rfl <;> decide
    | operator ho _ => injection he with h1; subst h1; revert ho; rcases hq with rfl | rfl <;> simp [Expr.operator]
    | number hl _ _ =>
      obtain ⟨c, r, rfl, hc⟩ := Expr.literal_head hl
      injection he with h1; subst h1; revert hc; rcases hq with rfl | rfl <;> decide
    | @name w k f s' ss' hd _ _ =>
      have : w.toList.head? ≠ some q := by
        revert hd
        simp only [Expr.documented, List.mem_cons, Prod.mk.injEq, List.not_mem_nil, or_false]
        intro hd
        repeat' rcases hd with ⟨rfl, -⟩ | hd
        all_goals first | (rcases hq with rfl | rfl <;> decide) | (obtain ⟨rfl, -⟩ := hd; rcases hq with rfl | rfl <;> decide)
      have hne : w.toList ≠ [] := by
        revert hd
        simp only [Expr.documented, List.mem_cons, Prod.mk.injEq, List.not_mem_nil, or_false]
        intro hd
        repeat' rcases hd with ⟨rfl, -⟩ | hd
        all_goals first | decide | (obtain ⟨rfl, -⟩ := hd; decide)
      cases hw : w.toList with
      | nil => exact hne hw
      | cons c r => rw [hw] at he this; injection he with h1; subst h1; simp at this

end H2.Json
