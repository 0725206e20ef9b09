import Verif.Json.ExprSound
import Verif.Json.LexProps
/-
Lemmas about the tokens of arithmetic.
-/
namespace H2.Json.Expr
open H2.Json

/-! ### Characters -/

theorem contains_nat (l : Str) (c : Char) : l.contains c = (l.map Char.toNat).contains c.toNat := by
  induction l with
  | nil => rfl
  | cons a l ih =>
    rw [List.map_cons, List.contains_cons, List.contains_cons, ih]
    congr 1
    rw [Bool.eq_iff_iff, beq_iff_eq, beq_iff_eq, Char.toNat_inj]

theorem digit_eq : digit = isDecimal := by
  funext c
  rw [Bool.eq_iff_iff, isDecimal, contains_nat]
  have : ("0123456789".toList.map Char.toNat) = [48, 49, 50, 51, 52, 53, 54, 55, 56, 57] := rfl
  rw [this]
  simp only [digit, Char.reduceToNat, Bool.and_eq_true, decide_eq_true_eq, List.contains_cons, List.contains_nil, Bool.or_eq_true,
    beq_iff_eq, Bool.or_false]
  omega

theorem alpha_eq : alpha = isLetter := by
  funext c
  rw [Bool.eq_iff_iff, isLetter, contains_nat]
  have : ("abcdefghijklmnopqrstuvwxyzABCDEFGHIJKLMNOPQRSTUVWXYZ".toList.map Char.toNat) =
    [97, 98, 99, 100, 101, 102, 103, 104, 105, 106, 107, 108, 109, 110, 111, 112, 113, 114, 115, 116, 117, 118, 119, 120, 121, 122,
     65, 66, 67, 68, 69, 70, 71, 72, 73, 74, 75, 76, 77, 78, 79, 80, 81, 82, 83, 84, 85, 86, 87, 88, 89, 90] := rfl
  rw [this]
  simp only [alpha, Char.reduceToNat, Bool.and_eq_true, decide_eq_true_eq, List.contains_cons, List.contains_nil, Bool.or_eq_true,
    beq_iff_eq, Bool.or_false]
  omega

theorem hexDigit_eq : hexDigit = isHex := by
  funext c
  rw [Bool.eq_iff_iff, isHex, contains_nat]
  have : ("0123456789abcdefABCDEF".toList.map Char.toNat) =
    [48, 49, 50, 51, 52, 53, 54, 55, 56, 57, 97, 98, 99, 100, 101, 102, 65, 66, 67, 68, 69, 70] := rfl
  rw [this]
  simp only [hexDigit, digit, Char.reduceToNat, Bool.and_eq_true, decide_eq_true_eq, List.contains_cons, List.contains_nil, Bool.or_eq_true,
    beq_iff_eq, Bool.or_false]
  omega

theorem hexValue_eq {c} (h : isHex c = true) : hexValue c = digitValue c := by
  have : ∀ c ∈ "0123456789abcdefABCDEF".toList, hexValue c = digitValue c := by decide
  exact this c (by simpa [isHex] using h)

theorem hex_of_dec {c} (h : isDecimal c = true) : isHex c = true := by
  have : ∀ c ∈ "0123456789".toList, isHex c = true := by decide
  exact this c (by simpa [isDecimal] using h)

theorem natOf_eq (base) (ds : Str) (h : ∀ d ∈ ds, isHex d = true) : natOf base ds = number base ds 0 := by
  unfold natOf
  generalize 0 = n
  induction ds generalizing n with
  | nil => rfl
  | cons d ds ih =>
    rw [List.foldl_cons, number, ih (fun x hx => h x (List.mem_cons_of_mem _ hx)),
      hexValue_eq (h d (List.mem_cons_self ..))]

/-! ### Spans -/

theorem span_eq {p : Char → Bool} {l r : Str} (h : ∀ c ∈ l, p c = true) (hr : ∀ c ∈ r.head?, p c = false) :
    (l ++ r).takeWhile p = l ∧ (l ++ r).dropWhile p = r := by
  rw [List.takeWhile_append_of_pos h, List.dropWhile_append_of_pos h]
  cases r with
  | nil => simp
  | cons c r =>
    have := hr c rfl
    simp [this]

theorem span_split (p : Char → Bool) (s : Str) : s = s.takeWhile p ++ s.dropWhile p ∧
    (∀ c ∈ s.takeWhile p, p c = true) ∧ ∀ c ∈ (s.dropWhile p).head?, p c = false := by
  obtain ⟨a, h1, h2, h3⟩ := dropWhile_split p s
  have := (span_eq h2 h3).1
  rw [← h1] at this
  rw [this]
  exact ⟨h1, h2, h3⟩

/-! ### Mantissas -/

theorem mantissa_point {isD : Char → Bool} {ds fs r : Str} (hne : ds ≠ [] ∨ fs ≠ []) (hd : ∀ d ∈ ds, isD d = true)
    (hf : ∀ d ∈ fs, isD d = true) (hr : ∀ c ∈ r.head?, isD c = false) (hdot : isD '.' = false) :
    mantissa isD (ds ++ '.' :: fs ++ r) = some (ds, fs, r) := by
  have h1 := span_eq (r := '.' :: fs ++ r) hd (by simpa using hdot)
  have h2 := span_eq (r := r) hf hr
  rw [List.append_assoc]
  unfold mantissa
  rw [h1.1, h1.2]
  simp only [List.cons_append, h2.1, h2.2]
  rw [if_neg (by simp; intro h; exact hne.resolve_left (by simp [h]))]

theorem mantissa_whole {isD : Char → Bool} {ds r : Str} (hne : ds ≠ []) (hd : ∀ d ∈ ds, isD d = true)
    (hr : ∀ c ∈ r.head?, isD c = false) (hdot : r.head? ≠ some '.') :
    mantissa isD (ds ++ r) = some (ds, [], r) := by
  have h1 := span_eq hd hr
  unfold mantissa
  rw [h1.1, h1.2]
  split
  · simp at hdot
  · simp [hne]

theorem mantissa_inv {isD : Char → Bool} {s ds fs r : Str} (h : mantissa isD s = some (ds, fs, r)) :
    (∀ d ∈ ds, isD d = true) ∧ (∀ d ∈ fs, isD d = true) ∧
    ((s = ds ++ r ∧ fs = [] ∧ ds ≠ []) ∨ (s = ds ++ '.' :: fs ++ r ∧ (ds ≠ [] ∨ fs ≠ []))) := by
  obtain ⟨h1, h2, h3⟩ := span_split isD s
  unfold mantissa at h
  split at h
  · next r' hr' =>
    obtain ⟨k1, k2, k3⟩ := span_split isD r'
    split at h
    · cases h
    · next hne =>
      simp only [Option.some.injEq, Prod.mk.injEq] at h
      obtain ⟨rfl, rfl, rfl⟩ := h
      refine ⟨h2, k2, Or.inr ⟨?_, ?_⟩⟩
      · rw [List.append_assoc, List.cons_append, ← k1, ← hr']; exact h1
      · by_cases h : s.takeWhile isD = []
        · exact Or.inr fun h' => hne ⟨h, h'⟩
        · exact Or.inl h
  · split at h
    · cases h
    · next hne =>
      simp only [Option.some.injEq, Prod.mk.injEq] at h
      obtain ⟨rfl, rfl, rfl⟩ := h
      exact ⟨h2, by simp, Or.inl ⟨h1, rfl, hne⟩⟩

/-! ### Exponents -/

theorem exponent_none {l : List Char} {s : Str} (h : ∀ c ∈ s.head?, c ∉ l) : exponent l s = (0, s) := by
  unfold exponent
  cases s with
  | nil => rfl
  | cons c r => simp [h c rfl]

theorem signOf_digits {ds r : Str} (hne : ds ≠ []) (hd : ∀ d ∈ ds, isDecimal d = true) : signOf (ds ++ r) = (false, ds ++ r) := by
  rcases ds with _ | ⟨d, ds⟩
  · exact absurd rfl hne
  · have := hd d (List.mem_cons_self ..)
    rw [List.cons_append]
    unfold signOf
    split
    · next h => injection h with h; subst h; simp [isDecimal] at this
    · next h => injection h with h; subst h; simp [isDecimal] at this
    · rfl

theorem exponent_some {l : List Char} {x : Str} {e : Int} {s : Str} (hx : Exponent l x e) (hs : ∀ c ∈ s.head?, isDecimal c = false)
    (hl : ∀ c ∈ s.head?, c ∉ l) : exponent l (x ++ s) = (e, s) := by
  have key : ∀ {c : Char} {r : Str} {neg : Bool} {ds : Str}, c ∈ l → ds ≠ [] → (∀ d ∈ ds, isDecimal d = true) →
      signOf r = (neg, ds ++ s) → exponent l (c :: r) = (if neg then -(number 10 ds 0 : Int) else (number 10 ds 0 : Int), s) := by
    intro c r neg ds hc hne hd hr
    have h1 := span_eq (p := digit) (r := s) (by rw [digit_eq]; exact hd) (by rw [digit_eq]; exact hs)
    simp only [exponent, if_pos hc, hr, h1.1, h1.2, if_neg hne,
      natOf_eq 10 ds fun d h => hex_of_dec (hd d h)]
  cases hx with
  | none => exact exponent_none hl
  | plain hc hne hd => simpa using key hc hne hd (signOf_digits hne hd)
  | plus hc hne hd => simpa using key (neg := false) hc hne hd rfl
  | minus hc hne hd => simpa using key (neg := true) hc hne hd rfl

theorem exponent_inv (l : List Char) (s : Str) : ∃ x, s = x ++ (exponent l s).2 ∧ Exponent l x (exponent l s).1 := by
  unfold exponent
  split
  · next c r =>
    split
    · next hc =>
      split
      · exact ⟨[], rfl, .none⟩
      · next hne =>
        obtain ⟨h1, h2, h3⟩ := span_split digit (signOf r).2
        rw [digit_eq] at *
        have hn : natOf 10 ((signOf r).2.takeWhile isDecimal) = number 10 ((signOf r).2.takeWhile isDecimal) 0 :=
          natOf_eq 10 _ fun d h => hex_of_dec (h2 d h)
        rw [hn]
        revert hne h1 h2
        unfold signOf
        split
        · intro hne h1 h2
          refine ⟨c :: '-' :: _, ?_, .minus hc hne h2⟩
          simpa using h1
        · intro hne h1 h2
          refine ⟨c :: '+' :: _, ?_, .plus hc hne h2⟩
          simpa using h1
        · intro hne h1 h2
          refine ⟨c :: _, ?_, .plain hc hne h2⟩
          simpa using h1
    · exact ⟨[], rfl, .none⟩
  · exact ⟨[], rfl, .none⟩

/-! ### Literals -/

theorem ends_letter {s : Str} (h : NumberEnds s) {c} (hc : c ∈ s.head?) : isLetter c = false ∧ isDecimal c = false ∧ c ≠ '.' :=
  ⟨(h.1 c hc).2.1, (h.1 c hc).1, fun he => h.2 (by rw [← he]; exact hc)⟩

theorem hex_letter {c} (h : isHex c = true) : isDecimal c = true ∨ isLetter c = true := by
  have : ∀ c ∈ "0123456789abcdefABCDEF".toList, isDecimal c = true ∨ isLetter c = true := by decide
  exact this c (by simpa [isHex] using h)

theorem ends_hex {s : Str} (h : NumberEnds s) {c} (hc : c ∈ s.head?) : isHex c = false := by
  obtain ⟨h1, h2, _⟩ := ends_letter h hc
  rw [Bool.eq_false_iff]
  intro h
  rcases hex_letter h with h | h
  · rw [h2] at h; cases h
  · rw [h1] at h; cases h

/-- What follows the digits of a literal. -/
theorem after_digits {l : List Char} {x : Str} {e : Int} {s : Str} (hx : Exponent l x e) (hs : NumberEnds s) :
    ∀ c ∈ (x ++ s).head?, c ∈ l ∨ c ∈ s.head? := by
  intro c hc
  cases hx <;> simp at hc <;> first | exact Or.inr hc | (subst hc; exact Or.inl (by assumption))

theorem digits_mantissa {base isD cD s n k r} (hDD : cD = isD) (h : Digits base isD s n k) (hhex : ∀ c, isD c = true → isHex c = true)
    (hr : ∀ c ∈ r.head?, isD c = false ∧ c ≠ '.') (hdot : isD '.' = false) :
    ∃ ds fs, mantissa cD (s ++ r) = some (ds, fs, r) ∧ natOf base (ds ++ fs) = n ∧ fs.length = k := by
  subst hDD
  cases h with
  | @whole ds hne hd =>
    refine ⟨s, [], mantissa_whole hne hd (fun c hc => (hr c hc).1) ?_, ?_, rfl⟩
    · intro h; exact (hr '.' h).2 rfl
    · rw [List.append_nil]; exact natOf_eq base s fun d h => hhex d (hd d h)
  | @point ds fs hne hd hf =>
    refine ⟨ds, fs, mantissa_point hne hd hf (fun c hc => (hr c hc).1) hdot, ?_, rfl⟩
    refine natOf_eq base _ fun d h => ?_
    rcases List.mem_append.1 h with h | h
    · exact hhex d (hd d h)
    · exact hhex d (hf d h)

theorem mantissa_digits {base isD cD s ds fs r} (hDD : cD = isD) (h : mantissa cD s = some (ds, fs, r)) (hhex : ∀ c, isD c = true → isHex c = true) :
    ∃ l, s = l ++ r ∧ Digits base isD l (natOf base (ds ++ fs)) fs.length := by
  subst hDD
  obtain ⟨h1, h2, h3⟩ := mantissa_inv h
  have hn : natOf base (ds ++ fs) = number base (ds ++ fs) 0 := natOf_eq base _ fun d h => by
    rcases List.mem_append.1 h with h | h
    · exact hhex d (h1 d h)
    · exact hhex d (h2 d h)
  rw [hn]
  rcases h3 with ⟨rfl, rfl, hne⟩ | ⟨rfl, hne⟩
  · exact ⟨ds, rfl, by simpa using Digits.whole (base := base) hne h1⟩
  · exact ⟨ds ++ '.' :: fs, by simp, .point hne h1 h2⟩

theorem decNumber_literal {l q s} (h : Literal l q) (hs : NumberEnds s) (hx : hexPrefix (l ++ s) = none) :
    decNumber (l ++ s) = some (q, s) := by
  cases h with
  | @decimal s' n k x e hd hx' =>
    obtain ⟨ds, fs, h1, h2, h3⟩ := digits_mantissa (r := x ++ s) digit_eq hd (fun c => hex_of_dec) (by
      intro c hc
      rcases after_digits hx' hs c hc with h | h
      · revert c; intro c hc h; simp at h; rcases h with rfl | rfl <;> decide
      · exact (ends_letter hs h).2) (by decide)
    have h4 := exponent_some (s := s) hx' (fun c hc => (ends_letter hs hc).2.1) (fun c hc hm => by
      have := (ends_letter hs hc).1
      simp at hm; rcases hm with rfl | rfl <;> simp [isLetter] at this)
    rw [List.append_assoc, decNumber, h1]
    simp only [Option.map_some, h4, h2, h3]
  | @hexadecimal c s' n k x e hc hd hx' =>
    rcases hc with rfl | rfl <;> simp [hexPrefix] at hx

theorem digits_ne {base isD s n k} (h : Digits base isD s n k) : s ≠ [] := by
  cases h with
  | whole h => exact h
  | point => simp

theorem strtod_literal {l q s} (h : Literal l q) (hs : NumberEnds s) : strtod (l ++ s) = some (q, s) := by
  cases h' : hexPrefix (l ++ s) with
  | none => rw [strtod, h', Option.bind_none]; exact decNumber_literal h hs h'
  | some r =>
    cases h with
    | @decimal s' n k x e hd hx' =>
      exfalso
      have h2 : ∃ c, (c = 'x' ∨ c = 'X') ∧ s' ++ x ++ s = '0' :: c :: r := by
        revert h'
        unfold hexPrefix
        split
        · next h => intro h'; injection h' with h'; subst h'; exact ⟨_, Or.inl rfl, h⟩
        · next h => intro h'; injection h' with h'; subst h'; exact ⟨_, Or.inr rfl, h⟩
        · intro h'; cases h'
      obtain ⟨c, hc, h2⟩ := h2
      /- the second character is no `x` -/
      have hbad : isDecimal c = false ∧ c ≠ '.' ∧ c ≠ 'e' ∧ c ≠ 'E' ∧ isLetter c = true := by
        rcases hc with rfl | rfl <;> decide
      have hnext : ∀ d, isDecimal d = true ∨ d = '.' ∨ d ∈ ['e', 'E'] ∨ d ∈ s.head? → d ≠ c := by
        intro d hd he
        subst he
        rcases hd with h | h | h | h
        · rw [hbad.1] at h; cases h
        · exact hbad.2.1 h
        · simp at h; exact h.elim hbad.2.2.1 hbad.2.2.2.1
        · have := (ends_letter hs h).1; rw [hbad.2.2.2.2] at this; cases this
      have hafter : ∀ d r, x ++ s = d :: r → d ≠ c := by
        intro d r he
        refine hnext d ?_
        rcases after_digits hx' hs d (by rw [he]; rfl) with h | h
        · exact Or.inr (Or.inr (Or.inl h))
        · exact Or.inr (Or.inr (Or.inr h))
      cases hd with
      | whole hne hd =>
        rcases s' with _ | ⟨d, s'⟩
        · exact hne rfl
        · rcases s' with _ | ⟨d', s'⟩
          · simp only [List.cons_append, List.nil_append, List.cons.injEq] at h2
            exact hafter c r h2.2 rfl
          · simp only [List.cons_append, List.cons.injEq] at h2
            exact hnext d' (Or.inl (hd d' (by simp))) h2.2.1
      | @point ds fs hne hd hf =>
        rcases ds with _ | ⟨d, ds⟩
        · simp at h2
        · rcases ds with _ | ⟨d', ds⟩
          · simp only [List.cons_append, List.nil_append, List.cons.injEq] at h2
            exact hnext '.' (Or.inr (Or.inl rfl)) h2.2.1
          · simp only [List.cons_append, List.cons.injEq] at h2
            exact hnext d' (Or.inl (hd d' (by simp))) h2.2.1
    | @hexadecimal c s' n k x e hc hd hx' =>
      have hr : r = s' ++ (x ++ s) := by
        rcases hc with rfl | rfl <;> (simp [hexPrefix] at h'; exact h'.symm)
      obtain ⟨ds, fs, h1, h2, h3⟩ := digits_mantissa (r := x ++ s) hexDigit_eq hd (fun c => id) (by
        intro c hc
        rcases after_digits hx' hs c hc with h | h
        · simp at h; rcases h with rfl | rfl <;> decide
        · exact ⟨ends_hex hs h, (ends_letter hs h).2.2⟩) (by decide)
      have h4 := exponent_some (s := s) hx' (fun c hc => (ends_letter hs hc).2.1) (fun c hc hm => by
        have := (ends_letter hs hc).1
        simp at hm; rcases hm with rfl | rfl <;> simp [isLetter] at this)
      rw [strtod, h', Option.bind_some, hr, hexNumber, h1]
      simp only [Option.map_some, h4, h2, h3]

theorem strtod_inv {s q r} (h : strtod s = some (q, r)) : ∃ l, s = l ++ r ∧ Literal l q := by
  have dec : ∀ {s q r}, decNumber s = some (q, r) → ∃ l, s = l ++ r ∧ Literal l q := by
    intro s q r h
    unfold decNumber at h
    cases hm : mantissa digit s with
    | none => rw [hm] at h; cases h
    | some v =>
      obtain ⟨ds, fs, r'⟩ := v
      rw [hm] at h
      simp only [Option.map_some, Option.some.injEq, Prod.mk.injEq] at h
      obtain ⟨rfl, rfl⟩ := h
      obtain ⟨l, h1, h2⟩ := mantissa_digits (base := 10) digit_eq hm (fun c => hex_of_dec)
      obtain ⟨x, h3, h4⟩ := exponent_inv ['e', 'E'] r'
      exact ⟨l ++ x, by rw [List.append_assoc, ← h3]; exact h1, .decimal h2 h4⟩
  unfold strtod at h
  split at h
  · next v hv =>
    injection h with h
    subst h
    cases hp : hexPrefix s with
    | none => rw [hp] at hv; cases hv
    | some s' =>
      have h2 : ∃ c, (c = 'x' ∨ c = 'X') ∧ s = '0' :: c :: s' := by
        revert hp
        unfold hexPrefix
        split
        · intro h'; injection h' with h'; subst h'; exact ⟨_, Or.inl rfl, rfl⟩
        · intro h'; injection h' with h'; subst h'; exact ⟨_, Or.inr rfl, rfl⟩
        · intro h'; cases h'
      obtain ⟨c, hc, rfl⟩ := h2
      rw [hp, Option.bind_some] at hv
      unfold hexNumber at hv
      cases hm : mantissa hexDigit s' with
      | none => rw [hm] at hv; cases hv
      | some v =>
        obtain ⟨ds, fs, r'⟩ := v
        rw [hm] at hv
        simp only [Option.map_some, Option.some.injEq, Prod.mk.injEq] at hv
        obtain ⟨rfl, rfl⟩ := hv
        obtain ⟨l, h1, h2⟩ := mantissa_digits (base := 16) hexDigit_eq hm (fun c => id)
        obtain ⟨x, h3, h4⟩ := exponent_inv ['p', 'P'] r'
        exact ⟨'0' :: c :: l ++ x, by rw [List.append_assoc, ← h3, h1]; rfl, .hexadecimal hc h2 h4⟩
  · exact dec h

/-! ### Names -/

theorem getFunction_documented {w k f} (h : (w, k, f) ∈ documented) : getFunction w.toList = some ⟨k, f⟩ := by
  have : ∀ x ∈ documented, getFunction x.1.toList = some ⟨x.2.1, x.2.2⟩ := by decide
  exact this _ h

theorem documented_word {w k f} (h : (w, k, f) ∈ documented) :
    (∀ c ∈ w.toList, wordChar c = true) ∧ ∃ c r, w.toList = c :: r ∧ alpha c = true := by
  have h1 : ∀ x ∈ documented, ∀ c ∈ x.1.toList, wordChar c = true := by decide
  have h2 : ∀ x ∈ documented, x.1.toList.head?.any alpha = true := by decide
  refine ⟨h1 _ h, ?_⟩
  have := h2 _ h
  cases hw : w.toList with
  | nil => simp [hw] at this
  | cons c r => rw [hw] at this; exact ⟨c, r, rfl, this⟩

theorem documented_getFunction {n : Str} {g} (h : getFunction n = some g) (hn : n.head?.any alpha = true) :
    ∃ w, n = w.toList ∧ (w, g.parameters, g.fp) ∈ documented := by
  unfold getFunction at h
  cases hf : functions.find? (·.1 == n) with
  | none => rw [hf] at h; cases h
  | some x =>
    rw [hf] at h
    simp only [Option.map_some, Option.some.injEq] at h
    have h1 := List.mem_of_find?_eq_some hf
    have h2 := List.find?_some hf
    simp only [beq_iff_eq] at h2
    have : ∀ x ∈ functions, x.1.head?.any alpha = true → ∃ d ∈ documented, x.1 = d.1.toList ∧ x.2 = ⟨d.2.1, d.2.2⟩ := by decide
    obtain ⟨⟨w, k, f⟩, hd, h3, h4⟩ := this x h1 (by rw [h2]; exact hn)
    refine ⟨w, by rw [← h2, h3], ?_⟩
    rw [← h, h4]
    exact hd

theorem wordChar_false {c} : wordChar c = false ↔ isDecimal c = false ∧ isLetter c = false ∧ c ≠ '_' := by
  rw [wordChar, digit_eq, alpha_eq]
  cases isDecimal c <;> cases isLetter c <;> simp

/-! ### Tokens -/

theorem literal_head {l q} (h : Literal l q) : ∃ c r, l = c :: r ∧ (digit c || c == '.') = true := by
  rw [digit_eq]
  cases h with
  | @decimal s n k x e hd _ =>
    cases hd with
    | whole hne hd =>
      rcases s with _ | ⟨c, s⟩
      · exact absurd rfl hne
      · exact ⟨c, _, rfl, by rw [hd c (List.mem_cons_self ..)]; rfl⟩
    | @point ds fs hne hd _ =>
      rcases ds with _ | ⟨c, s⟩
      · exact ⟨'.', _, rfl, by decide⟩
      · exact ⟨c, _, rfl, by rw [hd c (List.mem_cons_self ..)]; rfl⟩
  | hexadecimal _ _ _ => exact ⟨'0', _, rfl, by decide⟩

theorem tokens_operator {c x} (h : operator c = some x) (n s) : tokensLoop (n + 1) (c :: s) = tok x :: tokensLoop n s := by
  revert h
  unfold operator
  split <;> intro h <;> first | (injection h with h; subst h; rfl) | cases h

theorem tokens_blank {c} (h : c = ' ' ∨ c = '\t') (n s) : tokensLoop (n + 1) (c :: s) = tokensLoop n s := by
  rcases h with rfl | rfl <;> rfl

theorem tokens_number {c s} (h : (digit c || c == '.') = true) (n) : tokensLoop (n + 1) (c :: s) =
    (match strtod (c :: s) with
      | some (q, r) => .number q :: tokensLoop n r
      | none => [.number 0, .error]) := by
  rw [tokensLoop]
  simp only [h, if_true]
  rfl

theorem tokens_name {c s} (h : (digit c || c == '.') = false) (ha : alpha c = true) (n) : tokensLoop (n + 1) (c :: s) =
    (match getFunction ((c :: s).takeWhile wordChar) with
      | some f => .function f :: tokensLoop n ((c :: s).dropWhile wordChar)
      | none => [.error]) := by
  rw [tokensLoop]
  simp only [h, ha, if_true, Bool.false_eq_true, if_false]
  rfl

theorem single_eq (c) : single c = (operator c).map tok := by
  unfold single operator
  split <;> first | rfl | (split <;> first | contradiction | rfl)

theorem alpha_digit {c} (h : alpha c = true) : (digit c || c == '.') = false := by
  have : ∀ c ∈ "abcdefghijklmnopqrstuvwxyzABCDEFGHIJKLMNOPQRSTUVWXYZ".toList, (digit c || c == '.') = false := by decide
  rw [alpha_eq] at h
  exact this c (by simpa [isLetter] using h)

theorem tokens_spells {s ss} (h : Spells s ss) : ∀ n, s.length < n → tokensLoop n s = ss.map tok := by
  induction h with
  | nil => intro n hn; rcases n with _ | n; omega; rfl
  | blank hc _ ih =>
    intro n hn
    rcases n with _ | n
    · omega
    · rw [tokens_blank hc, ih n (by simp at hn; omega)]
  | operator hc _ ih =>
    intro n hn
    rcases n with _ | n
    · omega
    · rw [tokens_operator hc, ih n (by simp at hn; omega), List.map_cons]
  | @number l q s ss hl hs _ ih =>
    intro n hn
    rcases n with _ | n
    · omega
    · obtain ⟨c, r, rfl, hc⟩ := literal_head hl
      have := strtod_literal hl hs
      rw [List.cons_append] at this ⊢
      rw [tokens_number hc, this]
      simp only [List.map_cons, tok]
      rw [ih n (by simp at hn; omega)]
  | @name w k f s ss hd hs _ ih =>
    intro n hn
    rcases n with _ | n
    · omega
    · obtain ⟨hw, c, r, hcr, hc⟩ := documented_word hd
      have hsp := span_eq (r := s) hw fun c hc => wordChar_false.2 (hs c hc)
      have hg := getFunction_documented hd
      rw [hcr] at hsp hg hn ⊢
      rw [List.cons_append] at hsp ⊢
      rw [tokens_name (alpha_digit hc) hc, hsp.1, hsp.2, hg]
      simp only [List.map_cons, tok]
      rw [ih n (by simp at hn; omega)]

theorem tokens_good (n) : ∀ s, ∀ x ∈ tokensLoop n s, Good x := by
  induction n with
  | zero => intro s x hx; simp [tokensLoop] at hx; exact Or.inl hx
  | succ n ih =>
    intro s
    rcases s with _ | ⟨c, s⟩
    · intro x hx; simp [tokensLoop] at hx
    · cases hd : (digit c || c == '.') with
      | true =>
        rw [tokens_number hd]
        split
        · intro x hx
          rcases List.mem_cons.1 hx with rfl | hx
          · exact Or.inr ⟨.num _, rfl⟩
          · exact ih _ x hx
        · intro x hx
          simp only [List.mem_cons, List.not_mem_nil, or_false] at hx
          rcases hx with rfl | rfl
          · exact Or.inr ⟨.num _, rfl⟩
          · exact Or.inl rfl
      | false =>
        cases ha : alpha c with
        | true =>
          rw [tokens_name hd ha]
          split
          · intro x hx
            rcases List.mem_cons.1 hx with rfl | hx
            · exact Or.inr ⟨.name _ _, rfl⟩
            · exact ih _ x hx
          · intro x hx
            simp only [List.mem_cons, List.not_mem_nil, or_false] at hx
            exact Or.inl hx
        | false =>
          rw [tokensLoop]
          simp only [hd, ha, Bool.false_eq_true, if_false]
          rw [single_eq]
          cases operator c with
          | some x =>
            intro y hy
            rcases List.mem_cons.1 hy with rfl | hy
            · exact Or.inr ⟨x, rfl⟩
            · exact ih s y hy
          | none =>
            simp only [Option.map_none]
            split
            · exact ih s
            · intro x hx
              simp only [List.mem_cons, List.not_mem_nil, or_false] at hx
              exact Or.inl hx

/-! ### No number stands directly before a number or a name -/

def isNum : Sym → Bool | .num _ => true | _ => false
def isOperand : Sym → Bool | .num _ => true | .name _ _ => true | _ => false

def apart : List Sym → Bool
  | a :: b :: r => !(isNum a && isOperand b) && apart (b :: r)
  | _ => true

theorem apart_cons {a r} (ha : isNum a = false) : apart (a :: r) = apart r := by
  cases r with
  | nil => rfl
  | cons b r => simp [apart, ha]

theorem apart_op {x y op} (ho : isOperand op = false) (hx : apart x = true) (hy : apart y = true) : apart (x ++ op :: y) = true := by
  have hn : isNum op = false := by cases op <;> first | rfl | cases ho
  induction x with
  | nil => rw [List.nil_append, apart_cons hn]; exact hy
  | cons a x ih =>
    cases x with
    | nil => simp [apart, ho, apart_cons hn, hy]
    | cons b x =>
      simp only [apart, Bool.and_eq_true] at hx
      simp only [List.cons_append, apart, Bool.and_eq_true] at ih ⊢
      exact ⟨hx.1, ih hx.2⟩

theorem apart_writes {l ss es} (h : Writes l ss es) : apart ss = true := by
  induction h with
  | num | constant | constant' => rfl
  | paren _ ih => rw [List.cons_append, apart_cons rfl]; exact apart_op rfl ih rfl
  | apply k f _ _ _ _ ih => rw [List.cons_append, List.cons_append, apart_cons rfl, apart_cons rfl]; exact apart_op rfl ih rfl
  | fac _ ih => exact apart_op rfl ih rfl
  | apply1 f _ ih => rw [apart_cons rfl]; exact ih
  | @signed signs ss e hs _ ih =>
    rename_i w
    clear w
    induction signs with
    | nil => exact ih
    | cons a signs ih' =>
      rw [List.cons_append, apart_cons (by rcases hs a (List.mem_cons_self ..) with rfl | rfl <;> rfl)]
      exact ih' fun x hx => hs x (List.mem_cons_of_mem _ hx)
  | atom _ ih | «postfix» _ ih | power _ ih | product _ ih | sum _ ih | single _ ih | argument _ ih => exact ih
  | caret _ _ h1 h2 | times _ _ h1 h2 | slash _ _ h1 h2 | percent _ _ h1 h2 | plus _ _ h1 h2 | minus _ _ h1 h2
  | comma _ _ h1 h2 | arguments _ _ h1 h2 => exact apart_op rfl h1 h2

theorem apart_tail {a r} (h : apart (a :: r) = true) : apart r = true := by
  cases r with
  | nil => rfl
  | cons b r => simp only [apart, Bool.and_eq_true] at h; exact h.2

theorem tok_ne_error (s) : tok s ≠ .error := by cases s <;> simp [tok]

theorem not_error {n} {ss : List Sym} {s : Str} (h : tokensLoop n s = ss.map tok) : .error ∉ tokensLoop n s := by
  rw [h]
  intro hm
  obtain ⟨x, _, hx⟩ := List.mem_map.1 hm
  exact tok_ne_error x hx

theorem number_ends {n q} {ss : List Sym} {s : Str} (hn : s.length < n) (h : tokensLoop n s = ss.map tok) (ha : apart (.num q :: ss) = true) :
    NumberEnds s := by
  rcases n with _ | n
  · omega
  rcases s with _ | ⟨c, s⟩
  · exact ⟨by intro c hc; simp at hc, by simp⟩
  have hne := not_error h
  have hop : ∀ t r, tokensLoop (n + 1) (c :: s) = t :: r → (∀ x, t = tok x → isOperand x = true) → False := by
    intro t r he ht
    rw [he] at h
    cases ss with
    | nil => cases h
    | cons x ss =>
      rw [List.map_cons] at h
      injection h with h1 h2
      have := ht x h1
      simp [apart, isNum, this] at ha
  cases hd : (digit c || c == '.') with
  | true =>
    exfalso
    rw [tokens_number hd] at hop
    cases hs : strtod (c :: s) with
    | none => exact hop (.number 0) [.error] (by rw [hs]) (by intro x hx; cases x <;> simp [tok] at hx <;> rfl)
    | some v => exact hop (.number v.1) _ (by rw [hs]) (by intro x hx; cases x <;> simp [tok] at hx <;> rfl)
  | false =>
    cases hal : alpha c with
    | true =>
      exfalso
      rw [tokens_name hd hal] at hop hne
      cases hg : getFunction ((c :: s).takeWhile wordChar) with
      | none => rw [hg] at hne; simp at hne
      | some f => exact hop (.function f) _ (by rw [hg]) (by intro x hx; cases x <;> simp [tok] at hx <;> rfl)
    | false =>
      have hu : c ≠ '_' := by
        intro hu
        subst hu
        exact hne (List.mem_cons_self ..)
      rw [Bool.or_eq_false_iff, digit_eq] at hd
      rw [alpha_eq] at hal
      refine ⟨?_, ?_⟩
      · intro d hd'
        simp at hd'
        subst hd'
        exact ⟨hd.1, hal, hu⟩
      · intro he
        simp at he
        subst he
        exact absurd hd.2 (by decide)

theorem map_cons_inv {t : Tok} {r} {ss : List Sym} (h : t :: r = ss.map tok) : ∃ x ss', ss = x :: ss' ∧ t = tok x ∧ r = ss'.map tok := by
  cases ss with
  | nil => cases h
  | cons x ss =>
    rw [List.map_cons] at h
    injection h with h1 h2
    exact ⟨x, ss, rfl, h1, h2⟩

theorem spells_tokens (n) : ∀ s ss, s.length < n → tokensLoop n s = ss.map tok → apart ss = true → Spells s ss := by
  induction n with
  | zero => intro s ss h; omega
  | succ n ih =>
    intro s ss hn h ha
    rcases s with _ | ⟨c, s⟩
    · cases ss with
      | nil => exact .nil
      | cons x ss => simp [tokensLoop] at h
    have hne := not_error h
    have op : ∀ {x}, operator c = some x → Spells (c :: s) ss := by
      intro x hx
      rw [tokens_operator hx] at h
      obtain ⟨y, ss', rfl, h1, h2⟩ := map_cons_inv h
      have : y = x := by
        have hop : isOperand x = false := by
          revert hx
          unfold operator
          split <;> intro hx <;> first | (injection hx with hx; subst hx; rfl) | cases hx
        cases x <;> cases y <;> simp_all [tok, isOperand]
      subst this
      exact .operator hx (ih s ss' (by simp at hn; omega) h2 (apart_tail ha))
    cases hd : (digit c || c == '.') with
    | true =>
      rw [tokens_number hd] at h hne
      cases hs : strtod (c :: s) with
      | none => rw [hs] at hne; simp at hne
      | some v =>
        obtain ⟨q, r⟩ := v
        rw [hs] at h
        obtain ⟨y, ss', rfl, h1, h2⟩ := map_cons_inv h
        obtain rfl : y = .num q := by cases y <;> simp_all [tok]
        obtain ⟨l, hl, hlit⟩ := strtod_inv hs
        rw [hl]
        obtain ⟨a, b, hab, _⟩ := literal_head hlit
        have hlen : r.length < n := by
          have := congrArg List.length hl
          rw [hab] at this
          simp at this hn
          omega
        exact .number hlit (number_ends hlen h2 ha) (ih r ss' hlen h2 (apart_tail ha))
    | false =>
      cases hal : alpha c with
      | true =>
        rw [tokens_name hd hal] at h hne
        cases hg : getFunction ((c :: s).takeWhile wordChar) with
        | none => rw [hg] at hne; simp at hne
        | some f =>
          rw [hg] at h
          obtain ⟨y, ss', rfl, h1, h2⟩ := map_cons_inv h
          obtain rfl : y = .name f.parameters f.fp := by cases y <;> simp_all [tok]
          obtain ⟨k1, k2, k3⟩ := span_split wordChar (c :: s)
          have hw : wordChar c = true := by simp [wordChar, hal]
          have htw : (c :: s).takeWhile wordChar = c :: s.takeWhile wordChar := by
            rw [List.takeWhile_cons_of_pos hw]
          obtain ⟨w, h3, h4⟩ := documented_getFunction hg (by rw [htw]; exact hal)
          have hlen : ((c :: s).dropWhile wordChar).length < n := by
            have := congrArg List.length k1
            rw [htw] at this
            simp at this hn ⊢
            omega
          rw [k1, h3]
          exact .name h4 (fun d hd => wordChar_false.1 (k3 d hd)) (ih _ ss' hlen h2 (apart_tail ha))
      | false =>
        cases ho : operator c with
        | some x => exact op ho
        | none =>
          by_cases hb : c = ' ' ∨ c = '\t'
          · rw [tokens_blank hb] at h
            exact .blank hb (ih s ss (by simp at hn; omega) h ha)
          · exfalso
            apply hne
            rw [tokensLoop]
            simp only [hd, hal, Bool.false_eq_true, if_false]
            rw [single_eq, ho]
            simp only [Option.map_none, if_neg hb]
            exact List.mem_cons_self ..

end H2.Json.Expr
