import Verif.Json.LexSpec
/-
C13: the tokens of a JSON text.
-/
namespace H2.Json

theorem cSpace_eq : cSpace = isSpace := by
  funext c
  rw [Bool.eq_iff_iff]
  simp only [cSpace, isSpace, List.contains_cons, List.contains_nil, Bool.or_eq_true, beq_iff_eq, or_assoc, Bool.or_false]

theorem cPunct_eq : cPunct = isPunct := by
  funext c
  rw [Bool.eq_iff_iff]
  have : "{}[]:,".toList = ['{', '}', '[', ']', ':', ','] := rfl
  simp only [cPunct, isPunct, this, List.contains_cons, List.contains_nil, Bool.or_eq_true, beq_iff_eq, or_assoc, Bool.or_false]
  grind

/-! ### strip -/

theorem dropWhile_split (p : Char → Bool) (s : Str) : ∃ a, s = a ++ s.dropWhile p ∧ (∀ c ∈ a, p c = true) ∧
    ∀ c ∈ (s.dropWhile p).head?, p c = false := by
  refine ⟨s.takeWhile p, (List.takeWhile_append_dropWhile).symm, fun c hc => ?_, fun c hc => ?_⟩
  · have := List.all_takeWhile (p := p) (l := s)
    rw [List.all_eq_true] at this
    exact this c hc
  · cases h : s.dropWhile p with
    | nil => rw [h] at hc; simp at hc
    | cons x r =>
      have := List.head_dropWhile_not (p := p) (l := s) (by rw [h]; simp)
      simp only [h, List.head_cons] at this
      rw [h] at hc
      simp only [List.head?_cons, Option.mem_def, Option.some.injEq] at hc
      exact hc ▸ this

theorem strip_eq (s : Str) : strip s = ((s.dropWhile isSpace).reverse.dropWhile isSpace).reverse := by
  rw [strip, cSpace_eq]

theorem strip_stripped (s : Str) : Stripped s (strip s) := by
  obtain ⟨a, h1, h2, h3⟩ := dropWhile_split isSpace s
  obtain ⟨b, h4, h5, h6⟩ := dropWhile_split isSpace (s.dropWhile isSpace).reverse
  have h7 : s.dropWhile isSpace = strip s ++ b.reverse := by
    have := congrArg List.reverse h4
    rw [List.reverse_reverse, List.reverse_append, ← strip_eq] at this
    exact this
  refine ⟨a, b.reverse, by rw [List.append_assoc, ← h7]; exact h1, fun c hc => ?_, fun c hc => ?_, fun c hc => ?_⟩
  · simp only [List.mem_append, List.mem_reverse] at hc
    exact hc.elim (h2 c) (h5 c)
  · refine h3 c ?_
    rw [h7]
    cases hs : strip s with
    | nil => rw [hs] at hc; simp at hc
    | cons x r => rw [hs] at hc; simpa using hc
  · refine h6 c ?_
    rw [strip_eq] at hc
    rw [← List.getLast?_reverse]
    exact hc

theorem stripped_unique {s t t'} (h : Stripped s t) (h' : Stripped s t') : t = t' := by
  have key : ∀ {s t : Str}, Stripped s t → strip s = t := by
    rintro s t ⟨a, b, rfl, hsp, hh, hl⟩
    have da : ∀ (a r : Str), (∀ c ∈ a, isSpace c = true) → (a ++ r).dropWhile isSpace = r.dropWhile isSpace := by
      intro a r ha
      induction a with
      | nil => rfl
      | cons x a ih =>
        simp only [List.cons_append, List.dropWhile_cons, ha x (by simp), if_true]
        exact ih (fun c hc => ha c (by simp [hc]))
    rw [strip_eq]
    cases t with
    | nil =>
      rw [List.append_nil]
      have : (a ++ b).dropWhile isSpace = [] := by
        have := da (a ++ b) [] hsp
        simpa using this
      rw [this]; rfl
    | cons x r =>
      have hx := hh x (by simp)
      rw [List.append_assoc, da a _ (fun c hc => hsp c (by simp [hc]))]
      simp only [List.cons_append, List.dropWhile_cons, hx, Bool.false_eq_true, if_false]
      rw [← List.cons_append, List.reverse_append, da b.reverse _ (fun c hc => hsp c (by simp at hc; simp [hc]))]
      cases hr : (x :: r).reverse with
      | nil => simp at hr
      | cons y r' =>
        have hy : isSpace y = false := hl y (by rw [← List.head?_reverse, hr]; rfl)
        rw [List.dropWhile_cons, hy, if_neg (by simp), ← hr, List.reverse_reverse]
  exact (key h).symm.trans (key h')

theorem strip_of {s t} (h : Stripped s t) : strip s = t := stripped_unique (strip_stripped s) h

theorem strip_self {s : Str} (h1 : ∀ c ∈ s.head?, isSpace c = false) (h2 : ∀ c ∈ s.getLast?, isSpace c = false) :
    strip s = s := strip_of ⟨[], [], by simp, by simp, h1, h2⟩

theorem punct_not_space {c} (h : isPunct c = true) : isSpace c = false := by
  have e : "{}[]:,".toList = ['{', '}', '[', ']', ':', ','] := rfl
  simp only [isPunct, e, List.contains_cons, List.contains_nil, Bool.or_eq_true, beq_iff_eq, Bool.or_false] at h
  rcases h with rfl | rfl | rfl | rfl | rfl | rfl <;> decide

theorem strip_punct {c} (h : isPunct c = true) : strip [c] = [c] :=
  strip_self (by simpa using punct_not_space h) (by simpa using punct_not_space h)

theorem strip_quoted (q : Char) (b : Str) (hq : isSpace q = false) : strip (q :: b ++ [q]) = q :: b ++ [q] :=
  strip_self (by simpa using hq) (by rw [List.getLast?_append]; simpa using hq)

/-! ### Running the loop over a body -/

/-- The states that take a body: their stopping characters. -/
def stopOf : LexState → Char → Bool
  | .single => (· == '\'')
  | .double => (· == '"')
  | _ => isPunct

def bodyState (st : LexState) : Prop := st = .single ∨ st = .double ∨ st = .normal

theorem step_char {st w sh c} (hs : bodyState st) (h1 : c ≠ '\\') (h2 : stopOf st c = false) :
    lexStep ⟨some w, st, sh⟩ c = ([], ⟨some (w ++ [c]), st, sh⟩) := by
  rcases hs with rfl | rfl | rfl <;> simp [stopOf] at h2 <;> simp [lexStep, cSpace_eq, cPunct_eq, h1, h2]

theorem step_backslash {st w sh} (hs : bodyState st) :
    lexStep ⟨some w, st, sh⟩ '\\' = ([], ⟨some (w ++ ['\\']), .escape, st⟩) := by
  rcases hs with rfl | rfl | rfl <;> rfl

theorem step_escape (w st c) : lexStep ⟨some w, .escape, st⟩ c = ([], ⟨some (w ++ [c]), st, st⟩) := rfl

/-- A body is taken into the pending text. -/
theorem loop_body {st} (hs : bodyState st) {b} (hb : Body (stopOf st) b) : ∀ (w sh s), ∃ sh',
    lexLoop ⟨some w, st, sh⟩ (b ++ s) = lexLoop ⟨some (w ++ b), st, sh'⟩ s := by
  induction hb with
  | nil => intro w sh s; exact ⟨sh, by simp⟩
  | @char c b h1 h2 _ ih =>
    intro w sh s
    obtain ⟨sh', h⟩ := ih (w ++ [c]) sh s
    refine ⟨sh', ?_⟩
    simp only [List.cons_append, lexLoop, step_char hs h1 h2, List.nil_append, h, List.append_assoc]
  | @escaped c b _ ih =>
    intro w sh s
    obtain ⟨sh', h⟩ := ih (w ++ ['\\'] ++ [c]) st s
    refine ⟨sh', ?_⟩
    simp only [List.cons_append, lexLoop, step_backslash hs, step_escape, List.nil_append, h]
    simp

theorem loop_last {st} (hs : bodyState st) {b} (hb : LastBody (stopOf st) b) (w sh) :
    lexLoop ⟨some w, st, sh⟩ b = [strip (w ++ b)] := by
  cases hb with
  | body hb =>
    obtain ⟨sh', h⟩ := loop_body hs hb w sh []
    rw [List.append_nil] at h
    rw [h]; rfl
  | @backslash b hb =>
    obtain ⟨sh', h⟩ := loop_body hs hb w sh ['\\']
    rw [h]
    simp only [lexLoop, step_backslash hs, List.nil_append, List.append_assoc]
    rfl

theorem loop_pattern {b : Str} (hb : '/' ∉ b) : ∀ (w sh s),
    lexLoop ⟨some w, .pattern, sh⟩ (b ++ s) = lexLoop ⟨some (w ++ b), .pattern, sh⟩ s := by
  induction b with
  | nil => intro w sh s; simp
  | cons c b ih =>
    intro w sh s
    have h1 : c ≠ '/' := fun h => hb (by simp [h])
    have := ih (fun h => hb (by simp [h])) (w ++ [c]) sh s
    simp only [List.cons_append, lexLoop]
    have hst : lexStep ⟨some w, .pattern, sh⟩ c = ([], ⟨some (w ++ [c]), .pattern, sh⟩) := by simp [lexStep, cSpace_eq, cPunct_eq, h1]
    rw [hst]
    simpa using this

/-- The word's first step. -/
theorem loop_begin {c b} (hc : Begins c) (sh s) {stop} (hb : Body stop (c :: b)) :
    ∃ w b' sh', Body stop b' ∧ w ++ b' = c :: b ∧
      lexLoop ⟨none, .idle, sh⟩ (c :: b ++ s) = lexLoop ⟨some w, .normal, sh'⟩ (b' ++ s) := by
  obtain ⟨h1, h2, h3, h4, h5⟩ := hc
  cases hb with
  | char hne _ hb =>
    refine ⟨[c], b, sh, hb, rfl, ?_⟩
    simp [lexLoop, lexStep, cSpace_eq, cPunct_eq, h1, h2, h3, h4, h5, hne]
  | @escaped d b hb =>
    exact ⟨['\\', d], b, .normal, hb, rfl, rfl⟩

theorem loop_idle_space {c} (h : isSpace c = true) (sh s) :
    lexLoop ⟨none, .idle, sh⟩ (c :: s) = lexLoop ⟨none, .idle, sh⟩ s := by
  simp [lexLoop, lexStep, cSpace_eq, cPunct_eq, h]

theorem loop_idle_punct {c} (h : isPunct c = true) (sh s) :
    lexLoop ⟨none, .idle, sh⟩ (c :: s) = [c] :: lexLoop ⟨none, .idle, sh⟩ s := by
  simp [lexLoop, lexStep, cSpace_eq, cPunct_eq, h, punct_not_space h, strip_punct h]

theorem tokens_lex {s ts} (h : Tokens s ts) : ∀ sh, lexLoop ⟨none, .idle, sh⟩ s = ts := by
  induction h with
  | nil => intro sh; rfl
  | space hc _ ih => intro sh; rw [loop_idle_space hc, ih]
  | punct hc _ ih => intro sh; rw [loop_idle_punct hc, ih]
  | @quoted q b s ts hq hb _ ih =>
    intro sh
    rcases hq with rfl | rfl
    · obtain ⟨sh', h⟩ := loop_body (st := .double) (.inr (.inl rfl)) hb ['"'] sh ('"' :: s)
      show lexLoop ⟨some ['"'], .double, sh⟩ (b ++ '"' :: s) = _
      rw [h]
      have h2 : strip ('"' :: b ++ ['"']) = '"' :: b ++ ['"'] := strip_quoted '"' b (by decide)
      show [strip ('"' :: b ++ ['"'])] ++ lexLoop ⟨none, .idle, sh'⟩ s = _
      rw [h2, ih]; rfl
    · obtain ⟨sh', h⟩ := loop_body (st := .single) (.inl rfl) hb ['\''] sh ('\'' :: s)
      show lexLoop ⟨some ['\''], .single, sh⟩ (b ++ '\'' :: s) = _
      rw [h]
      have h2 : strip ('\'' :: b ++ ['\'']) = '\'' :: b ++ ['\''] := strip_quoted '\'' b (by decide)
      show [strip ('\'' :: b ++ ['\''])] ++ lexLoop ⟨none, .idle, sh'⟩ s = _
      rw [h2, ih]; rfl
  | @pattern b s ts hb _ ih =>
    intro sh
    show lexLoop ⟨some ['/'], .pattern, sh⟩ (b ++ '/' :: s) = _
    rw [loop_pattern hb]
    have h2 : strip ('/' :: b ++ ['/']) = '/' :: b ++ ['/'] := strip_quoted '/' b (by decide)
    show [strip ('/' :: b ++ ['/'])] ++ lexLoop ⟨none, .idle, sh⟩ s = _
    rw [h2, ih]; rfl
  | @word w t c s ts hw hb hc ht _ ih =>
    intro sh
    obtain ⟨c', w', rfl, hbeg⟩ := hw
    obtain ⟨w₀, b', sh', hb', he, hl⟩ := loop_begin hbeg sh (c :: s) hb
    rw [hl]
    obtain ⟨sh'', h⟩ := loop_body (st := .normal) (.inr (.inr rfl)) hb' w₀ sh' (c :: s)
    rw [h, he]
    simp [lexLoop, lexStep, cSpace_eq, cPunct_eq, hc, strip_punct hc, strip_of ht, ih]
  | @lastWord w t hw hb ht =>
    intro sh
    obtain ⟨c', w', heq, hbeg⟩ := hw
    cases hb with
    | body hb =>
      subst heq
      obtain ⟨w₀, b', sh', hb', he, hl⟩ := loop_begin hbeg sh [] hb
      simp only [List.append_nil] at hl
      rw [hl, loop_last (st := .normal) (.inr (.inr rfl)) (.body hb'), he, strip_of ht]
    | @backslash s hb =>
      cases s with
      | nil =>
        show [strip ([] ++ ['\\'])] = _
        rw [strip_of ht]
      | cons d r =>
        simp only [List.cons_append, List.cons.injEq] at heq
        obtain ⟨rfl, rfl⟩ := heq
        obtain ⟨w₀, b', sh', hb', he, hl⟩ := loop_begin hbeg sh ['\\'] hb
        rw [hl, loop_last (st := .normal) (.inr (.inr rfl)) (.backslash hb'), ← List.append_assoc, he]
        rw [strip_of ht]
  | @openQuoted q b t hq hb ht =>
    intro sh
    rcases hq with rfl | rfl
    · show lexLoop ⟨some ['"'], .double, sh⟩ b = _
      rw [loop_last (st := .double) (.inr (.inl rfl)) hb]
      simp [strip_of ht]
    · show lexLoop ⟨some ['\''], .single, sh⟩ b = _
      rw [loop_last (st := .single) (.inl rfl) hb]
      simp [strip_of ht]
  | @openPattern b t hb ht =>
    intro sh
    show lexLoop ⟨some ['/'], .pattern, sh⟩ b = _
    have := loop_pattern hb ['/'] sh []
    rw [List.append_nil] at this
    rw [this]
    show [strip ('/' :: b)] = _
    rw [strip_of ht]

/-! ### Every text has tokens -/

/-- A text is a body up to its first stop, or to its end. -/
theorem body_split (stop : Char → Bool) : ∀ (n : Nat) (s : Str), s.length ≤ n →
    (∃ b c r, s = b ++ c :: r ∧ Body stop b ∧ stop c = true ∧ c ≠ '\\') ∨ LastBody stop s := by
  intro n
  induction n with
  | zero =>
    intro s h
    have : s = [] := by cases s <;> simp_all
    exact .inr (this ▸ .body .nil)
  | succ n ih =>
    intro s h
    cases s with
    | nil => exact .inr (.body .nil)
    | cons c s =>
      by_cases hc : c = '\\'
      · subst hc
        cases s with
        | nil => exact .inr (.backslash (s := []) .nil)
        | cons d s =>
          rcases ih s (by simp at h; omega) with ⟨b, e, r, rfl, hb, he, hne⟩ | hl
          · exact .inl ⟨'\\' :: d :: b, e, r, rfl, .escaped hb, he, hne⟩
          · cases hl with
            | body hb => exact .inr (.body (.escaped hb))
            | @backslash b hb => exact .inr (.backslash (s := '\\' :: d :: b) (.escaped hb))
      · by_cases hst : stop c = true
        · exact .inl ⟨[], c, s, rfl, .nil, hst, hc⟩
        · have hst : stop c = false := by simpa using hst
          rcases ih s (by simp at h; omega) with ⟨b, e, r, rfl, hb, he, hne⟩ | hl
          · exact .inl ⟨c :: b, e, r, rfl, .char hc hst hb, he, hne⟩
          · cases hl with
            | body hb => exact .inr (.body (.char hc hst hb))
            | @backslash b hb => exact .inr (.backslash (s := c :: b) (.char hc hst hb))

theorem split_first (c : Char) : ∀ s : Str, c ∈ s → ∃ b r, s = b ++ c :: r ∧ c ∉ b
  | [], h => by simp at h
  | x :: s, h => by
    by_cases hx : x = c
    · exact ⟨[], s, by simp [hx], by simp⟩
    · have : c ∈ s := by
        rcases List.mem_cons.mp h with h | h
        · exact absurd h.symm hx
        · exact h
      obtain ⟨b, r, rfl, hb⟩ := split_first c s this
      refine ⟨x :: b, r, rfl, fun hm => ?_⟩
      rcases List.mem_cons.mp hm with h | h
      · exact hx h.symm
      · exact hb h

theorem tokens_total : ∀ (n : Nat) (s : Str), s.length ≤ n → ∃ ts, Tokens s ts := by
  intro n
  induction n with
  | zero =>
    intro s h
    have : s = [] := by cases s <;> simp_all
    exact ⟨[], this ▸ .nil⟩
  | succ n ih =>
    intro s h
    cases s with
    | nil => exact ⟨[], .nil⟩
    | cons c s =>
      simp only [List.length_cons] at h
      by_cases h1 : isSpace c = true
      · obtain ⟨ts, ht⟩ := ih s (by omega); exact ⟨ts, .space h1 ht⟩
      by_cases h2 : isPunct c = true
      · obtain ⟨ts, ht⟩ := ih s (by omega); exact ⟨_, .punct h2 ht⟩
      by_cases h3 : c = '"' ∨ c = '\''
      · rcases body_split (· == c) _ s (Nat.le_refl _) with ⟨b, e, r, rfl, hb, he, _⟩ | hl
        · have : e = c := by simpa using he
          subst this
          obtain ⟨ts, ht⟩ := ih r (by simp at h; omega)
          exact ⟨_, .quoted h3 hb ht⟩
        · exact ⟨_, .openQuoted h3 hl (strip_stripped _)⟩
      by_cases h4 : c = '/'
      · subst h4
        by_cases hm : '/' ∈ s
        · obtain ⟨b, r, rfl, hb⟩ := split_first '/' s hm
          obtain ⟨ts, ht⟩ := ih r (by simp at h; omega)
          exact ⟨_, .pattern hb ht⟩
        · exact ⟨_, .openPattern hm (strip_stripped _)⟩
      · have hbeg : Begins c := ⟨by simpa using h1, by simpa using h2, fun h => h3 (.inl h), fun h => h3 (.inr h), h4⟩
        rcases body_split isPunct _ (c :: s) (Nat.le_refl _) with ⟨b, e, r, hs, hb, he, _⟩ | hl
        · have hbne : ∃ b', b = c :: b' ∧ s = b' ++ e :: r := by
            cases b with
            | nil =>
              simp only [List.nil_append, List.cons.injEq] at hs
              exact absurd (hs.1 ▸ he) h2
            | cons x b' =>
              simp only [List.cons_append, List.cons.injEq] at hs
              exact ⟨b', by rw [hs.1], hs.2⟩
          obtain ⟨b', rfl, rfl⟩ := hbne
          obtain ⟨ts, ht⟩ := ih r (by simp at h; omega)
          exact ⟨_, .word (w := c :: b') ⟨c, b', rfl, hbeg⟩ hb he (strip_stripped _) ht⟩
        · exact ⟨_, .lastWord ⟨c, s, rfl, hbeg⟩ hl (strip_stripped _)⟩

/-- C13.  The tokens of every text are those of the specification, and only those. -/
theorem C13_tokens (s : Str) (ts : List Str) : lex s = ts ↔ Tokens s ts := by
  constructor
  · rintro rfl
    obtain ⟨ts, ht⟩ := tokens_total _ s (Nat.le_refl _)
    have := tokens_lex ht .idle
    unfold lex
    rw [show ({} : Lexer) = ⟨none, .idle, .idle⟩ from rfl, this]
    exact ht
  · exact fun h => tokens_lex h .idle

theorem stripped_content {s t} (h : Stripped s t) : t.filter (! isSpace ·) = s.filter (! isSpace ·) := by
  obtain ⟨a, b, rfl, hsp, _, _⟩ := h
  have h0 : ∀ l : Str, (∀ c ∈ l, isSpace c = true) → l.filter (! isSpace ·) = [] := by
    intro l hl
    rw [List.filter_eq_nil_iff]
    intro c hc; simp [hl c hc]
  simp [List.filter_append, h0 a (fun c hc => hsp c (by simp [hc])), h0 b (fun c hc => hsp c (by simp [hc]))]

/-- C13.  Nothing is lost, added or moved: the tokens one after the other have the same characters as the
text, in the same order, white space aside. -/
theorem C13_content (s : Str) : (lex s).flatten.filter (! isSpace ·) = s.filter (! isSpace ·) := by
  obtain ⟨ts, ht⟩ := tokens_total _ s (Nat.le_refl _)
  rw [(C13_tokens s ts).mpr ht]
  induction ht with
  | nil => rfl
  | space hc _ ih => simp [ih, hc]
  | punct hc _ ih => simp [List.filter_cons, ih]
  | quoted _ _ _ ih => simp [List.filter_append, List.filter_cons, ih]
  | pattern _ _ ih => simp [List.filter_append, List.filter_cons, ih]
  | word _ _ hc ht _ ih => simp [List.filter_append, List.filter_cons, ih, stripped_content ht]
  | lastWord _ _ ht => simpa using stripped_content ht
  | openQuoted _ _ ht => simpa using stripped_content ht
  | openPattern _ ht => simpa using stripped_content ht

theorem begins_strip {c : Char} {w t : Str} (hc : isSpace c = false) (h : Stripped (c :: w) t) : ∃ r, t = c :: r := by
  obtain ⟨a, b, e, hsp, _, _⟩ := h
  cases a with
  | nil =>
    cases t with
    | nil =>
      simp only [List.nil_append] at e
      have := hsp c (by rw [List.nil_append, ← e]; simp)
      rw [hc] at this; cases this
    | cons x r =>
      simp only [List.nil_append, List.cons_append, List.cons.injEq] at e
      exact ⟨r, by rw [e.1]⟩
  | cons x a =>
    simp only [List.cons_append, List.cons.injEq] at e
    have := hsp x (by simp)
    rw [← e.1, hc] at this; cases this

/-- C13.  No token is empty, and none begins or ends with white space. -/
theorem C13_token (s t : Str) (h : t ∈ lex s) :
    t ≠ [] ∧ (∀ c ∈ t.head?, isSpace c = false) ∧ ∀ c ∈ t.getLast?, isSpace c = false := by
  obtain ⟨ts, ht⟩ := tokens_total _ s (Nat.le_refl _)
  rw [(C13_tokens s ts).mpr ht] at h
  have hq : ∀ q, q = '"' ∨ q = '\'' → isSpace q = false := by rintro q (rfl | rfl) <;> decide
  have hends : ∀ (q : Char) (b : Str), isSpace q = false → q :: b ++ [q] ≠ [] ∧
      (∀ c ∈ (q :: b ++ [q]).head?, isSpace c = false) ∧ ∀ c ∈ (q :: b ++ [q]).getLast?, isSpace c = false := by
    intro q b hq
    refine ⟨by simp, by simpa using hq, ?_⟩
    rw [List.getLast?_append]; simpa using hq
  have hstr : ∀ {c w t}, isSpace c = false → Stripped (c :: w) t → t ≠ [] ∧
      (∀ c ∈ t.head?, isSpace c = false) ∧ ∀ c ∈ t.getLast?, isSpace c = false := by
    intro c w t hc h
    obtain ⟨r, rfl⟩ := begins_strip hc h
    obtain ⟨_, _, _, _, h1, h2⟩ := h
    exact ⟨by simp, h1, h2⟩
  have hp : ∀ {c}, isPunct c = true → [c] ≠ [] ∧ (∀ d ∈ [c].head?, isSpace d = false) ∧ ∀ d ∈ [c].getLast?, isSpace d = false :=
    fun hc => ⟨by simp, by simpa using punct_not_space hc, by simpa using punct_not_space hc⟩
  induction ht with
  | nil => simp at h
  | space _ _ ih => exact ih h
  | punct hc _ ih =>
    rcases List.mem_cons.mp h with rfl | h
    · exact hp hc
    · exact ih h
  | quoted hq' _ _ ih =>
    rcases List.mem_cons.mp h with rfl | h
    · exact hends _ _ (hq _ hq')
    · exact ih h
  | pattern _ _ ih =>
    rcases List.mem_cons.mp h with rfl | h
    · exact hends _ _ (by decide)
    · exact ih h
  | word hw _ hc ht _ ih =>
    obtain ⟨c', w', rfl, hb⟩ := hw
    simp only [List.mem_cons] at h
    rcases h with rfl | rfl | h
    · exact hstr hb.1 ht
    · exact hp hc
    · exact ih h
  | lastWord hw _ ht =>
    obtain ⟨c', w', rfl, hb⟩ := hw
    rw [List.mem_singleton.mp h]
    exact hstr hb.1 ht
  | openQuoted hq' _ ht => rw [List.mem_singleton.mp h]; exact hstr (hq _ hq') ht
  | openPattern _ ht => rw [List.mem_singleton.mp h]; exact hstr (by decide) ht

example : lex "{ \"a, b\" : [1+2 , /x.*/] }".toList =
    ["{".toList, "\"a, b\"".toList, ":".toList, "[".toList, "1+2".toList, ",".toList, "/x.*/".toList, "]".toList, "}".toList] := by
  decide +kernel
/-- A word may have white space inside, and an escaped quote does not close. -/
example : lex "a] [b".toList = ["a".toList, "]".toList, "[".toList, "b".toList] := by decide +kernel
example : lex "a b\\,c , \"x\\\"y\"".toList = ["a b\\,c".toList, ",".toList, "\"x\\\"y\"".toList] := by decide +kernel
/-- Text that is not closed reaches to the end. -/
example : lex "['a, b] ".toList = ["[".toList, "'a, b]".toList] := by decide +kernel

end H2.Json
