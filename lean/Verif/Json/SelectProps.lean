import Verif.Json.SelectSpec
import Verif.Json.LexProps
import Verif.Json.MatchProps
/-
C15: selectors.
-/
namespace H2.Json

/-! ### Numbers -/

theorem cDigit_iff {c : Char} : cDigit c = true ↔ c ∈ "0123456789".toList := by
  rw [← List.contains_iff_mem]
  have h : ∀ l : Str, l.contains c = (l.map Char.toNat).contains c.toNat := by
    intro l
    induction l with
    | nil => rfl
    | cons a l ih =>
      simp only [List.contains_cons, List.map_cons, ih]
      congr 1
      rw [Bool.eq_iff_iff]
      simp only [beq_iff_eq]
      exact ⟨fun h => by rw [h], fun h => Char.ext (UInt32.toNat_inj.1 h)⟩
  rw [h]
  simp only [cDigit, Bool.and_eq_true, decide_eq_true_eq]
  simp [List.contains_cons]
  omega

theorem digit_value {c : Char} (h : c ∈ "0123456789".toList) : c.toNat - '0'.toNat = "0123456789".toList.idxOf c := by
  have : ∀ c ∈ "0123456789".toList, c.toNat - '0'.toNat = "0123456789".toList.idxOf c := by decide
  exact this c h

theorem digitsValue_eq {ds r : Str} (h : IsDigits ds) (hr : ∀ c ∈ r.head?, c = '-') (n : Nat) : digitsValue (ds ++ r) n = decimal ds n := by
  induction ds generalizing n with
  | nil =>
    cases r with
    | nil => rfl
    | cons c r => have := hr c rfl; subst this; simp [digitsValue, decimal, show cDigit '-' = false by decide]
  | cons c ds ih =>
    have hc := h c (by simp)
    simp only [List.cons_append, digitsValue, decimal, cDigit_iff.2 hc, if_true]
    rw [ih (fun d hd => h d (by simp [hd])), digit_value hc]

theorem atoi_minus (s : Str) : atoi ('-' :: s) = -(digitsValue s 0 : Int) := rfl
theorem atoi_other {s : Str} (h : s.head? ≠ some '-') : atoi s = digitsValue s 0 := by
  unfold atoi
  split
  · simp at h
  · rfl

theorem number_atoi {t i} (h : Number t i) : atoi t = i := by
  cases h with
  | @plain ds r h1 h2 h3 =>
    rw [atoi_other, digitsValue_eq h1 h2]
    cases ds with
    | nil => rw [h3 rfl]; simp
    | cons c ds => have := h1 c (by simp); simp; rintro rfl; revert this; decide
  | @minus ds r h1 h2 => rw [List.cons_append, atoi_minus, digitsValue_eq h1 h2]

theorem number_total {t : Str} (h : ∀ c ∈ t, c = '-' ∨ c ∈ "0123456789".toList) : ∃ i, Number t i := by
  have split : ∀ u : Str, (∀ c ∈ u, c = '-' ∨ c ∈ "0123456789".toList) → ∃ ds r, u = ds ++ r ∧ IsDigits ds ∧ ∀ c ∈ r.head?, c = '-' := by
    intro u
    induction u with
    | nil => intro _; exact ⟨[], [], rfl, by intro c hc; simp at hc, by intro c hc; simp at hc⟩
    | cons c u ih =>
      intro hu
      rcases hu c (by simp) with rfl | hc
      · exact ⟨[], '-' :: u, rfl, by intro c hc; simp at hc, by intro c hc; simp at hc; exact hc.symm⟩
      · obtain ⟨ds, r, rfl, h1, h2⟩ := ih fun d hd => hu d (by simp [hd])
        refine ⟨c :: ds, r, rfl, ?_, h2⟩
        intro d hd
        rcases List.mem_cons.1 hd with rfl | hd
        · exact hc
        · exact h1 d hd
  cases t with
  | nil => exact ⟨_, .plain (ds := []) (r := []) (by intro c hc; simp at hc) (by intro c hc; simp at hc) (fun _ => rfl)⟩
  | cons c t =>
    rcases h c (by simp) with rfl | hc
    · obtain ⟨ds, r, rfl, h1, h2⟩ := split t fun d hd => h d (by simp [hd])
      exact ⟨_, .minus h1 h2⟩
    · obtain ⟨ds, r, e, h1, h2⟩ := split (c :: t) h
      rw [e]
      refine ⟨_, .plain h1 h2 ?_⟩
      rintro rfl
      simp at e; subst e
      have := h2 c rfl
      subst this
      exact absurd hc (by decide)

/-! ### What a selector says -/

def SelPart.step (c : SelPart) : Step := if c.key ≠ [] then .key c.key else .index c.index

theorem indexText_iff {t : Str} : indexText t = true ↔ ∀ c ∈ t, c = '-' ∨ c ∈ "0123456789".toList := by
  simp only [indexText, List.all_eq_true, Bool.or_eq_true, beq_iff_eq, cDigit_iff]

theorem ends_split {q : Char} {s : Str} (h : s.head? = some q ∧ s.getLast? = some q) : s = [q] ∨ ∃ e, s = q :: e ++ [q] := by
  obtain ⟨h1, h2⟩ := h
  cases s with
  | nil => simp at h1
  | cons c s =>
    simp at h1; subst h1
    by_cases hs : s = []
    · exact .inl (by simp [hs])
    · refine .inr ⟨s.dropLast, ?_⟩
      rw [List.getLast?_cons, Option.some.injEq] at h2
      rw [List.getLast?_eq_some_getLast hs] at h2
      simp at h2
      conv => lhs; rw [← List.dropLast_concat_getLast hs, h2]
      rfl

theorem mid_ends (q : Char) (k : Str) : (q :: k ++ [q]).head? = some q ∧ (q :: k ++ [q]).getLast? = some q := by
  simp [List.getLast?_cons]

theorem dotted_add {t k q} (hs : Stripped t k) (h : Dotted k q) : (addPart t true).map SelPart.step = q := by
  simp only [addPart, strip_of hs]
  cases h with
  | nothing => rfl
  | key hk => simp [hk, SelPart.step]

theorem dotted_total (k : Str) : ∃ q, Dotted k q := by
  by_cases h : k = []
  · subst h; exact ⟨_, .nothing⟩
  · exact ⟨_, .key h⟩

theorem quotes_iff {t : Str} : ((t.head? == some '"' && t.getLast? == some '"') || (t.head? == some '\'' && t.getLast? == some '\'')) = true ↔
    ∃ q, (q = '"' ∨ q = '\'') ∧ t.head? = some q ∧ t.getLast? = some q := by
  simp only [Bool.or_eq_true, Bool.and_eq_true, beq_iff_eq]
  constructor
  · rintro (h | h)
    · exact ⟨_, .inl rfl, h⟩
    · exact ⟨_, .inr rfl, h⟩
  · rintro ⟨q, rfl | rfl, h⟩
    · exact .inl h
    · exact .inr h

theorem quote_not_index {q : Char} (hq : q = '"' ∨ q = '\'') {t : Str} (h : q ∈ t) : indexText t = false := by
  rw [Bool.eq_false_iff, ne_eq, indexText_iff]
  intro hi
  have := hi q h
  revert this
  rcases hq with rfl | rfl <;> decide

theorem bracketed_add {t k q} (hs : Stripped t k) (h : Bracketed k q) : (addPart t false).map SelPart.step = q := by
  simp only [addPart, strip_of hs, Bool.not_false, Bool.true_and]
  cases h with
  | nothing => rfl
  | @index _ i hk hi hn =>
    rw [if_neg hk, if_pos (indexText_iff.2 hi), number_atoi hn]
    rfl
  | @quoted q k hq hk =>
    rw [if_neg (by simp), if_neg (by rw [quote_not_index hq (by simp)]; simp), if_pos (quotes_iff.2 ⟨q, hq, mid_ends q k⟩)]
    simp [hk, SelPart.step]
  | @noKey q _ hq ht =>
    have hm : q ∈ k := by rcases ht with rfl | rfl <;> simp
    rw [if_neg (by rintro rfl; simp at hm), if_neg (by rw [quote_not_index hq hm]; simp), if_pos (quotes_iff.2 ⟨q, hq, by rcases ht with rfl | rfl <;> simp⟩)]
    rcases ht with rfl | rfl <;> simp
  | bare hk hi hq =>
    rw [if_neg hk, if_neg, if_neg]
    · simp [SelPart.step, hk]
    · rw [quotes_iff]
      rintro ⟨q, h1, h2⟩
      exact hq q h1 h2
    · rw [indexText_iff]
      obtain ⟨c, hc, h1, h2⟩ := hi
      intro h
      rcases h c hc with h | h
      · exact h1 h
      · exact h2 h

theorem bracketed_total (k : Str) : ∃ q, Bracketed k q := by
  by_cases h : k = []
  · subst h; exact ⟨_, .nothing⟩
  by_cases hi : ∀ c ∈ k, c = '-' ∨ c ∈ "0123456789".toList
  · obtain ⟨i, hn⟩ := number_total hi
    exact ⟨_, .index h hi hn⟩
  by_cases hq : ∃ q, (q = '"' ∨ q = '\'') ∧ k.head? = some q ∧ k.getLast? = some q
  · obtain ⟨q, h1, h2⟩ := hq
    rcases ends_split h2 with rfl | ⟨e, rfl⟩
    · exact ⟨_, .noKey h1 (.inl rfl)⟩
    · by_cases he : e = []
      · subst he; exact ⟨_, .noKey h1 (.inr rfl)⟩
      · exact ⟨_, .quoted h1 he⟩
  · refine ⟨_, .bare h ?_ ?_⟩
    · simpa using hi
    · intro q h1 h2
      exact hq ⟨q, h1, h2⟩

theorem loop_dot {t : Str} (h1 : '.' ∉ t) (h2 : '[' ∉ t) (u s : Str) : selLoop (.dot u) (t ++ s) = selLoop (.dot (u ++ t)) s := by
  induction t generalizing u with
  | nil => simp
  | cons c t ih =>
    simp only [List.mem_cons, not_or] at h1 h2
    rw [List.cons_append, selLoop]
    simp only [selStep, if_neg (Ne.symm h1.1), if_neg (Ne.symm h2.1)]
    rw [ih h1.2 h2.2]; simp

theorem loop_bracket {t : Str} (h : ']' ∉ t) (u s : Str) : selLoop (.bracket u) (t ++ s) = selLoop (.bracket (u ++ t)) s := by
  induction t generalizing u with
  | nil => simp
  | cons c t ih =>
    simp only [List.mem_cons, not_or] at h
    rw [List.cons_append, selLoop]
    simp only [selStep, if_neg (Ne.symm h.1)]
    rw [ih h.2]; simp

/-- Where a dot or a bracket follows, or nothing, it does not matter whether a part has just ended. -/
theorem loop_end (t s : Str) (hs : ∀ c ∈ s.head?, c = '.' ∨ c = '[') : selLoop (.dot t) s = addPart t true ++ selLoop .idle s := by
  cases s with
  | nil => simp [selLoop, selLast]
  | cons c s =>
    rcases hs c rfl with rfl | rfl <;> simp [selLoop, selStep]

theorem says_selector {s p} (h : Says s p) : (selector s).map SelPart.step = p := by
  unfold selector
  induction h with
  | nil => rfl
  | skip h1 h2 _ ih => rw [selLoop]; simp only [selStep, if_neg h1, if_neg h2]; simpa using ih
  | @dot t k s p q h1 h2 h3 h4 h5 _ ih =>
    rw [List.cons_append, selLoop]
    simp only [selStep, if_true, List.nil_append]
    rw [loop_dot h1 h2, List.nil_append, loop_end _ _ h3, List.map_append, ih, dotted_add h4 h5]
  | @bracket t k s p q h1 h2 h3 _ ih =>
    rw [List.cons_append, selLoop]
    simp only [selStep, if_neg (show ¬ ('[' = '.') by decide), if_true, List.nil_append]
    rw [loop_bracket h1, List.nil_append, selLoop]
    simp only [selStep, if_true, List.map_append, ih, bracketed_add h2 h3]
  | @openBracket t h1 =>
    rw [selLoop]
    simp only [selStep, if_neg (show ¬ ('[' = '.') by decide), if_true, List.nil_append]
    have := loop_bracket h1 [] []
    rw [List.append_nil] at this
    rw [this]; rfl

theorem dot_split : ∀ s : Str, ∃ t r, s = t ++ r ∧ '.' ∉ t ∧ '[' ∉ t ∧ ∀ c ∈ r.head?, c = '.' ∨ c = '['
  | [] => ⟨[], [], rfl, by simp, by simp, by intro c hc; simp at hc⟩
  | c :: s => by
    by_cases hc : c = '.' ∨ c = '['
    · exact ⟨[], c :: s, rfl, by simp, by simp, by intro d hd; simp at hd; subst hd; exact hc⟩
    · obtain ⟨t, r, rfl, h1, h2, h3⟩ := dot_split s
      simp only [not_or] at hc
      exact ⟨c :: t, r, rfl, by simp [h1, Ne.symm hc.1], by simp [h2, Ne.symm hc.2], h3⟩

theorem says_total (s : Str) : ∃ p, Says s p := by
  generalize hn : s.length = n
  induction n using Nat.strongRecOn generalizing s with
  | _ n ih =>
  cases s with
  | nil => exact ⟨_, .nil⟩
  | cons c s =>
    by_cases h1 : c = '.'
    · subst h1
      obtain ⟨t, r, rfl, h1, h2, h3⟩ := dot_split s
      obtain ⟨p, hp⟩ := ih r.length (by simp at hn; omega) r rfl
      obtain ⟨q, hq⟩ := dotted_total (strip t)
      exact ⟨_, .dot h1 h2 h3 (strip_stripped t) hq hp⟩
    by_cases h2 : c = '['
    · subst h2
      by_cases hm : ']' ∈ s
      · obtain ⟨t, r, rfl, ht⟩ := split_first ']' s hm
        obtain ⟨p, hp⟩ := ih r.length (by simp at hn; omega) r rfl
        obtain ⟨q, hq⟩ := bracketed_total (strip t)
        exact ⟨_, .bracket ht (strip_stripped t) hq hp⟩
      · exact ⟨_, .openBracket hm⟩
    · obtain ⟨p, hp⟩ := ih s.length (by simp at hn; omega) s rfl
      exact ⟨_, .skip h1 h2 hp⟩

/-- C15.  Every selector says one path, and it is the one the code follows. -/
theorem C15_path (s : Str) (p : List Step) : (selector s).map SelPart.step = p ↔ Says s p := by
  constructor
  · intro h
    obtain ⟨p', hp⟩ := says_total s
    rw [says_selector hp] at h
    subst h; exact hp
  · exact says_selector

/-! ### Where it leads -/

theorem getIndex_some {α : Type} {l : List α} {i : Int} {x : α} : getIndex l i = some x ↔
    ∃ l₁ l₂, l = l₁ ++ x :: l₂ ∧ (i = l₁.length ∨ i = -(l₂.length + 1 : Int)) := by
  have key : ∀ n : Nat, l[n]? = some x ↔ ∃ l₁ l₂, l = l₁ ++ x :: l₂ ∧ n = l₁.length := by
    intro n
    constructor
    · intro h
      obtain ⟨hn, rfl⟩ := List.getElem?_eq_some_iff.1 h
      refine ⟨l.take n, l.drop (n + 1), ?_, ?_⟩
      · rw [List.getElem_cons_drop, List.take_append_drop]
      · simp; omega
    · rintro ⟨l₁, l₂, rfl, rfl⟩
      simp
  unfold getIndex
  by_cases hi : i < 0
  · simp only [if_pos hi]
    split
    · rename_i h
      constructor
      · intro h'; cases h'
      · rintro ⟨l₁, l₂, rfl, h1 | h1⟩
        · omega
        · simp at h; omega
    · rename_i h
      rw [key]
      constructor
      · rintro ⟨l₁, l₂, rfl, h1⟩
        refine ⟨l₁, l₂, rfl, .inr ?_⟩
        simp at h h1; omega
      · rintro ⟨l₁, l₂, rfl, h1 | h1⟩
        · omega
        · refine ⟨l₁, l₂, rfl, ?_⟩
          simp; omega
  · simp only [if_neg hi]
    rw [key]
    constructor
    · rintro ⟨l₁, l₂, rfl, h1⟩
      exact ⟨l₁, l₂, rfl, .inl (by omega)⟩
    · rintro ⟨l₁, l₂, rfl, h1 | h1⟩
      · exact ⟨l₁, l₂, rfl, by omega⟩
      · omega

theorem hasChildren_map {j l} (h : HasChildren j l) : j.children = l.map fun m => (m.1.getD [], m.2) := by
  cases h with
  | arr l => simp [Json.children, Function.comp_def]
  | obj l => simp [Json.children, Function.comp_def]

theorem equals_iff' (s t : Str) (c : Bool) : H2.Str.equals s t c = true ↔ SameText c s t := by
  exact equals_iff ..

theorem getKey_some {l : List (Str × Json)} {k x c} : getKey l k c = some x ↔
    ∃ l₁ k' l₂, l = l₁ ++ (k', x) :: l₂ ∧ SameText c k' k ∧ ∀ m ∈ l₁, ¬ SameText c m.1 k := by
  unfold getKey
  constructor
  · intro h
    cases hf : l.find? (fun m => H2.Str.equals m.1 k c) with
    | none => rw [hf] at h; cases h
    | some m =>
      rw [hf] at h
      simp at h; subst h
      obtain ⟨h1, l₁, l₂, h2, h3⟩ := List.find?_eq_some_iff_append.1 hf
      refine ⟨l₁, m.1, l₂, h2, (equals_iff' _ _ _).1 h1, ?_⟩
      intro m' hm'
      rw [← equals_iff']
      simpa using h3 m' hm'
  · rintro ⟨l₁, k', l₂, rfl, h1, h2⟩
    rw [List.find?_append, List.find?_eq_none.2, Option.none_or, List.find?_cons_of_pos]
    · rfl
    · exact (equals_iff' _ _ _).2 h1
    · intro m hm
      rw [equals_iff']
      exact h2 m hm

theorem get_child {j : Json} {c : SelPart} {caseless x} : j.get c caseless = some x ↔ Child caseless j c.step x := by
  unfold Json.get SelPart.step
  split
  · rename_i hk
    rw [getKey_some]
    constructor
    · rintro ⟨l₁, k', l₂, h1, h2, h3⟩
      cases j with
      | obj l => simp only [Json.children] at h1; subst h1; exact .key h2 h3
      | arr l =>
        exfalso
        simp only [Json.children] at h1
        have hm : (k', x) ∈ l.map fun x => (([] : Str), x) := by rw [h1]; simp
        obtain ⟨y, -, e⟩ := List.mem_map.1 hm
        simp at e
        rw [e.1] at h2
        apply hk
        unfold SameText at h2
        simp at h2
        rcases h2 with h2 | ⟨-, h2⟩ <;> exact h2
      | _ => simp [Json.children] at h1
    · intro h
      cases h with
      | key h1 h2 => exact ⟨_, _, _, rfl, h1, h2⟩
  · rename_i hk
    rw [Option.map_eq_some_iff]
    constructor
    · rintro ⟨⟨k, y⟩, h, rfl⟩
      obtain ⟨l₁, l₂, h1, h2⟩ := getIndex_some.1 h
      have : ∃ l₁' k' l₂', HasChildren j (l₁' ++ (k', y) :: l₂') ∧ l₁'.length = l₁.length ∧ l₂'.length = l₂.length := by
        cases j with
        | obj l =>
          simp only [Json.children] at h1; subst h1
          refine ⟨l₁.map fun m => (some m.1, m.2), some k, l₂.map fun m => (some m.1, m.2), ?_, by simp, by simp⟩
          have := HasChildren.obj (l₁ ++ (k, y) :: l₂)
          simpa using this
        | arr l =>
          simp only [Json.children] at h1
          obtain ⟨a, b, rfl, rfl, hb⟩ := List.map_eq_append_iff.1 h1
          obtain ⟨z, b, rfl, hz, rfl⟩ := List.map_eq_cons_iff.1 hb
          simp at hz
          refine ⟨a.map fun x => (none, x), none, b.map fun x => (none, x), ?_, by simp, by simp⟩
          have := HasChildren.arr (a ++ z :: b)
          rw [hz.2] at this ⊢
          simpa using this
        | _ => simp [Json.children] at h1
      obtain ⟨l₁', k', l₂', hc, e1, e2⟩ := this
      rcases h2 with h2 | h2
      · rw [h2, ← e1]; exact .index hc
      · rw [h2, ← e2]; exact .fromEnd hc
    · intro h
      generalize hi : Step.index c.index = st at h
      cases h with
      | key _ _ => cases hi
      | @index _ l₁ k _ l₂ hc =>
        injection hi with hi
        refine ⟨(k.getD [], x), ?_, rfl⟩
        rw [getIndex_some, hasChildren_map hc]
        exact ⟨l₁.map _, l₂.map _, List.map_append .., .inl (by rw [hi, List.length_map])⟩
      | @fromEnd _ l₁ k _ l₂ hc =>
        injection hi with hi
        refine ⟨(k.getD [], x), ?_, rfl⟩
        rw [getIndex_some, hasChildren_map hc]
        exact ⟨l₁.map _, l₂.map _, List.map_append .., .inr (by rw [hi, List.length_map])⟩

theorem child_key {caseless j k x} (h : Child caseless j (.key k) x) : ∃ l, j = .obj l ∧ getKey l k caseless = some x := by
  cases h with
  | key h1 h2 => exact ⟨_, rfl, getKey_some.2 ⟨_, _, _, rfl, h1, h2⟩⟩

/-- C15.  One step leads to one child at most. -/
theorem C15_child_unique {caseless j c x y} (h : Child caseless j c x) (h' : Child caseless j c y) : x = y := by
  cases c with
  | key k =>
    obtain ⟨l, rfl, h1⟩ := child_key h
    obtain ⟨l', e, h2⟩ := child_key h'
    injection e with e
    subst e
    rw [h1] at h2
    injection h2
  | index i =>
    have a := (get_child (c := { index := i }) (caseless := caseless) (j := j)).2 (by simpa [SelPart.step] using h)
    have b := (get_child (c := { index := i }) (caseless := caseless) (j := j)).2 (by simpa [SelPart.step] using h')
    rw [a] at b
    injection b

theorem selectIn_found {caseless} (l : List SelPart) : ∀ j x, selectIn caseless (some j) l = .found x ↔ Leads caseless j (l.map SelPart.step) x := by
  induction l with
  | nil =>
    intro j x
    simp only [selectIn, List.map_nil, Selected.found.injEq]
    constructor
    · rintro rfl; exact .here
    · intro h; cases h; rfl
  | cons c l ih =>
    intro j x
    rw [selectIn, List.map_cons]
    constructor
    · intro h
      cases hg : j.get c caseless with
      | none => rw [hg] at h; cases l <;> cases h
      | some y => rw [hg] at h; exact .step (get_child.1 hg) ((ih y x).1 h)
    · intro h
      cases h with
      | step h1 h2 => rw [get_child.2 h1]; exact (ih _ _).2 h2

/-- C15.  A value is selected exactly when the path the selector says leads there. -/
theorem C15_found (j x : Json) (s : Str) (caseless : Bool) :
    select j s caseless = .found x ↔ ∃ p, Says s p ∧ Leads caseless j p x := by
  unfold select
  rw [selectIn_found]
  constructor
  · intro h; exact ⟨_, (C15_path s _).1 rfl, h⟩
  · rintro ⟨p, h1, h2⟩
    rw [(C15_path s p).2 h1]; exact h2

theorem selectIn_nothing {caseless} (l : List SelPart) : ∀ j, selectIn caseless (some j) l = .nothing ↔
    ∃ p c y, l.map SelPart.step = p ++ [c] ∧ Leads caseless j p y ∧ ¬ ∃ x, Child caseless y c x := by
  induction l with
  | nil =>
    intro j
    simp [selectIn]
  | cons c l ih =>
    intro j
    rw [selectIn, List.map_cons]
    constructor
    · intro h
      cases hg : j.get c caseless with
      | none =>
        rw [hg] at h
        cases l with
        | nil =>
          refine ⟨[], _, j, rfl, .here, ?_⟩
          rintro ⟨x, hx⟩
          rw [← get_child, hg] at hx; cases hx
        | cons _ _ => cases h
      | some y =>
        rw [hg] at h
        obtain ⟨p, d, z, h1, h2, h3⟩ := (ih y).1 h
        exact ⟨c.step :: p, d, z, by rw [h1]; rfl, .step (get_child.1 hg) h2, h3⟩
    · rintro ⟨p, d, z, h1, h2, h3⟩
      cases p with
      | nil =>
        simp at h1
        obtain ⟨rfl, rfl⟩ := h1
        cases h2
        cases hg : j.get c caseless with
        | none => rfl
        | some y => exact absurd ⟨y, get_child.1 hg⟩ h3
      | cons e p =>
        rw [List.cons_append, List.cons.injEq] at h1
        obtain ⟨rfl, h1⟩ := h1
        cases h2 with
        | step g1 g2 => rw [get_child.2 g1]; exact (ih _).2 ⟨p, d, z, h1, g2, h3⟩

/-- C15.  Nothing is selected exactly when the path leads to a value that has no child for the last step. -/
theorem C15_nothing (j : Json) (s : Str) (caseless : Bool) :
    select j s caseless = .nothing ↔ ∃ p c y, Says s (p ++ [c]) ∧ Leads caseless j p y ∧ ¬ ∃ x, Child caseless y c x := by
  unfold select
  rw [selectIn_nothing]
  constructor
  · rintro ⟨p, c, y, h1, h2⟩
    exact ⟨p, c, y, (C15_path s _).1 h1, h2⟩
  · rintro ⟨p, c, y, h1, h2⟩
    exact ⟨p, c, y, (C15_path s _).2 h1, h2⟩

theorem selectIn_undefined {caseless} (l : List SelPart) : ∀ j, selectIn caseless (some j) l = .undefined ↔
    ∃ p c q y, q ≠ [] ∧ l.map SelPart.step = p ++ c :: q ∧ Leads caseless j p y ∧ ¬ ∃ x, Child caseless y c x := by
  induction l with
  | nil =>
    intro j
    simp [selectIn]
  | cons c l ih =>
    intro j
    rw [selectIn, List.map_cons]
    constructor
    · intro h
      cases hg : j.get c caseless with
      | none =>
        rw [hg] at h
        cases l with
        | nil => cases h
        | cons d l =>
          refine ⟨[], _, (d :: l).map SelPart.step, j, by simp, rfl, .here, ?_⟩
          rintro ⟨x, hx⟩
          rw [← get_child, hg] at hx; cases hx
      | some y =>
        rw [hg] at h
        obtain ⟨p, d, q, z, h0, h1, h2, h3⟩ := (ih y).1 h
        exact ⟨c.step :: p, d, q, z, h0, by rw [h1]; rfl, .step (get_child.1 hg) h2, h3⟩
    · rintro ⟨p, d, q, z, h0, h1, h2, h3⟩
      cases p with
      | nil =>
        simp at h1
        obtain ⟨rfl, rfl⟩ := h1
        cases h2
        cases hg : j.get c caseless with
        | none =>
          cases l with
          | nil => simp at h0
          | cons _ _ => rfl
        | some y => exact absurd ⟨y, get_child.1 hg⟩ h3
      | cons e p =>
        rw [List.cons_append, List.cons.injEq] at h1
        obtain ⟨rfl, h1⟩ := h1
        cases h2 with
        | step g1 g2 => rw [get_child.2 g1]; exact (ih _).2 ⟨p, d, q, z, h0, h1, g2, h3⟩

/-- C15 finding.  A null pointer is dereferenced exactly when a step before the last leads nowhere. -/
theorem C15_undefined (j : Json) (s : Str) (caseless : Bool) :
    select j s caseless = .undefined ↔
      ∃ p c q y, q ≠ [] ∧ Says s (p ++ c :: q) ∧ Leads caseless j p y ∧ ¬ ∃ x, Child caseless y c x := by
  unfold select
  rw [selectIn_undefined]
  constructor
  · rintro ⟨p, c, q, y, h0, h1, h2⟩
    exact ⟨p, c, q, y, h0, (C15_path s _).1 h1, h2⟩
  · rintro ⟨p, c, q, y, h0, h1, h2⟩
    exact ⟨p, c, q, y, h0, (C15_path s _).2 h1, h2⟩

/-! ### Cases -/

def sample : Json := .obj [("a".toList, .arr [.null, .bool true, .str "x".toList]), ("b".toList, .obj [])]

/-- `.a[-1]` is the last element. -/
example : select sample ".a[-1]".toList false = .found (.str "x".toList) := by
  have : selector ".a[-1]".toList = [{ key := ['a'] }, { index := -1 }] := by decide +kernel
  rw [select, this]; rfl
example : select sample "['A'][ 1 ]".toList true = .found (.bool true) := by
  have : selector "['A'][ 1 ]".toList = [{ key := ['A'] }, { index := 1 }] := by decide +kernel
  rw [select, this]; rfl
example : select sample ".a[3]".toList false = .nothing := by
  have : selector ".a[3]".toList = [{ key := ['a'] }, { index := 3 }] := by decide +kernel
  rw [select, this]; rfl
/-- A missing step before the last: undefined. -/
theorem C15_inner_missing_ub : select sample ".c.d".toList false = .undefined := by
  have : selector ".c.d".toList = [{ key := ['c'] }, { key := ['d'] }] := by decide +kernel
  rw [select, this]; rfl
example : Says ".a[-1]".toList [.key ['a'], .index (-1)] := by
  rw [← C15_path]
  have : selector ".a[-1]".toList = [{ key := ['a'] }, { index := -1 }] := by decide +kernel
  rw [this]; rfl
example : Leads false sample [.key ['a'], .index (-1)] (.str "x".toList) :=
  .step (.key (l₁ := []) (.inl rfl) (by simp)) (.step (.fromEnd (l₁ := [(none, .null), (none, .bool true)]) (l₂ := []) (.arr [.null, .bool true, .str "x".toList])) .here)

end H2.Json
