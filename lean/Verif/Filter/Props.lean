import Verif.Filter.Spec
import Verif.Str.Props
import Verif.Pattern.Props
/-
C33 (filters) and C38 (descriptions).
-/
namespace H2.Filter

/-! ### C38 -/

theorem scan_clean (stop : Char) (hs : stop ≠ '"') : ∀ (s : List Char) (q : Bool) (rest : List Char),
    (s.countP isQuote + q.toNat) % 2 = 0 → (∀ u v, s = u ++ stop :: v → (u.countP isQuote + q.toNat) % 2 = 1) →
      scan stop q (s ++ stop :: rest) = (s, stop :: rest) := by
  intro s
  induction s with
  | nil =>
    intro q rest h _
    cases q
    · simp [scan, hs]
    · simp at h
  | cons c s ih =>
    intro q rest h1 h2
    by_cases hc : c = '"'
    · subst hc
      have hne : ('"' == stop) = false := by simp; exact fun e => hs e.symm
      simp only [List.cons_append, scan, if_true, hne, Bool.and_false, Bool.false_eq_true, if_false]
      rw [ih (!q) rest ?_ ?_]
      · rw [List.countP_cons] at h1
        cases q <;> simp [isQuote] at h1 ⊢ <;> omega
      · intro u v e
        have := h2 ('"' :: u) v (by rw [e]; rfl)
        rw [List.countP_cons] at this
        cases q <;> simp [isQuote] at this ⊢ <;> omega
    · have hq : isQuote c = false := by simp [isQuote, hc]
      have hstop : (!q && c == stop) = false := by
        cases q
        · have : c ≠ stop := by
            intro e; subst e
            have := h2 [] s rfl
            simp at this
          simp [this]
        · simp
      simp only [List.cons_append, scan, if_neg hc, hstop, Bool.false_eq_true, if_false]
      rw [ih q rest ?_ ?_]
      · rw [List.countP_cons, hq] at h1
        simpa using h1
      · intro u v e
        have := h2 (c :: u) v (by rw [e]; rfl)
        rw [List.countP_cons, hq] at this
        simpa using this

theorem scan_split (stop : Char) (hs : stop ≠ '"') : ∀ (s : List Char) (q : Bool),
    s = (scan stop q s).1 ++ (scan stop q s).2 ∧ ((scan stop q s).2 = [] ∨ ∃ rest, (scan stop q s).2 = stop :: rest ∧
      ((scan stop q s).1.countP isQuote + q.toNat) % 2 = 0 ∧
      ∀ u v, (scan stop q s).1 = u ++ stop :: v → (u.countP isQuote + q.toNat) % 2 = 1) := by
  intro s
  induction s with
  | nil => intro q; exact ⟨rfl, .inl rfl⟩
  | cons c s ih =>
    intro q
    by_cases hc : c = '"'
    · subst hc
      have hne : ('"' == stop) = false := by simp; exact fun e => hs e.symm
      simp only [scan, if_true, hne, Bool.and_false, Bool.false_eq_true, if_false]
      obtain ⟨h1, h2⟩ := ih (!q)
      refine ⟨by rw [List.cons_append, ← h1], ?_⟩
      rcases h2 with h2 | ⟨rest, h2, h3, h4⟩
      · exact .inl h2
      · refine .inr ⟨rest, h2, ?_, ?_⟩
        · rw [List.countP_cons]
          cases q <;> simp [isQuote] at h3 ⊢ <;> omega
        · intro u v e
          cases u with
          | nil => injection e with e _; exact absurd e.symm hs
          | cons x u =>
            rw [List.cons_append] at e
            injection e with e1 e2
            have := h4 u v e2
            rw [← e1, List.countP_cons]
            cases q <;> simp [isQuote] at this ⊢ <;> omega
    · have hq : isQuote c = false := by simp [isQuote, hc]
      simp only [scan, if_neg hc]
      by_cases hst : (!q && c == stop) = true
      · rw [if_pos hst]
        have hq2 : q = false := by cases q <;> simp at hst ⊢
        have hcs : c = stop := by cases q <;> simp at hst; exact hst
        subst hcs
        subst hq2
        exact ⟨rfl, .inr ⟨s, rfl, rfl, by intro u v e; simp at e⟩⟩
      · rw [if_neg hst]
        simp only
        obtain ⟨h1, h2⟩ := ih q
        refine ⟨by rw [List.cons_append, ← h1], ?_⟩
        rcases h2 with h2 | ⟨rest, h2, h3, h4⟩
        · exact .inl h2
        · refine .inr ⟨rest, h2, ?_, ?_⟩
          · rw [List.countP_cons, hq]; simpa using h3
          · intro u v e
            cases u with
            | nil =>
              injection e with e _
              cases q
              · exact absurd (by simp [e]) hst
              · rfl
            | cons x u =>
              rw [List.cons_append] at e
              injection e with e1 e2
              have := h4 u v e2
              rw [← e1, List.countP_cons, hq]
              simpa using this

theorem delim_iff (c : Char) : delim c = true ↔ Sep c := by simp [delim, Sep]

theorem dropWhile_all {p : Char → Bool} {s t : List Char} (h : ∀ c ∈ s, p c = true) : (s ++ t).dropWhile p = t.dropWhile p := by
  induction s with
  | nil => rfl
  | cons c s ih =>
    rw [List.cons_append, List.dropWhile_cons, if_pos (h c (List.mem_cons_self ..)), ih fun d hd => h d (List.mem_cons_of_mem _ hd)]

theorem takeWhile_all {p : Char → Bool} {s t : List Char} (h : ∀ c ∈ s, p c = true) : (s ++ t).takeWhile p = s ++ t.takeWhile p := by
  induction s with
  | nil => rfl
  | cons c s ih =>
    rw [List.cons_append, List.takeWhile_cons, if_pos (h c (List.mem_cons_self ..)), ih fun d hd => h d (List.mem_cons_of_mem _ hd), List.cons_append]

theorem strtok_tags {text : List Char} {ts : List (List Char)} (h : Tags text ts) : ∀ n, text.length ≤ n → strtok n text = ts := by
  have hd : ∀ ds : List Char, (∀ c ∈ ds, Sep c) → ∀ c ∈ ds, delim c = true := fun ds h c hc => (delim_iff c).2 (h c hc)
  have ht : ∀ t : List Char, (∀ c ∈ t, ¬ Sep c) → ∀ c ∈ t, delim c = false := by
    intro t h c hc
    cases hx : delim c
    · rfl
    · exact absurd ((delim_iff c).1 hx) (h c hc)
  induction h with
  | @none ds hds =>
    intro n _
    cases n with
    | zero => rfl
    | succ n =>
      have e : ds.dropWhile delim = [] := by
        have := dropWhile_all (t := []) (hd ds hds)
        simpa using this
      simp only [strtok, e]
  | @last ds t hds hne htt =>
    intro n hn
    cases n with
    | zero =>
      have : t.length = 0 := by rw [List.length_append] at hn; omega
      exact absurd (List.length_eq_zero_iff.1 this) hne
    | succ n =>
      have e : (ds ++ t).dropWhile delim = t := by
        rw [dropWhile_all (hd ds hds)]
        cases t with
        | nil => rfl
        | cons c t => rw [List.dropWhile_cons, ht _ htt c (List.mem_cons_self ..)]; rfl
      have htk : t.takeWhile (fun c => !delim c) = t := by
        have := takeWhile_all (p := fun c => !delim c) (t := []) (s := t) (by intro c hc; simp [ht _ htt c hc])
        simpa using this
      have hdk : t.dropWhile (fun c => !delim c) = [] := by
        have := dropWhile_all (p := fun c => !delim c) (t := []) (s := t) (by intro c hc; simp [ht _ htt c hc])
        simpa using this
      cases t with
      | nil => exact absurd rfl hne
      | cons c t =>
        simp only [strtok, e, htk, hdk]
        cases n <;> rfl
  | @more ds t d rest ts hds hne htt hdd hr ih =>
    intro n hn
    cases n with
    | zero => simp at hn
    | succ n =>
      have e : (ds ++ t ++ d :: rest).dropWhile delim = t ++ d :: rest := by
        rw [List.append_assoc, dropWhile_all (hd ds hds)]
        cases t with
        | nil => exact absurd rfl hne
        | cons c t => rw [List.cons_append, List.dropWhile_cons, ht _ htt c (List.mem_cons_self ..)]; rfl
      have hdd : delim d = true := (delim_iff d).2 hdd
      have htk : (t ++ d :: rest).takeWhile (fun c => !delim c) = t := by
        rw [takeWhile_all (p := fun c => !delim c) (s := t) (by intro c hc; simp [ht _ htt c hc])]
        simp [hdd]
      have hdk : (t ++ d :: rest).dropWhile (fun c => !delim c) = d :: rest := by
        rw [dropWhile_all (p := fun c => !delim c) (s := t) (by intro c hc; simp [ht _ htt c hc])]
        simp [hdd]
      obtain ⟨w, hw⟩ : ∃ w, t ++ d :: rest = w := ⟨_, rfl⟩
      rw [hw] at e htk hdk
      cases w with
      | nil => cases t <;> simp at hw
      | cons c w =>
        simp only [strtok, e, htk, hdk, List.drop_one, List.tail_cons]
        rw [ih n (by simp only [List.length_append, List.length_cons] at hn; omega)]

/-- Every text has tags, and only one list of them. -/
theorem tags_exist (text : List Char) : ∃ ts, Tags text ts := by
  suffices h : ∀ n (text : List Char), text.length ≤ n → ∃ ts, Tags text ts from h _ _ (Nat.le_refl _)
  intro n
  induction n with
  | zero =>
    intro text h
    have : text = [] := List.length_eq_zero_iff.1 (by omega)
    subst this
    exact ⟨[], .none (by simp)⟩
  | succ n ih =>
    intro text hn
    have h1 : text = text.takeWhile delim ++ text.dropWhile delim := List.takeWhile_append_dropWhile.symm
    have h2 : ∀ c ∈ text.takeWhile delim, Sep c := by
      intro c hc
      have := List.all_takeWhile (p := delim) (l := text)
      rw [List.all_eq_true] at this
      exact (delim_iff c).1 (this c hc)
    obtain ⟨ds, hds⟩ : ∃ ds, text.takeWhile delim = ds := ⟨_, rfl⟩
    obtain ⟨t, ht⟩ : ∃ t, text.dropWhile delim = t := ⟨_, rfl⟩
    rw [hds, ht] at h1
    rw [hds] at h2
    have hhead : ∀ c r, t = c :: r → delim c = false := by
      intro c r e
      have := List.head?_dropWhile_not (p := delim) (l := text)
      rw [ht, e] at this
      simpa using this
    have h3 : t = t.takeWhile (fun c => !delim c) ++ t.dropWhile (fun c => !delim c) := List.takeWhile_append_dropWhile.symm
    have h4 : ∀ c ∈ t.takeWhile (fun c => !delim c), ¬ Sep c := by
      intro c hc
      have := List.all_takeWhile (p := fun c => !delim c) (l := t)
      rw [List.all_eq_true] at this
      have := this c hc
      rw [← delim_iff]; simpa using this
    have h5 : ∀ c r, t.dropWhile (fun c => !delim c) = c :: r → Sep c := by
      intro c r e
      have := List.head?_dropWhile_not (p := fun c => !delim c) (l := t)
      rw [e] at this
      rw [← delim_iff]; simpa using this
    cases htt : t with
    | nil =>
      rw [htt, List.append_nil] at h1
      rw [h1]
      exact ⟨[], .none h2⟩
    | cons c r =>
      have hne : t.takeWhile (fun c => !delim c) ≠ [] := by
        rw [htt, List.takeWhile_cons, hhead c r htt]; simp
      cases hw : t.dropWhile (fun c => !delim c) with
      | nil =>
        rw [hw, List.append_nil] at h3
        rw [h1, h3]
        exact ⟨_, .last h2 hne h4⟩
      | cons d rest =>
        rw [hw] at h3
        have hlen : rest.length ≤ n := by
          have := congrArg List.length h1
          have h6 := congrArg List.length h3
          simp only [List.length_append, List.length_cons] at this h6
          omega
        obtain ⟨ts, hts⟩ := ih rest hlen
        rw [h1]
        rw [h3, ← List.append_assoc]
        exact ⟨_, .more h2 hne h4 (h5 d rest hw) hts⟩

/-- **C38.** A description `pre[mid]post`, where the bracket is the first outside quotes and closes at the first
closing one outside quotes, gives the name `pre` followed by `post`, without leading white space, and the tags of
`mid` in order (the first 63 of them). -/
theorem C38_tags (filine pre mid post : List Char) (ts : List (List Char)) (hlen : (pre ++ '[' :: mid ++ ']' :: post).length < 512)
    (h1 : Clean '[' pre) (h2 : Clean ']' mid) (h3 : Tags mid ts) :
    ∃ t, Test.new filine (pre ++ '[' :: mid ++ ']' :: post) = some t ∧ t.filine = filine ∧ t.name = (pre ++ post).dropWhile isspace ∧ t.tags = ts.take 63 := by
  have e1 : scan '[' false (pre ++ '[' :: (mid ++ ']' :: post)) = (pre, '[' :: (mid ++ ']' :: post)) :=
    scan_clean '[' (by decide) pre false _ (by simpa using h1.1) (by intro u v e; simpa using h1.2 u v e)
  have e2 : scan ']' false ('[' :: (mid ++ ']' :: post)) = ('[' :: mid, ']' :: post) := by
    have := scan_clean ']' (by decide) ('[' :: mid) false post (by rw [List.countP_cons]; simpa [isQuote] using h2.1) (by
      intro u v e
      cases u with
      | nil => simp at e
      | cons x u =>
        rw [List.cons_append] at e
        injection e with e1 e2
        have := h2.2 u v e2
        rw [← e1, List.countP_cons]; simpa [isQuote] using this)
    exact this
  have e : pre ++ '[' :: mid ++ ']' :: post = pre ++ '[' :: (mid ++ ']' :: post) := by simp
  have hs : splitDescribe (pre ++ '[' :: (mid ++ ']' :: post)) = some (pre ++ post, mid) := by
    unfold splitDescribe
    rw [if_neg (by rw [← e]; omega)]
    simp only [e1, e2, List.drop_one, List.tail_cons]
  rw [e]
  unfold Test.new
  rw [hs]
  refine ⟨_, rfl, rfl, rfl, ?_⟩
  show (strtok mid.length mid).take 63 = _
  rw [strtok_tags h3 _ (Nat.le_refl _)]

/-- **C38.** A description without such brackets is the name, without leading white space, and has no tags. -/
theorem C38_plain (filine describe : List Char) (hlen : describe.length < 512)
    (h : ¬ ∃ pre mid post, describe = pre ++ '[' :: mid ++ ']' :: post ∧ Clean '[' pre ∧ Clean ']' mid) :
    ∃ t, Test.new filine describe = some t ∧ t.filine = filine ∧ t.name = describe.dropWhile isspace ∧ t.tags = [] := by
  have hs : splitDescribe describe = some (describe, []) := by
    unfold splitDescribe
    rw [if_neg (by omega)]
    simp only
    obtain ⟨a1, a2⟩ := scan_split '[' (by decide) describe false
    rcases a2 with a2 | ⟨r, a2, a3, a4⟩
    · rw [a2]
    · rw [a2]
      simp only
      obtain ⟨b1, b2⟩ := scan_split ']' (by decide) ('[' :: r) false
      rcases b2 with b2 | ⟨w, b2, b3, b4⟩
      · rw [b2]
      · exfalso
        apply h
        have hx : ∃ mid, (scan ']' false ('[' :: r)).1 = '[' :: mid := by
          refine ⟨(scan ']' false r).1, ?_⟩
          simp [scan]
        obtain ⟨mid, hm⟩ := hx
        rw [hm, b2] at b1
        refine ⟨(scan '[' false describe).1, mid, w, ?_, ?_, ?_⟩
        · conv => lhs; rw [a1, a2, b1]
          simp
        · exact ⟨by simpa using a3, fun u v e => by simpa using a4 u v e⟩
        · rw [hm] at b3 b4
          refine ⟨by rw [List.countP_cons] at b3; simpa [isQuote] using b3, ?_⟩
          intro u v e
          have := b4 ('[' :: u) v (by rw [e]; rfl)
          rw [List.countP_cons] at this
          simpa [isQuote] using this
  unfold Test.new
  rw [hs]
  exact ⟨_, rfl, rfl, rfl, rfl⟩

/-- The name keeps blanks before the bracket. -/
example : Test.new [] "sort [fast, unit  x] big".toList = some { filine := [], name := "sort  big".toList, tags := ["fast".toList, "unit".toList, "x".toList] } := by decide
example : Test.new [] " a \"[x]\" b".toList = some { filine := [], name := "a \"[x]\" b".toList, tags := [] } := by decide
example : Clean '[' "a \"[\" b ".toList ∧ Tags "t1 ,t2".toList ["t1".toList, "t2".toList] := by
  refine ⟨⟨by decide, ?_⟩, ?_⟩
  · intro u v h
    rcases u with _ | ⟨a, _ | ⟨b, _ | ⟨c, _ | ⟨d, _ | ⟨e, _ | ⟨f, _ | ⟨g, _ | ⟨i, u⟩⟩⟩⟩⟩⟩⟩⟩ <;> simp at h <;> try (obtain ⟨rfl, rfl, rfl, _⟩ := h; decide)
  · exact .more (ds := []) (t := "t1".toList) (d := ' ') (rest := ",t2".toList) (by simp) (by decide) (by unfold Sep; decide) (.inl rfl)
      (.last (ds := ",".toList) (t := "t2".toList) (by unfold Sep; decide) (by decide) (by unfold Sep; decide))

/-! ### C33 -/

section
variable {wild : List Char → List Char → Bool} {Wild : List Char → List Char → Prop} (hw : ∀ p s, wild p s = true ↔ Wild p s)
include hw

omit hw in
theorem special_iff (p : List Char) : special p = true ↔ Special p := by
  unfold special Special
  rw [List.any_eq_true]
  constructor
  · rintro ⟨c, hc, h⟩; exact ⟨c, hc, by simpa [or_assoc] using h⟩
  · rintro ⟨c, hc, h⟩; exact ⟨c, hc, by simpa [or_assoc] using h⟩

theorem matchNames_iff (ps : List (List Char)) (t : List Char) : matchNames wild ps t = true ↔ ∃ p ∈ ps, Fits Wild p t := by
  unfold matchNames
  rw [List.any_eq_true]
  constructor
  · rintro ⟨p, hp, h⟩
    refine ⟨p, hp, ?_⟩
    rw [Bool.or_eq_true, Bool.and_eq_true, special_iff, hw] at h
    rcases h with h | h
    · left
      simp only [H2.Str.contains, if_true, H2.Str.find_isSome] at h
      obtain ⟨u, v, e⟩ := h
      unfold H2.Str.lower at e
      have e' : t.map Char.toLower = u ++ p.map Char.toLower ++ v := by rw [← e]
      obtain ⟨a, w, rfl, ha, hv⟩ := List.map_eq_append_iff.1 e'
      obtain ⟨u', v', rfl, hu, hv'⟩ := List.map_eq_append_iff.1 ha
      exact ⟨u', v', w, rfl, hv'⟩
    · exact .inr h
  · rintro ⟨p, hp, h⟩
    refine ⟨p, hp, ?_⟩
    rw [Bool.or_eq_true, Bool.and_eq_true, special_iff, hw]
    rcases h with ⟨u, v, w, rfl, hv⟩ | h
    · left
      simp only [H2.Str.contains, if_true, H2.Str.find_isSome]
      refine ⟨H2.Str.lower u, H2.Str.lower w, ?_⟩
      unfold H2.Str.lower Alike at *
      rw [List.map_append, List.map_append, hv]
    · exact .inr h

theorem tagged_iff (t : Test) (p : List Char) : tagged wild t p = true ↔ ∃ g ∈ t.tags, FitsTag Wild p g := by
  unfold tagged FitsTag
  rw [List.any_eq_true]
  have : ∀ g, (same g p || special p && wild p g) = true ↔ (Alike g p ∨ (Special p ∧ Wild p g)) := by
    intro g
    rw [Bool.or_eq_true, Bool.and_eq_true, special_iff, hw]
    unfold same Alike H2.Str.lower
    rw [beq_iff_eq]
  simp only [this]

theorem matchTags_iff (ps : List (List Char)) (t : Test) : matchTags wild ps t = true ↔ ∃ p ∈ ps, ∃ g ∈ t.tags, FitsTag Wild p g := by
  unfold matchTags
  rw [List.any_eq_true]
  simp only [tagged_iff hw]

omit hw in
theorem opt_iff (c : Option Test) (f : Test → Bool) : opt c f = true ↔ ∃ d, c = some d ∧ f d = true := by
  cases c <;> simp [opt]

omit hw in
theorem given_iff (ps : List (List Char)) : given ps = true ↔ ps ≠ [] := by
  cases ps <;> simp [given]

/-- The test of one category. -/
def sel (wild : List Char → List Char → Bool) (s : Test) (c : Option Test) (ps : List (List Char)) : Category → Bool
  | .file => matchNames wild ps s.filine || opt c fun c => matchNames wild ps c.filine
  | .suite => matchNames wild ps s.name
  | .case => opt c fun c => matchNames wild ps c.name
  | .tag => matchTags wild ps s || opt c fun c => matchTags wild ps c
  | .any => matchNames wild ps s.filine || opt c (fun c => matchNames wild ps c.filine) || matchNames wild ps s.name ||
      opt c (fun c => matchNames wild ps c.name) || matchTags wild ps s || opt c fun c => matchTags wild ps c

theorem sel_iff (s : Test) (c : Option Test) (ps : List (List Char)) (k : Category) : sel wild s c ps k = true ↔ ∃ p ∈ ps, Selects Wild s c p k := by
  cases k <;> simp only [sel, Selects, Bool.or_eq_true, opt_iff, matchNames_iff hw, matchTags_iff hw]
  · constructor
    · rintro (((((⟨p, hp, h⟩ | ⟨d, hd, p, hp, h⟩) | ⟨p, hp, h⟩) | ⟨d, hd, p, hp, h⟩) | ⟨p, hp, h⟩) | ⟨d, hd, p, hp, h⟩)
      · exact ⟨p, hp, .inl (.inl h)⟩
      · exact ⟨p, hp, .inl (.inr ⟨d, hd, h⟩)⟩
      · exact ⟨p, hp, .inr (.inl h)⟩
      · exact ⟨p, hp, .inr (.inr (.inl ⟨d, hd, h⟩))⟩
      · exact ⟨p, hp, .inr (.inr (.inr (.inl h)))⟩
      · exact ⟨p, hp, .inr (.inr (.inr (.inr ⟨d, hd, h⟩)))⟩
    · rintro ⟨p, hp, ((h | ⟨d, hd, h⟩) | h | ⟨d, hd, h⟩ | h | ⟨d, hd, h⟩)⟩
      · exact .inl (.inl (.inl (.inl (.inl ⟨p, hp, h⟩))))
      · exact .inl (.inl (.inl (.inl (.inr ⟨d, hd, p, hp, h⟩))))
      · exact .inl (.inl (.inl (.inr ⟨p, hp, h⟩)))
      · exact .inl (.inl (.inr ⟨d, hd, p, hp, h⟩))
      · exact .inl (.inr ⟨p, hp, h⟩)
      · exact .inr ⟨d, hd, p, hp, h⟩
  · constructor
    · rintro (⟨p, hp, h⟩ | ⟨d, hd, p, hp, h⟩)
      · exact ⟨p, hp, .inl h⟩
      · exact ⟨p, hp, .inr ⟨d, hd, h⟩⟩
    · rintro ⟨p, hp, (h | ⟨d, hd, h⟩)⟩
      · exact .inl ⟨p, hp, h⟩
      · exact .inr ⟨d, hd, p, hp, h⟩
  · constructor
    · rintro ⟨d, hd, p, hp, h⟩; exact ⟨p, hp, d, hd, h⟩
    · rintro ⟨p, hp, d, hd, h⟩; exact ⟨d, hd, p, hp, h⟩
  · constructor
    · rintro (⟨p, hp, h⟩ | ⟨d, hd, p, hp, h⟩)
      · exact ⟨p, hp, .inl h⟩
      · exact ⟨p, hp, .inr ⟨d, hd, h⟩⟩
    · rintro ⟨p, hp, (h | ⟨d, hd, h⟩)⟩
      · exact .inl ⟨p, hp, h⟩
      · exact .inr ⟨d, hd, p, hp, h⟩

omit hw in
theorem sel_nil (s : Test) (c : Option Test) (k : Category) : sel wild s c [] k = false := by
  cases k <;> cases c <;> simp [sel, matchNames, matchTags, opt]

omit hw in
theorem given_and (s : Test) (c : Option Test) (ps : List (List Char)) (k : Category) : (given ps && sel wild s c ps k) = sel wild s c ps k := by
  cases ps with
  | nil => rw [sel_nil]; rfl
  | cons p ps => rfl

omit hw in
theorem given_or (s : Test) (c : Option Test) (ps : List (List Char)) (k : Category) (m : Bool) : (if given ps = true then m || sel wild s c ps k else m) = (m || sel wild s c ps k) := by
  cases ps with
  | nil => rw [sel_nil]; simp [given]
  | cons p ps => rfl

omit hw in
/-- `filter` category by category. -/
theorem filter_eq (o : Lists) (s : Test) (c : Option Test) : filter wild o s c =
    (((given o.includes || given o.fileIncludes || given o.suiteIncludes || given o.caseIncludes || given o.tagsIncludes) &&
      !(sel wild s c o.includes .any || sel wild s c o.fileIncludes .file || sel wild s c o.suiteIncludes .suite || sel wild s c o.caseIncludes .case || sel wild s c o.tagsIncludes .tag)) ||
    (sel wild s c o.excludes .any || sel wild s c o.fileExcludes .file || sel wild s c o.suiteExcludes .suite || sel wild s c o.caseExcludes .case || sel wild s c o.tagsExcludes .tag)) := by
  have g1 := given_or (wild := wild) s c o.includes .any
  have g2 := given_or (wild := wild) s c o.fileIncludes .file
  have g3 := given_or (wild := wild) s c o.suiteIncludes .suite
  have g4 := given_or (wild := wild) s c o.caseIncludes .case
  have g5 := given_or (wild := wild) s c o.tagsIncludes .tag
  have e1 := given_and (wild := wild) s c o.excludes .any
  have e2 := given_and (wild := wild) s c o.fileExcludes .file
  have e3 := given_and (wild := wild) s c o.suiteExcludes .suite
  have e4 := given_and (wild := wild) s c o.caseExcludes .case
  have e5 := given_and (wild := wild) s c o.tagsExcludes .tag
  have ha : ∀ ps, ((matchNames wild ps s.filine || opt c fun c => matchNames wild ps c.filine) ||
      (matchNames wild ps s.name || opt c fun c => matchNames wild ps c.name) || (matchTags wild ps s || opt c fun c => matchTags wild ps c)) = sel wild s c ps .any := by
    intro ps; simp only [sel, Bool.or_assoc]
  have hf : filter wild o s c =
      (let dropped :=
        if given o.includes || given o.fileIncludes || given o.suiteIncludes || given o.caseIncludes || given o.tagsIncludes then
          let m := false
          let m := if given o.includes then m || sel wild s c o.includes .any else m
          let m := if given o.fileIncludes then m || sel wild s c o.fileIncludes .file else m
          let m := if given o.suiteIncludes then m || sel wild s c o.suiteIncludes .suite else m
          let m := if given o.caseIncludes then m || sel wild s c o.caseIncludes .case else m
          let m := if given o.tagsIncludes then m || sel wild s c o.tagsIncludes .tag else m
          !m
        else false
      if dropped then true
      else if given o.excludes && sel wild s c o.excludes .any then true
      else if given o.fileExcludes && sel wild s c o.fileExcludes .file then true
      else if given o.suiteExcludes && sel wild s c o.suiteExcludes .suite then true
      else if given o.caseExcludes && sel wild s c o.caseExcludes .case then true
      else if given o.tagsExcludes && sel wild s c o.tagsExcludes .tag then true
      else false) := by
    rw [← ha o.excludes]
    rfl
  rw [hf]
  simp only [g1, g2, g3, g4, g5, e1, e2, e3, e4, e5]
  generalize sel wild s c o.includes .any = a1
  generalize sel wild s c o.fileIncludes .file = a2
  generalize sel wild s c o.suiteIncludes .suite = a3
  generalize sel wild s c o.caseIncludes .case = a4
  generalize sel wild s c o.tagsIncludes .tag = a5
  generalize sel wild s c o.excludes .any = b1
  generalize sel wild s c o.fileExcludes .file = b2
  generalize sel wild s c o.suiteExcludes .suite = b3
  generalize sel wild s c o.caseExcludes .case = b4
  generalize sel wild s c o.tagsExcludes .tag = b5
  generalize (given o.includes || given o.fileIncludes || given o.suiteIncludes || given o.caseIncludes || given o.tagsIncludes) = x
  simp only [Bool.false_or]
  have : ∀ a b : Bool, (if a = true then true else b) = (a || b) := by intro a b; cases a <;> rfl
  have hx : ∀ a : Bool, (if x = true then a else false) = (x && a) := by intro a; cases x <;> rfl
  simp only [this, hx, Bool.or_false, Bool.or_assoc]

/-- **C33.** A case (or a suite by itself) is kept exactly when some include pattern selects it, or none is given,
and no exclude pattern selects it. -/
theorem C33_wanted (o : Lists) (s : Test) (c : Option Test) : filter wild o s c = false ↔ Wanted Wild o s c := by
  rw [filter_eq, Bool.or_eq_false_iff]
  unfold Wanted
  have hex : ∀ f : Category → List (List Char), (sel wild s c (f .any) .any || sel wild s c (f .file) .file || sel wild s c (f .suite) .suite || sel wild s c (f .case) .case || sel wild s c (f .tag) .tag) = true ↔
      ∃ k, ∃ p ∈ f k, Selects Wild s c p k := by
    intro f
    simp only [Bool.or_eq_true, sel_iff hw]
    constructor
    · rintro ((((h | h) | h) | h) | h)
      · exact ⟨.any, h⟩
      · exact ⟨.file, h⟩
      · exact ⟨.suite, h⟩
      · exact ⟨.case, h⟩
      · exact ⟨.tag, h⟩
    · rintro ⟨k, h⟩
      cases k
      · exact .inl (.inl (.inl (.inl h)))
      · exact .inl (.inl (.inl (.inr h)))
      · exact .inl (.inl (.inr h))
      · exact .inl (.inr h)
      · exact .inr h
  have hi := hex o.inc
  have he := hex o.exc
  simp only [Lists.inc, Lists.exc] at hi he
  have hg : (given o.includes || given o.fileIncludes || given o.suiteIncludes || given o.caseIncludes || given o.tagsIncludes) = false ↔ ∀ k, o.inc k = [] := by
    have : ∀ ps, given ps = false ↔ ps = [] := by intro ps; cases ps <;> simp [given]
    simp only [Bool.or_eq_false_iff, this]
    constructor
    · rintro ⟨⟨⟨⟨h1, h2⟩, h3⟩, h4⟩, h5⟩ k
      cases k <;> assumption
    · intro h
      exact ⟨⟨⟨⟨h .any, h .file⟩, h .suite⟩, h .case⟩, h .tag⟩
  refine and_congr ?_ ?_
  · rw [Bool.and_eq_false_iff, hg, Bool.not_eq_false', hi]
    rfl
  · rw [Bool.eq_false_iff, ne_eq, he]
    rfl

omit hw in
theorem filterCases_eq (o : Lists) (s : Test) (cs : List Test) : ∀ f : Bool, filterCases wild o s cs f =
    (cs.map fun c => filter wild o s (some c), f && cs.all fun c => filter wild o s (some c)) := by
  induction cs with
  | nil => intro f; simp [filterCases]
  | cons c cs ih =>
    intro f
    simp only [filterCases, ih, List.map_cons, List.all_cons]
    cases filter wild o s (some c) <;> simp

/-- **C33.** The filtering step marks exactly the unwanted cases of every suite. -/
theorem C33_cases (o : Lists) (s : Test) (cs : List Test) (i : Nat) (c : Test) (hc : cs[i]? = some c) :
    (filterSuite wild o s cs).1.length = cs.length ∧ ((filterSuite wild o s cs).1[i]? = some false ↔ Wanted Wild o s (some c)) := by
  unfold filterSuite
  rw [filterCases_eq]
  refine ⟨by simp, ?_⟩
  simp only [List.getElem?_map, hc, Option.map_some, Option.some.injEq]
  exact C33_wanted hw o s (some c)

/-- **C33.** A suite is marked exactly when it is unwanted by itself and so are all its cases. -/
theorem C33_suite (o : Lists) (s : Test) (cs : List Test) :
    (filterSuite wild o s cs).2 = true ↔ ¬ Wanted Wild o s none ∧ ∀ c ∈ cs, ¬ Wanted Wild o s (some c) := by
  unfold filterSuite
  rw [filterCases_eq]
  simp only [Bool.and_eq_true, List.all_eq_true]
  have h : ∀ c, filter wild o s c = true ↔ ¬ Wanted Wild o s c := by
    intro c
    rw [← C33_wanted hw o s c]
    simp
  simp only [h]

end

/-- The built-in wildcard matcher as a function. -/
theorem builtin_exists : ∃ wild : List Char → List Char → Bool, (∀ p s, ∃ n, ∀ m, n ≤ m → H2.Pattern.run true m (H2.Pattern.start p s) = some (wild p s)) ∧
    ∀ p s, wild p s = true ↔ H2.Pattern.Glob (H2.Pattern.CharEq true) p s := by
  have h := fun p s => H2.Pattern.C10_wildcard true p s
  refine ⟨fun p s => Classical.choose (Classical.choose_spec (h p s)), ?_, ?_⟩
  · intro p s
    exact ⟨_, (Classical.choose_spec (Classical.choose_spec (h p s))).1⟩
  · intro p s
    exact (Classical.choose_spec (Classical.choose_spec (h p s))).2

/-- **C33.** With the built-in wildcard matcher. -/
theorem C33_builtin : ∃ wild : List Char → List Char → Bool, (∀ p s, ∃ n, ∀ m, n ≤ m → H2.Pattern.run true m (H2.Pattern.start p s) = some (wild p s)) ∧
    ∀ o s c, filter wild o s c = false ↔ Wanted (H2.Pattern.Glob (H2.Pattern.CharEq true)) o s c := by
  obtain ⟨wild, h1, h2⟩ := builtin_exists
  exact ⟨wild, h1, fun o s c => C33_wanted h2 o s c⟩

/-- Finding: a suite all of whose cases are filtered need not count as filtered itself. -/
theorem C33_suite_false : ∃ (o : Lists) (s c : Test), filterSuite (fun _ _ => false) o s [c] = ([true], false) :=
  ⟨{ caseExcludes := ["x".toList] }, ⟨[], [], []⟩, ⟨[], "x".toList, []⟩, by decide⟩

/-- Include by tag, exclude by case name. -/
def sampleLists : Lists := { tagsIncludes := ["FAST".toList], caseExcludes := ["slow".toList] }
example : filterSuite (fun _ _ => false) sampleLists ⟨"a.cpp:1".toList, "s".toList, []⟩
    [⟨"a.cpp:2".toList, "one".toList, ["fast".toList]⟩, ⟨"a.cpp:3".toList, "Slow one".toList, ["fast".toList]⟩, ⟨"a.cpp:4".toList, "two".toList, []⟩] =
    ([false, true, true], false) := by decide

end H2.Filter
