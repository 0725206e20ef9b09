import Verif.Cli.Meaning
/-
C39: what the command line sets.
-/
namespace H2.Cli

theorem applyAll_meaning (path) : ∀ (is pre : List Item), (∀ i ∈ pre ++ is, Good path i) → (∀ i ∈ is, Formed i) →
    (∀ c w, .word c (some w) ∈ is → w.head? ≠ some '-') →
    applyAll path (meaning path pre) is = .ok (meaning path (pre ++ is))
  | [], pre, _, _, _ => by simp [applyAll]
  | i :: is, pre, hg, hf, hw => by
    have hgi := hg i (by simp)
    have hfi := hf i (by simp)
    have step : apply path (meaning path pre) i = .ok (meaning path (pre ++ [i])) := by
      cases i with
      | flag c => exact step_flag path pre c hfi
      | number c n => exact step_number path pre c n hfi hgi
      | words c ws => exact step_words path pre (fun i hi => hg i (by simp [hi])) c ws hfi hgi
      | word c w =>
        refine step_word path pre c w hfi hgi ?_
        rintro x hx
        cases w with
        | none => simp at hx
        | some w =>
          simp only [Option.mem_def, Option.some.injEq] at hx
          subst hx
          exact hw c _ (by simp)
    simp only [applyAll, step]
    have := applyAll_meaning path is (pre ++ [i]) (by simpa using hg) (fun i hi => hf i (by simp [hi]))
      (fun c w h => hw c w (by simp [h]))
    simpa using this

theorem writes_word {j args is} (h : Writes j args is) : ∀ c w, .word c (some w) ∈ is → w.head? ≠ some '-' := by
  induction h with
  | nil => simp
  | stray _ _ ih => exact ih
  | dash _ ih => exact ih
  | word h1 h2 _ ih =>
    intro c w hi
    rcases List.mem_cons.mp hi with e | hi
    · cases e; exact h2
    · exact ih c w hi
  | flag _ _ _ _ ih => intro c w hi; rcases List.mem_cons.mp hi with e | hi; cases e; exact ih c w hi
  | attached _ _ _ _ ih => intro c w hi; rcases List.mem_cons.mp hi with e | hi; cases e; exact ih c w hi
  | separate _ _ _ _ ih => intro c w hi; rcases List.mem_cons.mp hi with e | hi; cases e; exact ih c w hi
  | bare _ _ _ _ ih => intro c w hi; rcases List.mem_cons.mp hi with e | hi; cases e; exact ih c w hi
  | words _ _ _ _ ih => intro c w hi; rcases List.mem_cons.mp hi with e | hi; cases e; exact ih c w hi
  | noWord _ _ _ ih => intro c w hi; rcases List.mem_cons.mp hi with e | hi; cases e; exact ih c w hi

/-! The computed fields say what `Sets` says. -/

theorem hasFlag_iff (c is) : hasFlag c is = true ↔ .flag c ∈ is := by
  simp [hasFlag, List.any_eq_true]

theorem evenFlag_iff (c is) : evenFlag c is = true ↔ is.count (.flag c) % 2 = 0 := by simp [evenFlag]

theorem stand_iff {ks} (hn : ks.Nodup) (c is k) : stand ks c is k = true ↔ Given ks c is k := by
  simp only [stand, List.any_eq_true, beq_iff_eq, Given, candidate_iff hn]

theorem firstBare_iff (c is) : firstBare c is = true ↔ FirstBare c is := by
  simp only [firstBare, beq_iff_eq, List.find?_eq_some_iff_append, FirstBare]
  constructor
  · rintro ⟨_, a, b, h, ha⟩
    refine ⟨a, b, h, fun ws hw => ?_⟩
    have := ha _ hw
    simp [isWords] at this
  · rintro ⟨a, b, h, ha⟩
    refine ⟨by simp [isWords], a, b, h, fun x hx => ?_⟩
    cases x with
    | words d ws =>
      simp only [isWords, Bool.not_eq_true', beq_eq_false_iff_ne, ne_eq]
      rintro rfl
      exact ha ws hx
    | _ => simp [isWords]

theorem lastWord_none {c is} (h : ∀ w, .word c w ∉ is) : lastWord c is = none := by
  simp only [lastWord, List.getLast?_eq_none_iff, List.filterMap_eq_nil_iff]
  intro i hi
  cases i with
  | word d w =>
    have : d ≠ c := by rintro rfl; exact h w hi
    simp [this]
  | _ => rfl

theorem lastWord_last {c w a b} (hb : ∀ w, .word c w ∉ b) : lastWord c (a ++ .word c w :: b) = some w := by
  have h := lastWord_none hb
  simp only [lastWord, List.getLast?_eq_none_iff] at h
  simp only [lastWord, List.filterMap_append, List.filterMap_cons, if_true, h]
  simp

theorem patternsOf_keyed (c is key) : keyed c is key (patternsOf c is key) := by
  refine ⟨keyedF key, fun w v => ?_, rfl⟩
  unfold keyedF
  cases hs : splitEq w with
  | none =>
    simp only [reduceCtorEq, false_iff, not_exists, not_and]
    rintro k rfl
    exact absurd hs (by simp [splitEq_none])
  | some kv =>
    obtain ⟨k, v'⟩ := kv
    have hs' := splitEq_some.mp hs
    simp only [candidate_iff nodup_kPattern]
    constructor
    · intro h
      split at h
      · rename_i hk; cases h; exact ⟨k, hs'.1, hs'.2, (candidate_iff nodup_kPattern k key).mp hk⟩
      · simp at h
    · rintro ⟨k', hw, hk', hst⟩
      have := splitEq_some.mpr ⟨hw, hk'⟩
      rw [hs] at this
      simp only [Option.some.injEq, Prod.mk.injEq] at this
      obtain ⟨rfl, rfl⟩ := this
      rw [if_pos ((candidate_iff nodup_kPattern k key).mpr hst)]

theorem plain_eq (w : Str) : plain w = decide ('=' ∉ w) := by
  rw [Bool.eq_iff_iff]
  simp only [plain, Option.isNone_iff_eq_none, splitEq_none, decide_eq_true_eq]

theorem patterns_eq (c is) : patterns c is = ((given c is).filter ('=' ∉ ·)).take 127 := by
  unfold patterns
  congr 2
  funext w
  exact plain_eq w

theorem quoteOf_stands {w k} (h : Stands kSource w k) :
    quoteOf (some w) = if k = "single".toList then ['\''] else if k = "double".toList then ['"'] else k := by
  have hc := (candidate_iff nodup_kSource w k).mpr h
  have hm := h.1
  simp only [quoteOf, hc]
  simp only [kSource, List.mem_cons, List.not_mem_nil, or_false] at hm
  rcases hm with rfl | rfl | rfl | rfl | rfl <;> decide

theorem meaning_sets (path is) : Sets path is (meaning path is) where
  continueAssert := hasFlag_iff _ _
  debuggerTrap := hasFlag_iff _ _
  onlyLastFailed := hasFlag_iff _ _
  exitWithFails := hasFlag_iff _ _
  colorful := evenFlag_iff _ _
  progressing := evenFlag_iff _ _
  memoryCheck := evenFlag_iff _ _
  breakAfterFails := rfl
  runRounds := rfl
  foldJson := rfl
  verbose := rfl
  warnException := stand_iff nodup_kWarn _ _ _
  warnUncaught := stand_iff nodup_kWarn _ _ _
  warnLeak := stand_iff nodup_kWarn _ _ _
  warnViolate := stand_iff nodup_kWarn _ _ _
  warnAsymmetricFree := stand_iff nodup_kWarn _ _ _
  warnDoubleFree := rfl
  shuffleRandom := by simp [meaning, ← stand_iff nodup_kShuffle, ← firstBare_iff]
  shuffleName := stand_iff nodup_kShuffle _ _ _
  shuffleFile := stand_iff nodup_kShuffle _ _ _
  shuffleReverse := stand_iff nodup_kShuffle _ _ _
  listSuite := by simp [meaning, ← stand_iff nodup_kList, ← firstBare_iff]
  listCase := by simp [meaning, ← stand_iff nodup_kList, ← firstBare_iff]
  listTodo := by simp [meaning, ← stand_iff nodup_kList, ← firstBare_iff]
  listTags := stand_iff nodup_kList _ _ _
  junitNone := fun h => by simp [meaning, lastWord_none h]
  junitBare := fun a b h hb => by subst h; simp [meaning, lastWord_last hb]
  junitPath := fun a b w h hb => by subst h; simp [meaning, lastWord_last hb]
  quoteNone := fun h => by simp [meaning, lastWord_none h]
  quoteBare := fun a b h hb => by subst h; simp [meaning, lastWord_last hb, quoteOf]
  quote := fun a b w k h hb hk => by subst h; simp only [meaning, lastWord_last hb]; exact quoteOf_stands hk
  includes := patterns_eq _ _
  excludes := patterns_eq _ _
  fileIncludes := patternsOf_keyed _ _ _
  fileExcludes := patternsOf_keyed _ _ _
  suiteIncludes := patternsOf_keyed _ _ _
  suiteExcludes := patternsOf_keyed _ _ _
  caseIncludes := patternsOf_keyed _ _ _
  caseExcludes := patternsOf_keyed _ _ _
  tagsIncludes := patternsOf_keyed _ _ _
  tagsExcludes := patternsOf_keyed _ _ _

theorem meaning_nil (path) : meaning path [] = {} := rfl

/-- C39.  However a sequence of good options is written, parsing sets exactly what it means. -/
theorem C39_sets (path : Str) (args : List Str) (is : List Item) (hw : Writes [] args is)
    (hg : ∀ i ∈ is, Good path i) (ha : argumentsFit args = true) :
    ∃ o, parse path args = .ok o ∧ Sets path is o := by
  refine ⟨meaning path is, ?_, meaning_sets path is⟩
  unfold parse
  rw [if_pos ha, loop_writes path hw _ _ (by simp [size])]
  have := applyAll_meaning path is [] (by simpa using hg) (writes_formed hw) (writes_word hw)
  simpa [meaning_nil] using this

theorem applyAll_append (path) (l m : List Item) (o o' : Options) (h : applyAll path o l = .ok o') :
    applyAll path o (l ++ m) = applyAll path o' m := by
  induction l generalizing o with
  | nil => simp only [applyAll] at h; cases h; rfl
  | cons i l ih =>
    simp only [List.cons_append, applyAll] at h ⊢
    split at h
    · exact ih _ h
    · rename_i hno; exact absurd h (hno o')

/-- The first option that does not go on decides, whatever follows it. -/
theorem decides (path : Str) (args : List Str) (a b : List Item) (i : Item) (e : Outcome)
    (hw : Writes [] args (a ++ i :: b)) (hg : ∀ i ∈ a, Good path i) (ha : argumentsFit args = true)
    (he : ∀ o, apply path o i = e) (hne : ∀ o, e ≠ .ok o) : parse path args = e := by
  unfold parse
  rw [if_pos ha, loop_writes path hw _ _ (by simp [size])]
  have hf := writes_formed hw
  have hwd := writes_word hw
  have h1 := applyAll_meaning path a [] (by simpa using hg) (fun i hi => hf i (by simp [hi]))
    (fun c w h => hwd c w (by simp [h]))
  rw [meaning_nil] at h1
  rw [applyAll_append path a _ _ _ h1]
  simp only [applyAll, he]

/-- C39.  `-h` or `-?` after good options ends the program with status 0. -/
theorem C39_help (path : Str) (args : List Str) (a b : List Item) (c : Char) (w : Option Str)
    (hc : c = 'h' ∨ c = '?') (hw : Writes [] args (a ++ .word c w :: b)) (hg : ∀ i ∈ a, Good path i)
    (ha : argumentsFit args = true) : parse path args = .exit 0 := by
  refine decides path args a b _ _ hw hg ha (fun o => ?_) (by simp)
  rcases hc with rfl | rfl <;> cases w <;> rfl

example : parse "a.out".toList ["-chx".toList, "word".toList, "-lnothing".toList] = .exit 0 := by decide +kernel

/-- C39.  A word of `-S` that is no keyword, after good options, ends the program with status -1. -/
theorem C39_bad_source (path : Str) (args : List Str) (a b : List Item) (w : Str)
    (hw : Writes [] args (a ++ .word 'S' (some w) :: b)) (hg : ∀ i ∈ a, Good path i) (hbad : ¬ GoodWord 'S' w)
    (ha : argumentsFit args = true) : parse path args = .exit (-1) := by
  refine decides path args a b _ _ hw hg ha (fun o => ?_) (by simp)
  have : candidate w [['\''], "single".toList, ['"'], "double".toList, ['\\', '"']] = none := by
    cases hc : candidate w [['\''], "single".toList, ['"'], "double".toList, ['\\', '"']] with
    | none => rfl
    | some k => exact absurd ⟨k, (candidate_iff nodup_kSource w k).mp hc⟩ hbad
  have hd : w.head? ≠ some '-' := writes_word hw 'S' w (by simp)
  simp only [apply, option, extractString, if_neg hd, sourceWord, this]

example : parse "a.out".toList ["-S".toList, "triple".toList] = .exit (-1) := by decide +kernel

/-- C39.  A pattern of `-i` or `-e` whose key is none of `file`, `suite`, `case`, `tags`, after good options
and patterns, ends the program with status -1. -/
theorem C39_bad_pattern (path : Str) (args : List Str) (a b : List Item) (c : Char) (ws rest : List Str) (k v : Str)
    (hc : c = 'i' ∨ c = 'e') (hw : Writes [] args (a ++ .words c (ws ++ (k ++ '=' :: v) :: rest) :: b))
    (hg : ∀ i ∈ a, Good path i) (hws : ∀ w ∈ ws, GoodPattern w) (hk : '=' ∉ k) (hl : k.length < 64)
    (hbad : ¬ ∃ key, Stands kPattern k key) (ha : argumentsFit args = true) : parse path args = .exit (-1) := by
  refine decides path args a b _ _ hw hg ha (fun o => ?_) (by simp)
  have hcand : candidate k ["file".toList, "suite".toList, "case".toList, "tags".toList] = none := by
    cases h : candidate k ["file".toList, "suite".toList, "case".toList, "tags".toList] with
    | none => rfl
    | some key => exact absurd ⟨key, (candidate_iff nodup_kPattern k key).mp h⟩ hbad
  have hsp : splitEq (k ++ '=' :: v) = some (k, v) := splitEq_some.mpr ⟨rfl, hk⟩
  have hrun : ∀ (l : List Str) (o : Options), (∀ w ∈ l, GoodPattern w) →
      run (wordOf c) o (l ++ (k ++ '=' :: v) :: rest) = .exit (-1) := by
    intro l
    induction l with
    | nil =>
      intro o _
      rcases hc with rfl | rfl <;>
        simp only [List.nil_append, run, wordOf, includeWord, excludeWord, hsp, hl, if_true, hcand]
    | cons x l ih =>
      intro o hx
      have hstep : ∃ o', wordOf c o x = .ok o' := by
        rcases hx x (by simp) with h | ⟨k', v', e, hk', hl', key, hkey⟩
        · have h := splitEq_none.mpr h
          rcases hc with rfl | rfl <;> simp only [wordOf, includeWord, excludeWord, h] <;> exact ⟨_, rfl⟩
        · have h := splitEq_some.mpr ⟨e, hk'⟩
          have h2 : candidate k' ["file".toList, "suite".toList, "case".toList, "tags".toList] = some key :=
            (candidate_iff nodup_kPattern k' key).mpr hkey
          rcases hc with rfl | rfl <;> simp only [wordOf, includeWord, excludeWord, h, h2, hl', if_true]
          all_goals
            repeat' split
            all_goals exact ⟨_, rfl⟩
      obtain ⟨o', ho'⟩ := hstep
      simp only [List.cons_append, run, ho']
      exact ih o' (fun w hw => hx w (by simp [hw]))
  simp only [apply, hrun ws o hws]

example : parse "a.out".toList ["-i".toList, "x".toList, "su=y".toList, "name=z".toList] = .exit (-1) := by decide +kernel

/-- C39.  The first option that is not good decides: a word that is no keyword ends the program with
status -1. -/
theorem C39_bad_word (path : Str) (args : List Str) (a b : List Item) (c : Char) (ws rest : List Str) (w : Str)
    (hc : c = 'l' ∨ c = 's' ∨ c = 'W') (hw : Writes [] args (a ++ .words c (ws ++ w :: rest) :: b))
    (hg : ∀ i ∈ a, Good path i) (hws : ∀ w ∈ ws, GoodWord c w) (hbad : ¬ GoodWord c w) (ha : argumentsFit args = true) :
    parse path args = .exit (-1) := by
  unfold parse
  rw [if_pos ha, loop_writes path hw _ _ (by simp [size])]
  have hf := writes_formed hw
  have hwd := writes_word hw
  have h1 := applyAll_meaning path a [] (by simpa using hg) (fun i hi => hf i (by simp [hi]))
    (fun c w h => hwd c w (by simp [h]))
  rw [meaning_nil] at h1
  rw [applyAll_append path a _ _ _ h1]
  simp only [applyAll, apply]
  have hrun : ∀ (l : List Str) (o : Options), (∀ w ∈ l, GoodWord c w) →
      run (wordOf c) o (l ++ w :: rest) = .exit (-1) := by
    intro l
    induction l with
    | nil =>
      intro o _
      have hne : ∀ {ks : List Str}, ks.Nodup → (¬ ∃ k, Stands ks w k) → candidate w ks = none := by
        intro ks hn h
        cases hcand : candidate w ks with
        | none => rfl
        | some k => exact absurd ⟨k, (candidate_iff hn w k).mp hcand⟩ h
      rcases hc with rfl | rfl | rfl
      · have : candidate w ["suite".toList, "case".toList, "todo".toList, "tags".toList] = none := hne nodup_kList hbad
        simp only [List.nil_append, run, wordOf, listWord, this]
      · have : candidate w ["random".toList, "name".toList, "file".toList, "reverse".toList] = none := hne nodup_kShuffle hbad
        simp only [List.nil_append, run, wordOf, shuffleWord, this]
      · have h1 : wordOf 'W' = warnWord := rfl
        have : candidate w ["exception".toList, "uncaught".toList, "leak".toList, "violate".toList, "asymmetric_free".toList] = none :=
          hne nodup_kWarn hbad
        simp only [List.nil_append, run, h1, warnWord, this]
    | cons x l ih =>
      intro o hl
      have hx := hl x (by simp)
      have hstep : ∃ o', wordOf c o x = .ok o' := by
        rcases hc with rfl | rfl | rfl
        · obtain ⟨k, hk⟩ := hx
          have : candidate x ["suite".toList, "case".toList, "todo".toList, "tags".toList] = some k := (candidate_iff nodup_kList x k).mpr hk
          simp only [wordOf, listWord, this]
          repeat' split
          all_goals exact ⟨_, rfl⟩
        · obtain ⟨k, hk⟩ := hx
          have : candidate x ["random".toList, "name".toList, "file".toList, "reverse".toList] = some k := (candidate_iff nodup_kShuffle x k).mpr hk
          simp only [wordOf, shuffleWord, this]
          repeat' split
          all_goals exact ⟨_, rfl⟩
        · obtain ⟨k, hk⟩ := hx
          have : candidate x ["exception".toList, "uncaught".toList, "leak".toList, "violate".toList, "asymmetric_free".toList] = some k :=
            (candidate_iff nodup_kWarn x k).mpr hk
          have h1 : wordOf 'W' = warnWord := rfl
          simp only [h1, warnWord, this]
          repeat' split
          all_goals exact ⟨_, rfl⟩
      obtain ⟨o', ho'⟩ := hstep
      simp only [List.cons_append, run, ho']
      exact ih o' (fun w hw => hl w (by simp [hw]))
  rw [hrun ws _ hws]

theorem writes_total : ∀ (n : Nat) (j : Str) (args : List Str), j.length + (args.map (fun w => w.length + 1)).sum ≤ n →
    ∃ is, Writes j args is := by
  intro n
  induction n with
  | zero =>
    intro j args h
    cases j with
    | nil =>
      cases args with
      | nil => exact ⟨_, .nil⟩
      | cons w r => simp at h
    | cons c j => simp at h
  | succ n ih =>
    intro j args h
    cases j with
    | nil =>
      cases args with
      | nil => exact ⟨_, .nil⟩
      | cons w r =>
        by_cases hd : w.head? = some '-'
        · cases w with
          | nil => simp at hd
          | cons c w =>
            simp only [List.head?_cons, Option.some.injEq] at hd
            subst hd
            obtain ⟨is, his⟩ := ih w r (by simp at h ⊢; omega)
            exact ⟨is, .dash his⟩
        · obtain ⟨is, his⟩ := ih [] r (by simp at h ⊢; omega)
          exact ⟨is, .stray hd his⟩
    | cons c j =>
      simp only [List.length_cons] at h
      by_cases h1 : c ∈ numeric
      · by_cases hj : NoDigit j
        · cases args with
          | nil =>
            obtain ⟨is, his⟩ := ih j [] (by simp at h ⊢; omega)
            exact ⟨_, .bare h1 hj (by simp) his⟩
          | cons w r =>
            by_cases hn : Number w
            · obtain ⟨is, his⟩ := ih j r (by simp at h ⊢; omega)
              exact ⟨_, .separate h1 hj hn his⟩
            · obtain ⟨is, his⟩ := ih j (w :: r) (by simp at h ⊢; omega)
              exact ⟨_, .bare h1 hj (by simpa using hn) his⟩
        · have hsplit : j = j.takeWhile isDigit ++ j.dropWhile isDigit := (List.takeWhile_append_dropWhile).symm
          have hds : Number (j.takeWhile isDigit) := by
            refine ⟨?_, fun c hc => ?_⟩
            · cases j with
              | nil => exact absurd (fun c hc => by simp at hc) hj
              | cons d j =>
                have : isDigit d = true := by
                  refine Classical.byContradiction fun hne => hj ?_
                  intro c hc
                  simp only [List.head?_cons, Option.mem_def, Option.some.injEq] at hc
                  subst hc; simpa using hne
                simp [this]
            · have := List.all_takeWhile (p := isDigit) (l := j)
              rw [List.all_eq_true] at this
              exact this c hc
          have hnd : NoDigit (j.dropWhile isDigit) := by
            intro c hc
            cases hdw : j.dropWhile isDigit with
            | nil => rw [hdw] at hc; simp at hc
            | cons x r =>
              have := List.head_dropWhile_not (p := isDigit) (l := j) (by rw [hdw]; simp)
              simp only [hdw, List.head_cons] at this
              rw [hdw] at hc
              simp only [List.head?_cons, Option.mem_def, Option.some.injEq] at hc
              exact hc ▸ this
          obtain ⟨is, his⟩ := ih (j.dropWhile isDigit) args (by
            have := congrArg List.length hsplit
            simp only [List.length_append] at this
            omega)
          refine ⟨.number c (some (j.takeWhile isDigit)) :: is, ?_⟩
          have := Writes.attached h1 hds hnd his
          rw [← hsplit] at this
          exact this
      · by_cases h2 : c ∈ listed
        · have hp : ∀ l : List Str, ∃ ws r, l = ws ++ r ∧ (∀ w ∈ ws, w.head? ≠ some '-') ∧ OptionNext r := by
            intro l
            induction l with
            | nil => exact ⟨[], [], rfl, by simp, by simp [OptionNext]⟩
            | cons w l ihl =>
              by_cases hd : w.head? = some '-'
              · exact ⟨[], w :: l, rfl, by simp, by simpa [OptionNext] using hd⟩
              · obtain ⟨ws, r, e, hws, hr⟩ := ihl
                refine ⟨w :: ws, r, by rw [e]; rfl, fun x hx => ?_, hr⟩
                rcases List.mem_cons.mp hx with rfl | hx
                · exact hd
                · exact hws x hx
          obtain ⟨ws, r, rfl, hws, hr⟩ := hp args
          obtain ⟨is, his⟩ := ih j r (by simp at h ⊢; omega)
          exact ⟨_, .words h2 hws hr his⟩
        · by_cases h3 : c ∈ single
          · cases args with
            | nil =>
              obtain ⟨is, his⟩ := ih j [] (by simp at h ⊢; omega)
              exact ⟨_, .noWord h3 (by simp [OptionNext]) his⟩
            | cons w r =>
              by_cases hd : w.head? = some '-'
              · obtain ⟨is, his⟩ := ih j (w :: r) (by simp at h ⊢; omega)
                exact ⟨_, .noWord h3 (by simpa [OptionNext] using hd) his⟩
              · obtain ⟨is, his⟩ := ih j r (by simp at h ⊢; omega)
                exact ⟨_, .word h3 hd his⟩
          · obtain ⟨is, his⟩ := ih j args (by omega)
            exact ⟨_, .flag h1 h2 h3 his⟩

/-- C39.  Every command line writes some sequence of options. -/
theorem C39_total (args : List Str) : ∃ is, Writes [] args is := writes_total _ [] args (Nat.le_refl _)

/-- C39.  What every documented keyword, and every abbreviation of it that fits no other, stands for. -/
theorem C39_keyword {ks : List Str} (hn : ks.Nodup) (w k : Str) :
    candidate w ks = some k ↔ k ∈ ks ∧ Abbreviates w k ∧ ∀ k' ∈ ks, Abbreviates w k' → k' = k :=
  candidate_iff hn w k

/-- `-b3cr 4 -i foo tags=bar -l` -/
def sampleArgs : List Str := ["-b3cr".toList, "4".toList, "-i".toList, "foo".toList, "tags=bar".toList, "-l".toList]

example : parse "a.out".toList sampleArgs = .ok
    { breakAfterFails := 3, continueAssert := true, runRounds := 4, includes := ["foo".toList],
      tagsIncludes := ["bar".toList], listSuite := true, listCase := true, listTodo := true } := by
  decide +kernel

example : Writes [] sampleArgs [.number 'b' (some "3".toList), .flag 'c', .number 'r' (some "4".toList),
    .words 'i' ["foo".toList, "tags=bar".toList], .words 'l' []] := by
  refine .dash (.attached (ds := ['3']) (j := ['c', 'r']) (by decide) ⟨by decide, by decide⟩ (by simp [NoDigit]; decide)
    (.flag (by decide) (by decide) (by decide)
      (.separate (by decide) (by simp [NoDigit]) ⟨by decide, by decide⟩ (.dash
        (.words (c := 'i') (ws := ["foo".toList, "tags=bar".toList]) (by decide) (by decide) (by simp [OptionNext]) (.dash ?_))))))
  exact .words (c := 'l') (ws := []) (by decide) (by simp) (by simp [OptionNext]) .nil

/-- Finding.  The manual has the word `double_free` for `-W`, and the program rejects it. -/
theorem C39_double_free_rejected :
    parse "a.out".toList ["-W".toList, "double_free".toList] = .exit (-1) := by decide +kernel

/-- Finding.  `-F` without a number means 0, not the maximum the usage text states. -/
theorem C39_fold_bare : ∃ o, parse "a.out".toList ["-F".toList] = .ok o ∧ o.foldJson = 0 := ⟨_, rfl, by decide +kernel⟩

/-- Finding.  A long command line overruns the buffer that keeps it. -/
theorem C39_long_ub (path : Str) (w : Str) (h : 255 ≤ w.length) : parse path [w] = .undefined := by
  have : argumentsFit [w] = false := by
    simp only [argumentsFit, List.map_cons, List.map_nil, List.sum_cons, List.sum_nil, decide_eq_false_iff_not]; omega
  simp [parse, this]

end H2.Cli
