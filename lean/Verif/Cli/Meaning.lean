import Verif.Cli.Lemmas
/-
The options a sequence of items sets, computed field by field, and that applying an item is the step from
one to the next.
-/
namespace H2.Cli

def hasFlag (c : Char) (is : List Item) : Bool := is.any (fun i => i == .flag c)
def evenFlag (c : Char) (is : List Item) : Bool := is.count (.flag c) % 2 == 0
def stand (ks : List Str) (c : Char) (is : List Item) (k : Str) : Bool :=
  (given c is).any (fun w => candidate w ks == some k)
def isWords (c : Char) : Item → Bool
  | .words d _ => d == c
  | _ => false
def firstBare (c : Char) (is : List Item) : Bool := is.find? (isWords c) == some (.words c [])
def lastWord (c : Char) (is : List Item) : Option (Option Str) :=
  (is.filterMap fun
    | .word d w => if d = c then some w else none
    | _ => none).getLast?
def keyedF (key w : Str) : Option Str :=
  match splitEq w with
  | some (k, v) => if candidate k kPattern = some key then some v else none
  | none => none
def plain (w : Str) : Bool := (splitEq w).isNone
def patterns (c : Char) (is : List Item) : List Str := ((given c is).filter plain).take 127
def patternsOf (c : Char) (is : List Item) (key : Str) : List Str := ((given c is).filterMap (keyedF key)).take 127

def quoteOf (w : Option Str) : Str :=
  match w with
  | none => ['\\', '"']
  | some w =>
    match candidate w kSource with
    | some r => if r = ['\''] ∨ r = "single".toList then ['\''] else if r = ['"'] ∨ r = "double".toList then ['"'] else ['\\', '"']
    | none => []

def meaning (path : Str) (is : List Item) : Options where
  colorful := evenFlag 'C' is
  progressing := evenFlag 'p' is
  onlyLastFailed := hasFlag 'f' is
  memoryCheck := evenFlag 'm' is
  continueAssert := hasFlag 'c' is
  debuggerTrap := hasFlag 'd' is
  exitWithFails := hasFlag 'x' is
  warnException := stand kWarn 'W' is "exception".toList
  warnUncaught := stand kWarn 'W' is "uncaught".toList
  warnLeak := stand kWarn 'W' is "leak".toList
  warnViolate := stand kWarn 'W' is "violate".toList
  warnDoubleFree := false
  warnAsymmetricFree := stand kWarn 'W' is "asymmetric_free".toList
  breakAfterFails := last 'b' 0 1 is
  runRounds := last 'r' 1 2 is
  foldJson := last 'F' 5 0 is
  shuffleRandom := stand kShuffle 's' is "random".toList || firstBare 's' is
  shuffleName := stand kShuffle 's' is "name".toList
  shuffleFile := stand kShuffle 's' is "file".toList
  shuffleReverse := stand kShuffle 's' is "reverse".toList
  listSuite := stand kList 'l' is "suite".toList || firstBare 'l' is
  listCase := stand kList 'l' is "case".toList || firstBare 'l' is
  listTodo := stand kList 'l' is "todo".toList || firstBare 'l' is
  listTags := stand kList 'l' is "tags".toList
  verbose := last 'v' 4 8 is
  jsonQuote := match lastWord 'S' is with
    | none => []
    | some w => quoteOf w
  junitPath := match lastWord 'o' is with
    | none => []
    | some none => path ++ ".junit.xml".toList
    | some (some w) => w
  includes := patterns 'i' is
  excludes := patterns 'e' is
  fileIncludes := patternsOf 'i' is "file".toList
  fileExcludes := patternsOf 'e' is "file".toList
  suiteIncludes := patternsOf 'i' is "suite".toList
  suiteExcludes := patternsOf 'e' is "suite".toList
  caseIncludes := patternsOf 'i' is "case".toList
  caseExcludes := patternsOf 'e' is "case".toList
  tagsIncludes := patternsOf 'i' is "tags".toList
  tagsExcludes := patternsOf 'e' is "tags".toList

/-! One more item. -/

section
variable (is : List Item)

theorem hasFlag_flag (c d) : hasFlag c (is ++ [.flag d]) = (hasFlag c is || d == c) := by
  simp only [hasFlag, List.any_append, List.any_cons, List.any_nil, Bool.or_false]
  have e : (Item.flag d == Item.flag c) = (d == c) := by
    rw [Bool.eq_iff_iff]; simp
  rw [e]
theorem hasFlag_number (c d n) : hasFlag c (is ++ [.number d n]) = hasFlag c is := by simp [hasFlag]
theorem hasFlag_words (c d n) : hasFlag c (is ++ [.words d n]) = hasFlag c is := by simp [hasFlag]
theorem hasFlag_word (c d n) : hasFlag c (is ++ [.word d n]) = hasFlag c is := by simp [hasFlag]

theorem evenFlag_flag (c d) : evenFlag c (is ++ [.flag d]) = if d = c then !evenFlag c is else evenFlag c is := by
  simp only [evenFlag, List.count_append]
  by_cases h : d = c
  · subst h
    simp only [List.count_singleton_self, if_true]
    rcases Nat.mod_two_eq_zero_or_one (is.count (.flag d)) with e | e
    · have : (is.count (.flag d) + 1) % 2 = 1 := by omega
      rw [this, e]; rfl
    · have : (is.count (.flag d) + 1) % 2 = 0 := by omega
      rw [this, e]; rfl
  · simp [h, List.count_singleton]
theorem evenFlag_number (c d n) : evenFlag c (is ++ [.number d n]) = evenFlag c is := by simp [evenFlag]
theorem evenFlag_words (c d n) : evenFlag c (is ++ [.words d n]) = evenFlag c is := by simp [evenFlag]
theorem evenFlag_word (c d n) : evenFlag c (is ++ [.word d n]) = evenFlag c is := by simp [evenFlag]

theorem given_flag (c d) : given c (is ++ [.flag d]) = given c is := by simp [given]
theorem given_number (c d n) : given c (is ++ [.number d n]) = given c is := by simp [given]
theorem given_word (c d n) : given c (is ++ [.word d n]) = given c is := by simp [given]
theorem given_words (c d ws) : given c (is ++ [.words d ws]) = given c is ++ if d = c then ws else [] := by
  simp [given]

theorem stand_flag (ks c d k) : stand ks c (is ++ [.flag d]) k = stand ks c is k := by simp [stand, given_flag]
theorem stand_number (ks c d n k) : stand ks c (is ++ [.number d n]) k = stand ks c is k := by simp [stand, given_number]
theorem stand_word (ks c d n k) : stand ks c (is ++ [.word d n]) k = stand ks c is k := by simp [stand, given_word]
theorem stand_words (ks c d ws k) : stand ks c (is ++ [.words d ws]) k =
    (stand ks c is k || (d == c && ws.any (fun w => candidate w ks == some k))) := by
  simp only [stand, given_words, List.any_append]
  by_cases h : d = c <;> simp [h]

theorem firstBare_flag (c d) : firstBare c (is ++ [.flag d]) = firstBare c is := by
  simp [firstBare, List.find?_append, isWords]
theorem firstBare_number (c d n) : firstBare c (is ++ [.number d n]) = firstBare c is := by
  simp [firstBare, List.find?_append, isWords]
theorem firstBare_word (c d n) : firstBare c (is ++ [.word d n]) = firstBare c is := by
  simp [firstBare, List.find?_append, isWords]
theorem firstBare_words (c d ws) : firstBare c (is ++ [.words d ws]) =
    (firstBare c is || (d == c && (is.find? (isWords c)).isNone && ws.isEmpty)) := by
  simp only [firstBare, List.find?_append]
  cases hf : is.find? (isWords c) with
  | some x => simp
  | none =>
    by_cases h : d = c
    · subst h
      cases ws <;> simp [isWords]
    · simp [isWords, h]

theorem last_flag (c a b d) : last c a b (is ++ [.flag d]) = last c a b is := by simp [last]
theorem last_words (c a b d n) : last c a b (is ++ [.words d n]) = last c a b is := by simp [last]
theorem last_word (c a b d n) : last c a b (is ++ [.word d n]) = last c a b is := by simp [last]
theorem last_number (c a b d n) : last c a b (is ++ [.number d n]) =
    if d = c then (match n with
      | some ds => value ds
      | none => b) else last c a b is := by
  by_cases h : d = c <;> cases n <;> simp [last, List.filterMap_append, h]

theorem lastWord_flag (c d) : lastWord c (is ++ [.flag d]) = lastWord c is := by simp [lastWord]
theorem lastWord_number (c d n) : lastWord c (is ++ [.number d n]) = lastWord c is := by simp [lastWord]
theorem lastWord_words (c d n) : lastWord c (is ++ [.words d n]) = lastWord c is := by simp [lastWord]
theorem lastWord_word (c d n) : lastWord c (is ++ [.word d n]) = if d = c then some n else lastWord c is := by
  by_cases h : d = c <;> simp [lastWord, List.filterMap_append, h]

theorem patterns_flag (c d) : patterns c (is ++ [.flag d]) = patterns c is := by simp [patterns, given_flag]
theorem patterns_number (c d n) : patterns c (is ++ [.number d n]) = patterns c is := by simp [patterns, given_number]
theorem patterns_word (c d n) : patterns c (is ++ [.word d n]) = patterns c is := by simp [patterns, given_word]
theorem patternsOf_flag (c d k) : patternsOf c (is ++ [.flag d]) k = patternsOf c is k := by simp [patternsOf, given_flag]
theorem patternsOf_number (c d n k) : patternsOf c (is ++ [.number d n]) k = patternsOf c is k := by
  simp [patternsOf, given_number]
theorem patternsOf_word (c d n k) : patternsOf c (is ++ [.word d n]) k = patternsOf c is k := by
  simp [patternsOf, given_word]

/-- Appending entry by entry. -/
def appendAll (l : List Str) (ws : List Str) : List Str := ws.foldl append l

theorem append_take (l : List Str) (a : Str) : append (l.take 127) a = (l ++ [a]).take 127 := by
  unfold append
  by_cases h : l.length < 127
  · rw [if_pos (by rw [List.length_take]; omega), List.take_of_length_le (by omega), List.take_of_length_le (by simp; omega)]
  · rw [if_neg (by rw [List.length_take]; omega), List.take_append_of_le_length (by omega)]

theorem appendAll_take (l ws : List Str) : appendAll (l.take 127) ws = (l ++ ws).take 127 := by
  induction ws generalizing l with
  | nil => simp [appendAll]
  | cons w ws ih =>
    have := ih (l ++ [w])
    simp only [appendAll, List.foldl_cons] at this ⊢
    rw [append_take, this]; simp

theorem patterns_words (c d ws) : patterns c (is ++ [.words d ws]) =
    if d = c then appendAll (patterns c is) (ws.filter plain) else patterns c is := by
  by_cases h : d = c
  · simp [patterns, given_words, h, appendAll_take]
  · simp [patterns, given_words, h]
theorem patternsOf_words (c d ws k) : patternsOf c (is ++ [.words d ws]) k =
    if d = c then appendAll (patternsOf c is k) (ws.filterMap (keyedF k)) else patternsOf c is k := by
  by_cases h : d = c
  · simp [patternsOf, given_words, h, appendAll_take]
  · simp [patternsOf, given_words, h]
end

/-- What `Writes` guarantees of the letters. -/
def Formed : Item → Prop
  | .flag c => c ∉ numeric ∧ c ∉ listed ∧ c ∉ single
  | .number c _ => c ∈ numeric
  | .words c _ => c ∈ listed
  | .word c _ => c ∈ single

theorem writes_formed {j args is} (h : Writes j args is) : ∀ i ∈ is, Formed i := by
  induction h with
  | nil => simp
  | stray _ _ ih => exact ih
  | dash _ ih => exact ih
  | flag h1 h2 h3 _ ih =>
    intro i hi; rcases List.mem_cons.mp hi with rfl | hi
    · exact ⟨h1, h2, h3⟩
    · exact ih i hi
  | attached h _ _ _ ih =>
    intro i hi; rcases List.mem_cons.mp hi with rfl | hi
    · exact h
    · exact ih i hi
  | separate h _ _ _ ih =>
    intro i hi; rcases List.mem_cons.mp hi with rfl | hi
    · exact h
    · exact ih i hi
  | bare h _ _ _ ih =>
    intro i hi; rcases List.mem_cons.mp hi with rfl | hi
    · exact h
    · exact ih i hi
  | words h _ _ _ ih =>
    intro i hi; rcases List.mem_cons.mp hi with rfl | hi
    · exact h
    · exact ih i hi
  | word h _ _ ih =>
    intro i hi; rcases List.mem_cons.mp hi with rfl | hi
    · exact h
    · exact ih i hi
  | noWord h _ _ ih =>
    intro i hi; rcases List.mem_cons.mp hi with rfl | hi
    · exact h
    · exact ih i hi

theorem nodup_kList : kList.Nodup := by decide
theorem nodup_kShuffle : kShuffle.Nodup := by decide
theorem nodup_kWarn : kWarn.Nodup := by decide
theorem nodup_kSource : kSource.Nodup := by decide
theorem nodup_kPattern : kPattern.Nodup := by decide

/-! Words. -/

theorem run_warn : ∀ (ws : List Str) (o : Options), (∀ w ∈ ws, ∃ k, Stands kWarn w k) →
    run warnWord o ws = .ok { o with
      warnException := o.warnException || ws.any (fun w => candidate w kWarn == some "exception".toList)
      warnUncaught := o.warnUncaught || ws.any (fun w => candidate w kWarn == some "uncaught".toList)
      warnLeak := o.warnLeak || ws.any (fun w => candidate w kWarn == some "leak".toList)
      warnViolate := o.warnViolate || ws.any (fun w => candidate w kWarn == some "violate".toList)
      warnAsymmetricFree := o.warnAsymmetricFree || ws.any (fun w => candidate w kWarn == some "asymmetric_free".toList) }
  | [], o, _ => by simp [run]
  | w :: ws, o, h => by
    obtain ⟨k, hk⟩ := h w (by simp)
    have hc := (candidate_iff nodup_kWarn w k).mpr hk
    have hm := hk.1
    have ih := fun o => run_warn ws o (fun w hw => h w (by simp [hw]))
    have hc' : candidate w ["exception".toList, "uncaught".toList, "leak".toList, "violate".toList, "asymmetric_free".toList] = some k := hc
    simp only [run, warnWord, hc', List.any_cons, hc]
    simp only [kWarn, List.mem_cons, List.not_mem_nil, or_false] at hm
    rcases hm with rfl | rfl | rfl | rfl | rfl <;> simp [ih]

theorem run_shuffle : ∀ (ws : List Str) (o : Options), (∀ w ∈ ws, ∃ k, Stands kShuffle w k) →
    run shuffleWord o ws = .ok { o with
      shuffleRandom := o.shuffleRandom || ws.any (fun w => candidate w kShuffle == some "random".toList)
      shuffleName := o.shuffleName || ws.any (fun w => candidate w kShuffle == some "name".toList)
      shuffleFile := o.shuffleFile || ws.any (fun w => candidate w kShuffle == some "file".toList)
      shuffleReverse := o.shuffleReverse || ws.any (fun w => candidate w kShuffle == some "reverse".toList) }
  | [], o, _ => by simp [run]
  | w :: ws, o, h => by
    obtain ⟨k, hk⟩ := h w (by simp)
    have hc := (candidate_iff nodup_kShuffle w k).mpr hk
    have hm := hk.1
    have ih := fun o => run_shuffle ws o (fun w hw => h w (by simp [hw]))
    have hc' : candidate w ["random".toList, "name".toList, "file".toList, "reverse".toList] = some k := hc
    simp only [run, shuffleWord, hc', List.any_cons, hc]
    simp only [kShuffle, List.mem_cons, List.not_mem_nil, or_false] at hm
    rcases hm with rfl | rfl | rfl | rfl <;> simp [ih]

theorem run_list : ∀ (ws : List Str) (o : Options), (∀ w ∈ ws, ∃ k, Stands kList w k) →
    run listWord o ws = .ok { o with
      listSuite := o.listSuite || ws.any (fun w => candidate w kList == some "suite".toList)
      listCase := o.listCase || ws.any (fun w => candidate w kList == some "case".toList)
      listTodo := o.listTodo || ws.any (fun w => candidate w kList == some "todo".toList)
      listTags := o.listTags || ws.any (fun w => candidate w kList == some "tags".toList) }
  | [], o, _ => by simp [run]
  | w :: ws, o, h => by
    obtain ⟨k, hk⟩ := h w (by simp)
    have hc := (candidate_iff nodup_kList w k).mpr hk
    have hm := hk.1
    have ih := fun o => run_list ws o (fun w hw => h w (by simp [hw]))
    have hc' : candidate w ["suite".toList, "case".toList, "todo".toList, "tags".toList] = some k := hc
    simp only [run, listWord, hc', List.any_cons, hc]
    simp only [kList, List.mem_cons, List.not_mem_nil, or_false] at hm
    rcases hm with rfl | rfl | rfl | rfl <;> simp [ih]

theorem goodPattern_cases {w : Str} (h : GoodPattern w) :
    splitEq w = none ∨ ∃ k v key, splitEq w = some (k, v) ∧ k.length < 64 ∧ key ∈ kPattern ∧ candidate k kPattern = some key := by
  rcases h with h | ⟨k, v, hw, hk, hl, key, hs⟩
  · exact .inl (splitEq_none.mpr h)
  · exact .inr ⟨k, v, key, splitEq_some.mpr ⟨hw, hk⟩, hl, hs.1, (candidate_iff nodup_kPattern k key).mpr hs⟩

theorem run_exclude : ∀ (ws : List Str) (o : Options), (∀ w ∈ ws, GoodPattern w) →
    run excludeWord o ws = .ok { o with
      excludes := appendAll o.excludes (ws.filter plain)
      fileExcludes := appendAll o.fileExcludes (ws.filterMap (keyedF "file".toList))
      suiteExcludes := appendAll o.suiteExcludes (ws.filterMap (keyedF "suite".toList))
      caseExcludes := appendAll o.caseExcludes (ws.filterMap (keyedF "case".toList))
      tagsExcludes := appendAll o.tagsExcludes (ws.filterMap (keyedF "tags".toList)) }
  | [], o, _ => by simp [run, appendAll]
  | w :: ws, o, h => by
    have ih := fun o => run_exclude ws o (fun w hw => h w (by simp [hw]))
    rcases goodPattern_cases (h w (by simp)) with hs | ⟨k, v, key, hs, hl, hm, hc⟩
    · simp only [run, excludeWord, hs, ih, List.filterMap_cons, keyedF, plain, List.filter_cons, Option.isNone_none, if_true]
      simp [appendAll]
    · have hc' : candidate k ["file".toList, "suite".toList, "case".toList, "tags".toList] = some key := hc
      simp only [run, excludeWord, hs, hl, if_true, hc', List.filterMap_cons, keyedF, hc, plain, List.filter_cons, Option.isNone_some]
      simp only [kPattern, List.mem_cons, List.not_mem_nil, or_false] at hm
      rcases hm with rfl | rfl | rfl | rfl <;> simp [ih, appendAll, plain, keyedF]

theorem run_include : ∀ (ws : List Str) (o : Options), (∀ w ∈ ws, GoodPattern w) →
    run includeWord o ws = .ok { o with
      includes := appendAll o.includes (ws.filter plain)
      fileIncludes := appendAll o.fileIncludes (ws.filterMap (keyedF "file".toList))
      suiteIncludes := appendAll o.suiteIncludes (ws.filterMap (keyedF "suite".toList))
      caseIncludes := appendAll o.caseIncludes (ws.filterMap (keyedF "case".toList))
      tagsIncludes := appendAll o.tagsIncludes (ws.filterMap (keyedF "tags".toList)) }
  | [], o, _ => by simp [run, appendAll]
  | w :: ws, o, h => by
    have ih := fun o => run_include ws o (fun w hw => h w (by simp [hw]))
    rcases goodPattern_cases (h w (by simp)) with hs | ⟨k, v, key, hs, hl, hm, hc⟩
    · simp only [run, includeWord, hs, ih, List.filterMap_cons, keyedF, plain, List.filter_cons, Option.isNone_none, if_true]
      simp [appendAll]
    · have hc' : candidate k ["file".toList, "suite".toList, "case".toList, "tags".toList] = some key := hc
      simp only [run, includeWord, hs, hl, if_true, hc', List.filterMap_cons, keyedF, hc, plain, List.filter_cons, Option.isNone_some]
      simp only [kPattern, List.mem_cons, List.not_mem_nil, or_false] at hm
      rcases hm with rfl | rfl | rfl | rfl <;> simp [ih, appendAll, plain, keyedF]


/-! Lists and shuffles: something is set exactly when the option has been given. -/

theorem mem_given {c is w} (h : w ∈ given c is) : ∃ ws, w ∈ ws ∧ .words c ws ∈ is := by
  simp only [given, List.mem_flatMap] at h
  obtain ⟨i, hi, hw⟩ := h
  cases i with
  | words d ws =>
    by_cases e : d = c
    · subst e; simp only [if_true] at hw; exact ⟨ws, hw, hi⟩
    · simp [e] at hw
  | _ => simp at hw

theorem given_mem {c is ws w} (hi : .words c ws ∈ is) (hw : w ∈ ws) : w ∈ given c is := by
  simp only [given, List.mem_flatMap]
  exact ⟨_, hi, by simpa using hw⟩

/-- Nothing is set: the option has not been given. -/
theorem none_before {ks : List Str} (hn : ks.Nodup) {c : Char} {is : List Item}
    (hg : ∀ ws, .words c ws ∈ is → ∀ w ∈ ws, ∃ k, Stands ks w k)
    (h : ∀ k ∈ ks, stand ks c is k = false) (hb : firstBare c is = false) : is.find? (isWords c) = none := by
  cases hf : is.find? (isWords c) with
  | none => rfl
  | some x =>
    have hx := List.mem_of_find?_eq_some hf
    have hp := List.find?_some hf
    cases x with
    | words d ws =>
      simp only [isWords, beq_iff_eq] at hp
      subst hp
      cases ws with
      | nil => simp [firstBare, hf] at hb
      | cons w ws =>
        obtain ⟨k, hk⟩ := hg _ hx w (by simp)
        have := h k hk.1
        simp only [stand, List.any_eq_false] at this
        exact absurd (by simpa using (candidate_iff hn w k).mpr hk) (this w (given_mem hx (by simp)))
    | _ => simp [isWords] at hp

/-- Something is set: the option has been given. -/
theorem some_before {ks : List Str} {c : Char} {is : List Item}
    (h : (∃ k, stand ks c is k = true) ∨ firstBare c is = true) : (is.find? (isWords c)).isNone = false := by
  have key : ∀ ws, Item.words c ws ∈ is → (is.find? (isWords c)).isNone = false := by
    intro ws hw
    cases hf : is.find? (isWords c) with
    | some x => rfl
    | none =>
      rw [List.find?_eq_none] at hf
      exact absurd (hf _ hw) (by simp [isWords])
  rcases h with ⟨k, h⟩ | h
  · simp only [stand, List.any_eq_true] at h
    obtain ⟨w, hw, _⟩ := h
    obtain ⟨ws, _, hi⟩ := mem_given hw
    exact key ws hi
  · simp only [firstBare, beq_iff_eq] at h
    exact key [] (List.mem_of_find?_eq_some h)

theorem any_stands {ks : List Str} (hn : ks.Nodup) {ws : List Str} (hw : ∀ w ∈ ws, ∃ k, Stands ks w k) (hne : ws ≠ []) :
    ∃ k ∈ ks, ws.any (fun w => candidate w ks == some k) = true := by
  cases ws with
  | nil => exact absurd rfl hne
  | cons w ws =>
    obtain ⟨k, hk⟩ := hw w (by simp)
    exact ⟨k, hk.1, by simp [(candidate_iff hn w k).mpr hk]⟩

/-! The step. -/

theorem atoi_value (ds : Str) (h : value ds < 2 ^ 31) : atoi ds = some (value ds) := by
  unfold atoi
  have : (ds.foldl (fun n d => 10 * n + (d.toNat - '0'.toNat)) 0) = value ds := rfl
  simp only [this, h, if_true]

theorem step_flag (path) (is : List Item) (c : Char) (hf : Formed (.flag c)) :
    apply path (meaning path is) (.flag c) = .ok (meaning path (is ++ [.flag c])) := by
  obtain ⟨h1, h2, h3⟩ := hf
  have key : meaning path (is ++ [.flag c]) = { meaning path is with
      colorful := if c = 'C' then !evenFlag 'C' is else evenFlag 'C' is
      progressing := if c = 'p' then !evenFlag 'p' is else evenFlag 'p' is
      memoryCheck := if c = 'm' then !evenFlag 'm' is else evenFlag 'm' is
      onlyLastFailed := hasFlag 'f' is || c == 'f'
      continueAssert := hasFlag 'c' is || c == 'c'
      debuggerTrap := hasFlag 'd' is || c == 'd'
      exitWithFails := hasFlag 'x' is || c == 'x' } := by
    simp only [meaning, hasFlag_flag, evenFlag_flag, stand_flag, firstBare_flag, last_flag, lastWord_flag,
      patterns_flag, patternsOf_flag]
  rw [key]
  simp only [numeric, listed, single, List.mem_cons, List.not_mem_nil, or_false, not_or] at h1 h2 h3
  obtain ⟨b1, b2, b3, b4⟩ := h1
  obtain ⟨l1, l2, l3, l4, l5⟩ := h2
  obtain ⟨s1, s2, s3, s4⟩ := h3
  by_cases e1 : c = 'c'
  · subst e1; simp [apply, option, meaning]
  by_cases e2 : c = 'C'
  · subst e2; simp [apply, option, meaning]
  by_cases e3 : c = 'd'
  · subst e3; simp [apply, option, meaning]
  by_cases e4 : c = 'f'
  · subst e4; simp [apply, option, meaning]
  by_cases e5 : c = 'm'
  · subst e5; simp [apply, option, meaning]
  by_cases e6 : c = 'p'
  · subst e6; simp [apply, option, meaning]
  by_cases e7 : c = 'x'
  · subst e7; simp [apply, option, meaning]
  have key : ∀ o j args, option path o c j args = (.ok o, j, args) := by
    intro o j args
    unfold option
    split <;> first | exact absurd rfl (by assumption) | rfl
  simp only [apply, key, e1, e2, e3, e4, e5, e6, e7, if_false, beq_iff_eq, meaning, Outcome.ok.injEq]
  simp [e1, e3, e4, e7]

theorem step_number (path) (is : List Item) (c : Char) (n : Option Str) (hf : Formed (.number c n)) (hg : Good path (.number c n)) :
    apply path (meaning path is) (.number c n) = .ok (meaning path (is ++ [.number c n])) := by
  have key : meaning path (is ++ [.number c n]) = { meaning path is with
      breakAfterFails := last 'b' 0 1 (is ++ [.number c n])
      runRounds := last 'r' 1 2 (is ++ [.number c n])
      foldJson := last 'F' 5 0 (is ++ [.number c n])
      verbose := last 'v' 4 8 (is ++ [.number c n]) } := by
    simp only [meaning, hasFlag_number, evenFlag_number, stand_number, firstBare_number, lastWord_number,
      patterns_number, patternsOf_number]
  rw [key]
  simp only [Formed, numeric, List.mem_cons, List.not_mem_nil, or_false] at hf
  cases n with
  | none =>
    rcases hf with rfl | rfl | rfl | rfl <;> simp [apply, last_number, numberOf, bareOf, meaning]
  | some ds =>
    have ha := atoi_value ds hg
    rcases hf with rfl | rfl | rfl | rfl <;> simp [apply, ha, last_number, numberOf, meaning]

theorem step_word (path) (is : List Item) (c : Char) (w : Option Str) (hf : Formed (.word c w)) (hg : Good path (.word c w))
    (hd : ∀ x ∈ w, x.head? ≠ some '-') :
    apply path (meaning path is) (.word c w) = .ok (meaning path (is ++ [.word c w])) := by
  have key : meaning path (is ++ [.word c w]) = { meaning path is with
      jsonQuote := if c = 'S' then quoteOf w else (meaning path is).jsonQuote
      junitPath := if c = 'o' then (match w with
        | none => path ++ ".junit.xml".toList
        | some w => w) else (meaning path is).junitPath } := by
    simp only [meaning, hasFlag_word, evenFlag_word, stand_word, firstBare_word, last_word, lastWord_word,
      patterns_word, patternsOf_word]
    by_cases e1 : c = 'S'
    · subst e1; simp
    · by_cases e2 : c = 'o'
      · subst e2; cases w <;> simp
      · simp [e1, e2]
  rw [key]
  obtain ⟨g1, g2, g3, g4⟩ := hg
  simp only [Formed, single, List.mem_cons, List.not_mem_nil, or_false] at hf
  rcases hf with rfl | rfl | rfl | rfl
  · obtain ⟨g5, g6⟩ := g3 rfl
    cases w with
    | none => simp [apply, option, g5, extractString]
    | some w =>
      have h1 : extractString [w] = some (w, []) := by simp [extractString, hd w (by simp)]
      simp [apply, option, g5, h1, g6 w (by simp)]
  · cases w with
    | none => simp [apply, option, extractString, sourceWord, quoteOf]
    | some w =>
      have h1 : extractString [w] = some (w, []) := by simp [extractString, hd w (by simp)]
      obtain ⟨k, hk⟩ := g4 rfl w (by simp)
      have hc := (candidate_iff nodup_kSource w k).mpr hk
      have hc' : candidate w [['\''], "single".toList, ['"'], "double".toList, ['\\', '"']] = some k := hc
      have hm := hk.1
      simp only [apply, option, h1, sourceWord, hc', quoteOf, hc]
      simp only [kSource, List.mem_cons, List.not_mem_nil, or_false] at hm
      rcases hm with rfl | rfl | rfl | rfl | rfl <;> simp
  · exact absurd rfl g1
  · exact absurd rfl g2

theorem list_bits : ∀ (s1 s2 s3 s4 a1 a2 a3 a4 b n e : Bool),
    (s1 = false ∧ s2 = false ∧ s3 = false ∧ s4 = false ∧ b = false → n = true) →
    ((s1 || s2 || s3 || s4 || b) = true → n = false) →
    (e = false → (a1 || a2 || a3 || a4) = true) →
    (e = true → a1 = false ∧ a2 = false ∧ a3 = false ∧ a4 = false) →
    ((!(s1 || b || a1) && !(s2 || b || a2) && !(s3 || b || a3) && !(s4 || a4)) = true → (s1 || a1 || (b || n && e)) = true ∧ (s2 || a2 || (b || n && e)) = true ∧ (s3 || a3 || (b || n && e)) = true ∧ (s4 || a4) = (s4 || a4)) ∧
    (¬ (!(s1 || b || a1) && !(s2 || b || a2) && !(s3 || b || a3) && !(s4 || a4)) = true → (s1 || a1 || (b || n && e)) = (s1 || b || a1) ∧ (s2 || a2 || (b || n && e)) = (s2 || b || a2) ∧ (s3 || a3 || (b || n && e)) = (s3 || b || a3) ∧ (s4 || a4) = (s4 || a4)) := by
  intro s1 s2 s3 s4 a1 a2 a3 a4 b n e f0 f1 f2 f3
  cases e <;> cases b <;> cases n <;> simp_all <;> grind

theorem step_words_l (path) (is : List Item) (hgs : ∀ i ∈ is, Good path i) (ws : List Str)
    (hg : Good path (.words 'l' ws)) :
    apply path (meaning path is) (.words 'l' ws) = .ok (meaning path (is ++ [.words 'l' ws])) := by
  have hg' : ∀ w ∈ ws, ∃ k, Stands kList w k := fun w hw => by simpa [Good, GoodWord] using hg w hw
  have hgi : ∀ ws, .words 'l' ws ∈ is → ∀ w ∈ ws, ∃ k, Stands kList w k := fun ws hi w hw => by
    simpa [Good, GoodWord] using hgs _ hi w hw
  have key : meaning path (is ++ [.words 'l' ws]) = { meaning path is with
      listSuite := (stand kList 'l' is "suite".toList || ws.any (fun w => candidate w kList == some "suite".toList)) || (firstBare 'l' is || (is.find? (isWords 'l')).isNone && ws.isEmpty)
      listCase := (stand kList 'l' is "case".toList || ws.any (fun w => candidate w kList == some "case".toList)) || (firstBare 'l' is || (is.find? (isWords 'l')).isNone && ws.isEmpty)
      listTodo := (stand kList 'l' is "todo".toList || ws.any (fun w => candidate w kList == some "todo".toList)) || (firstBare 'l' is || (is.find? (isWords 'l')).isNone && ws.isEmpty)
      listTags := (stand kList 'l' is "tags".toList || ws.any (fun w => candidate w kList == some "tags".toList)) } := by
    simp [meaning, hasFlag_words, evenFlag_words, stand_words, firstBare_words, last_words, lastWord_words,
      patterns_words, patternsOf_words]
  rw [key]
  simp only [apply, wordOf, run_list ws _ hg', lastOf]
  simp only [meaning]
  have h0 : (∀ k ∈ kList, stand kList 'l' is k = false) → firstBare 'l' is = false → is.find? (isWords 'l') = none :=
    none_before nodup_kList hgi
  have h1 : (∃ k, stand kList 'l' is k = true) ∨ firstBare 'l' is = true → (is.find? (isWords 'l')).isNone = false :=
    some_before
  have h2 : ws ≠ [] → ∃ k ∈ kList, ws.any (fun w => candidate w kList == some k) = true := any_stands nodup_kList hg'
  obtain ⟨s1, hs1⟩ : ∃ s, stand kList 'l' is "suite".toList = s := ⟨_, rfl⟩
  obtain ⟨a1, ha1⟩ : ∃ a, ws.any (fun w => candidate w kList == some "suite".toList) = a := ⟨_, rfl⟩
  obtain ⟨s2, hs2⟩ : ∃ s, stand kList 'l' is "case".toList = s := ⟨_, rfl⟩
  obtain ⟨a2, ha2⟩ : ∃ a, ws.any (fun w => candidate w kList == some "case".toList) = a := ⟨_, rfl⟩
  obtain ⟨s3, hs3⟩ : ∃ s, stand kList 'l' is "todo".toList = s := ⟨_, rfl⟩
  obtain ⟨a3, ha3⟩ : ∃ a, ws.any (fun w => candidate w kList == some "todo".toList) = a := ⟨_, rfl⟩
  obtain ⟨s4, hs4⟩ : ∃ s, stand kList 'l' is "tags".toList = s := ⟨_, rfl⟩
  obtain ⟨a4, ha4⟩ : ∃ a, ws.any (fun w => candidate w kList == some "tags".toList) = a := ⟨_, rfl⟩
  obtain ⟨b, hb⟩ : ∃ b, firstBare 'l' is = b := ⟨_, rfl⟩
  obtain ⟨n, hn⟩ : ∃ n, (is.find? (isWords 'l')).isNone = n := ⟨_, rfl⟩
  obtain ⟨e, he⟩ : ∃ e, ws.isEmpty = e := ⟨_, rfl⟩
  have f0 : s1 = false ∧ s2 = false ∧ s3 = false ∧ s4 = false ∧ b = false → n = true := by
    rintro ⟨e1, e2, e3, e4, e5⟩
    rw [← hn, h0 ?_ (hb.trans e5)]; rfl
    intro k hk
    unfold kList at hk
    simp only [List.mem_cons, List.not_mem_nil, or_false] at hk
    rcases hk with rfl | rfl | rfl | rfl
    · exact hs1.trans e1
    · exact hs2.trans e2
    · exact hs3.trans e3
    · exact hs4.trans e4
  have f1 : (s1 || s2 || s3 || s4 || b) = true → n = false := by
    intro h
    rw [← hn]
    apply h1
    simp only [Bool.or_eq_true] at h
    rcases h with (((h | h) | h) | h) | h
    · exact .inl ⟨_, hs1.trans h⟩
    · exact .inl ⟨_, hs2.trans h⟩
    · exact .inl ⟨_, hs3.trans h⟩
    · exact .inl ⟨_, hs4.trans h⟩
    · exact .inr (hb.trans h)
  have f2 : e = false → (a1 || a2 || a3 || a4) = true := by
    intro h
    obtain ⟨k, hk, hks⟩ := h2 (by rintro rfl; rw [h] at he; simp at he)
    unfold kList at hk
    simp only [List.mem_cons, List.not_mem_nil, or_false] at hk
    rcases hk with rfl | rfl | rfl | rfl
    · have := ha1.symm.trans hks; simp [this]
    · have := ha2.symm.trans hks; simp [this]
    · have := ha3.symm.trans hks; simp [this]
    · have := ha4.symm.trans hks; simp [this]
  have f3 : e = true → a1 = false ∧ a2 = false ∧ a3 = false ∧ a4 = false := by
    intro h
    have : ws = [] := by rw [h] at he; simpa using he
    subst this
    exact ⟨ha1.symm, ha2.symm, ha3.symm, ha4.symm⟩
  simp only [hs1, hs2, hs3, hs4, ha1, ha2, ha3, ha4, hb, hn, he]
  clear hs1 hs2 hs3 hs4 ha1 ha2 ha3 ha4 hb hn he h0 h1 h2 hgi hg' hgs hg key
  have bits := list_bits s1 s2 s3 s4 a1 a2 a3 a4 b n e f0 f1 f2 f3
  split
  · rename_i hc
    obtain ⟨q1, q2, q3, q4⟩ := bits.1 hc
    rw [q1, q2, q3, q4]
  · rename_i hc
    obtain ⟨q1, q2, q3, q4⟩ := bits.2 hc
    rw [q1, q2, q3, q4]

theorem shuffle_bits : ∀ (s1 s2 s3 s4 a1 a2 a3 a4 b n e : Bool),
    (s1 = false ∧ s2 = false ∧ s3 = false ∧ s4 = false ∧ b = false → n = true) →
    ((s1 || s2 || s3 || s4 || b) = true → n = false) →
    (e = false → (a1 || a2 || a3 || a4) = true) →
    (e = true → a1 = false ∧ a2 = false ∧ a3 = false ∧ a4 = false) →
    ((!(s1 || b || a1) && !(s2 || a2) && !(s3 || a3) && !(s4 || a4)) = true → (s1 || a1 || (b || n && e)) = true ∧ (s2 || a2) = (s2 || a2) ∧ (s3 || a3) = (s3 || a3) ∧ (s4 || a4) = (s4 || a4)) ∧
    (¬ (!(s1 || b || a1) && !(s2 || a2) && !(s3 || a3) && !(s4 || a4)) = true → (s1 || a1 || (b || n && e)) = (s1 || b || a1) ∧ (s2 || a2) = (s2 || a2) ∧ (s3 || a3) = (s3 || a3) ∧ (s4 || a4) = (s4 || a4)) := by
  intro s1 s2 s3 s4 a1 a2 a3 a4 b n e f0 f1 f2 f3
  cases e <;> cases b <;> cases n <;> simp_all <;> grind

theorem step_words_s (path) (is : List Item) (hgs : ∀ i ∈ is, Good path i) (ws : List Str)
    (hg : Good path (.words 's' ws)) :
    apply path (meaning path is) (.words 's' ws) = .ok (meaning path (is ++ [.words 's' ws])) := by
  have hg' : ∀ w ∈ ws, ∃ k, Stands kShuffle w k := fun w hw => by simpa [Good, GoodWord] using hg w hw
  have hgi : ∀ ws, .words 's' ws ∈ is → ∀ w ∈ ws, ∃ k, Stands kShuffle w k := fun ws hi w hw => by
    simpa [Good, GoodWord] using hgs _ hi w hw
  have key : meaning path (is ++ [.words 's' ws]) = { meaning path is with
      shuffleRandom := (stand kShuffle 's' is "random".toList || ws.any (fun w => candidate w kShuffle == some "random".toList)) || (firstBare 's' is || (is.find? (isWords 's')).isNone && ws.isEmpty)
      shuffleName := (stand kShuffle 's' is "name".toList || ws.any (fun w => candidate w kShuffle == some "name".toList))
      shuffleFile := (stand kShuffle 's' is "file".toList || ws.any (fun w => candidate w kShuffle == some "file".toList))
      shuffleReverse := (stand kShuffle 's' is "reverse".toList || ws.any (fun w => candidate w kShuffle == some "reverse".toList)) } := by
    simp [meaning, hasFlag_words, evenFlag_words, stand_words, firstBare_words, last_words, lastWord_words,
      patterns_words, patternsOf_words]
  rw [key]
  simp only [apply, wordOf, run_shuffle ws _ hg', lastOf]
  simp only [meaning]
  have h0 : (∀ k ∈ kShuffle, stand kShuffle 's' is k = false) → firstBare 's' is = false → is.find? (isWords 's') = none :=
    none_before nodup_kShuffle hgi
  have h1 : (∃ k, stand kShuffle 's' is k = true) ∨ firstBare 's' is = true → (is.find? (isWords 's')).isNone = false :=
    some_before
  have h2 : ws ≠ [] → ∃ k ∈ kShuffle, ws.any (fun w => candidate w kShuffle == some k) = true := any_stands nodup_kShuffle hg'
  obtain ⟨s1, hs1⟩ : ∃ s, stand kShuffle 's' is "random".toList = s := ⟨_, rfl⟩
  obtain ⟨a1, ha1⟩ : ∃ a, ws.any (fun w => candidate w kShuffle == some "random".toList) = a := ⟨_, rfl⟩
  obtain ⟨s2, hs2⟩ : ∃ s, stand kShuffle 's' is "name".toList = s := ⟨_, rfl⟩
  obtain ⟨a2, ha2⟩ : ∃ a, ws.any (fun w => candidate w kShuffle == some "name".toList) = a := ⟨_, rfl⟩
  obtain ⟨s3, hs3⟩ : ∃ s, stand kShuffle 's' is "file".toList = s := ⟨_, rfl⟩
  obtain ⟨a3, ha3⟩ : ∃ a, ws.any (fun w => candidate w kShuffle == some "file".toList) = a := ⟨_, rfl⟩
  obtain ⟨s4, hs4⟩ : ∃ s, stand kShuffle 's' is "reverse".toList = s := ⟨_, rfl⟩
  obtain ⟨a4, ha4⟩ : ∃ a, ws.any (fun w => candidate w kShuffle == some "reverse".toList) = a := ⟨_, rfl⟩
  obtain ⟨b, hb⟩ : ∃ b, firstBare 's' is = b := ⟨_, rfl⟩
  obtain ⟨n, hn⟩ : ∃ n, (is.find? (isWords 's')).isNone = n := ⟨_, rfl⟩
  obtain ⟨e, he⟩ : ∃ e, ws.isEmpty = e := ⟨_, rfl⟩
  have f0 : s1 = false ∧ s2 = false ∧ s3 = false ∧ s4 = false ∧ b = false → n = true := by
    rintro ⟨e1, e2, e3, e4, e5⟩
    rw [← hn, h0 ?_ (hb.trans e5)]; rfl
    intro k hk
    unfold kShuffle at hk
    simp only [List.mem_cons, List.not_mem_nil, or_false] at hk
    rcases hk with rfl | rfl | rfl | rfl
    · exact hs1.trans e1
    · exact hs2.trans e2
    · exact hs3.trans e3
    · exact hs4.trans e4
  have f1 : (s1 || s2 || s3 || s4 || b) = true → n = false := by
    intro h
    rw [← hn]
    apply h1
    simp only [Bool.or_eq_true] at h
    rcases h with (((h | h) | h) | h) | h
    · exact .inl ⟨_, hs1.trans h⟩
    · exact .inl ⟨_, hs2.trans h⟩
    · exact .inl ⟨_, hs3.trans h⟩
    · exact .inl ⟨_, hs4.trans h⟩
    · exact .inr (hb.trans h)
  have f2 : e = false → (a1 || a2 || a3 || a4) = true := by
    intro h
    obtain ⟨k, hk, hks⟩ := h2 (by rintro rfl; rw [h] at he; simp at he)
    unfold kShuffle at hk
    simp only [List.mem_cons, List.not_mem_nil, or_false] at hk
    rcases hk with rfl | rfl | rfl | rfl
    · have := ha1.symm.trans hks; simp [this]
    · have := ha2.symm.trans hks; simp [this]
    · have := ha3.symm.trans hks; simp [this]
    · have := ha4.symm.trans hks; simp [this]
  have f3 : e = true → a1 = false ∧ a2 = false ∧ a3 = false ∧ a4 = false := by
    intro h
    have : ws = [] := by rw [h] at he; simpa using he
    subst this
    exact ⟨ha1.symm, ha2.symm, ha3.symm, ha4.symm⟩
  simp only [hs1, hs2, hs3, hs4, ha1, ha2, ha3, ha4, hb, hn, he]
  clear hs1 hs2 hs3 hs4 ha1 ha2 ha3 ha4 hb hn he h0 h1 h2 hgi hg' hgs hg key
  have bits := shuffle_bits s1 s2 s3 s4 a1 a2 a3 a4 b n e f0 f1 f2 f3
  split
  · rename_i hc
    obtain ⟨q1, q2, q3, q4⟩ := bits.1 hc
    rw [q1, q2, q3, q4]
  · rename_i hc
    obtain ⟨q1, q2, q3, q4⟩ := bits.2 hc
    rw [q1, q2, q3, q4]

theorem step_words (path) (is : List Item) (hgs : ∀ i ∈ is, Good path i) (c : Char) (ws : List Str)
    (hf : Formed (.words c ws)) (hg : Good path (.words c ws)) :
    apply path (meaning path is) (.words c ws) = .ok (meaning path (is ++ [.words c ws])) := by
  simp only [Formed, listed, List.mem_cons, List.not_mem_nil, or_false] at hf
  rcases hf with rfl | rfl | rfl | rfl | rfl
  · have hg' : ∀ w ∈ ws, GoodPattern w := fun w hw => by simpa [Good] using hg w hw
    simp only [apply, wordOf, run_exclude ws _ hg', lastOf, id]
    simp [meaning, hasFlag_words, evenFlag_words, stand_words, firstBare_words, last_words, lastWord_words,
      patterns_words, patternsOf_words]
  · have hg' : ∀ w ∈ ws, GoodPattern w := fun w hw => by simpa [Good] using hg w hw
    simp only [apply, wordOf, run_include ws _ hg', lastOf, id]
    simp [meaning, hasFlag_words, evenFlag_words, stand_words, firstBare_words, last_words, lastWord_words,
      patterns_words, patternsOf_words]
  · exact step_words_l path is hgs ws hg
  · exact step_words_s path is hgs ws hg
  · have hg' : ∀ w ∈ ws, ∃ k, Stands kWarn w k := fun w hw => by simpa [Good, GoodWord] using hg w hw
    have h1 : wordOf 'W' = warnWord := rfl
    have h2 : lastOf 'W' = id := rfl
    simp only [apply, h1, h2, run_warn ws _ hg', id]
    simp [meaning, hasFlag_words, evenFlag_words, stand_words, firstBare_words, last_words, lastWord_words,
      patterns_words, patternsOf_words]

end H2.Cli
