import Verif.Console.Spec
import Verif.Runner.Props
namespace H2.Console
open H2.Runner

/-! ### Lines about cases -/

theorem lines_append (a b : List Item) : lines (a ++ b) = lines a ++ lines b := by simp [lines]

theorem lines_fails (l : List Str) : lines (l.map .fail) = l.map .fail := by
  induction l with
  | nil => rfl
  | cons x l ih => rw [List.map_cons, List.map_cons, ← ih]; rfl

/-- What a case is reported with, by its flags. -/
def block (v : Int) (sn : Str) (i : Info) (c : Case) : List Line :=
  if c.filtered || c.ignored then []
  else if c.todo then if v ≥ 5 then [.case (if i.absent then "TODO   ".toList else "Todo   ".toList) c.name sn i.filine] else []
  else if c.failed then (if v ≥ 1 then [.case "Failed ".toList c.name sn i.filine] else []) ++ (if v ≥ 4 then i.fails.map .fail else [])
  else if c.warning then (if v ≥ 2 then [.case "Warning".toList c.name sn i.filine] else []) ++ (if v ≥ 5 then i.fails.map .fail else [])
  else if v ≥ 5 ∨ v = 3 then .case "Passed ".toList c.name sn i.filine ::
    (if v ≥ 5 ∧ (0 < i.asserts ∨ 0 < i.footprint ∨ 0 < i.timecost) then [.detail i.asserts i.footprint i.timecost] else []) else []

theorem lines_case (g : Cfg) (index cases : Nat) (status : String) (s : Suite) (c : Case) (i : Info) (r : List Item) :
    lines (printBar g index cases status s c i :: r) = .case status.toList c.name s.name i.filine :: lines r := rfl

theorem lines_start (g : Cfg) (index cases : Nat) (s : Suite) (c : Case) : lines (onCaseStart g index cases s c) = [] := by
  unfold onCaseStart
  repeat' split
  all_goals rfl

theorem lines_endup (g : Cfg) (index cases : Nat) (s : Suite) (c : Case) (i : Info) : lines (onCaseEndup g index cases s c i) = block g.verbose s.name i c := by
  unfold onCaseEndup block
  split
  · rfl
  split
  · by_cases h5 : g.verbose ≥ 5
    · rw [if_pos (show g.verbose ≥ detail from h5), if_pos h5, lines_case]; split <;> rfl
    · rw [if_neg (show ¬ g.verbose ≥ detail from h5), if_neg h5]; rfl
  split
  · by_cases h1 : g.verbose ≥ 1
    · rw [if_pos (show g.verbose ≥ compactFailed from h1), if_pos h1, lines_case]
      by_cases h4 : g.verbose ≥ 4
      · rw [if_pos (show g.verbose ≥ normal from h4), if_pos h4, lines_fails]; rfl
      · rw [if_neg (show ¬ g.verbose ≥ normal from h4), if_neg h4]; rfl
    · rw [if_neg (show ¬ g.verbose ≥ compactFailed from h1), if_neg h1, if_neg (by omega)]; rfl
  split
  · by_cases h1 : g.verbose ≥ 2
    · rw [if_pos (show g.verbose ≥ compactWarning from h1), if_pos h1, lines_case]
      by_cases h4 : g.verbose ≥ 5
      · rw [if_pos h4, if_pos (show g.verbose > normal by show (4 : Int) < _; omega), lines_fails]; rfl
      · rw [if_neg h4, if_neg (show ¬ g.verbose > normal by show ¬ (4 : Int) < _; omega)]; rfl
    · rw [if_neg (show ¬ g.verbose ≥ compactWarning from h1), if_neg h1, if_neg (by omega)]; rfl
  · by_cases h5 : g.verbose ≥ 5 ∨ g.verbose = 3
    · rw [if_pos (show g.verbose ≥ detail ∨ g.verbose = compactPassed from h5), if_pos h5, lines_case]
      split <;> rfl
    · rw [if_neg (show ¬ (g.verbose ≥ detail ∨ g.verbose = compactPassed) from h5), if_neg h5]; rfl

theorem lines_cases (suite : Nat → Str) (g : Cfg) (cases : Nat) (info : Case → Info) (s : Suite) (cs : List Case) (hs : ∀ c ∈ cs, suite c.id = s.name) : ∀ index,
    lines (visitCases g cases info s index cs).2 = cs.flatMap fun c => block g.verbose (suite c.id) (info c) c := by
  induction cs with
  | nil => intro index; rfl
  | cons c cs ih =>
    intro index
    show lines ((onCaseStart g (index + 1) cases s c ++ onCaseEndup g (index + 1) cases s c (info c)) ++ (visitCases g cases info s (index + 1) cs).2) = _
    rw [lines_append, lines_append, lines_start, lines_endup, ih (fun d hd => hs d (by simp [hd])), List.flatMap_cons, hs c (by simp)]; rfl

theorem lines_suites (suite : Nat → Str) (g : Cfg) (cases : Nat) (info : Case → Info) (ss : List Suite) (hs : SuiteNames suite ss) : ∀ index,
    lines (visitSuites g cases info index ss).2 = (allCases ss).flatMap fun c => block g.verbose (suite c.id) (info c) c := by
  induction ss with
  | nil => intro index; rfl
  | cons s ss ih =>
    intro index
    show lines ((visitCases g cases info s index s.cases).2 ++ (visitSuites g cases info (visitCases g cases info s index s.cases).1 ss).2) = _
    rw [lines_append, lines_cases suite g cases info s s.cases (hs s (by simp)), ih (fun t ht => hs t (by simp [ht]))]
    simp [allCases]

theorem lines_rounds (suite : Nat → Str) (g : Cfg) (cases : Nat) (info : Nat → Case → Info) (rs : List (Nat × List Suite)) (hs : ∀ r ∈ rs, SuiteNames suite r.2) : ∀ index,
    lines (visitRounds g cases info index rs).2 = (rs.flatMap fun r => (allCases r.2).map fun c => (r.1, c)).flatMap fun p => block g.verbose (suite p.2.id) (info p.1 p.2) p.2 := by
  induction rs with
  | nil => intro index; rfl
  | cons r rs ih =>
    intro index
    show lines ((visitSuites g cases (info r.1) index r.2).2 ++ (visitRounds g cases info (visitSuites g cases (info r.1) index r.2).1 rs).2) = _
    rw [lines_append, lines_suites suite g cases _ r.2 (hs r (by simp)), ih (fun t ht => hs t (by simp [ht])), List.flatMap_cons, List.flatMap_append, List.flatMap_map]

theorem round_cases (o : Opts) (env : Env) (rnd : Nat → Int) (round : Nat) (st : State) : ∃ es, (st.round o env rnd round).log = st.log ++ es ∧
    es.map (fun e => (e.round, e.case)) = (allCases (st.round o env rnd round).suites).map fun c => (round, c) := by
  obtain ⟨f, e⟩ := round_eq o env rnd round st
  obtain ⟨r1, r2, r3⟩ := shuffle_rest o rnd st
  obtain ⟨es, h1, h2, h3, h4, h5, _⟩ := runSuites_log o env round (st.shuffle o rnd).suites (st.shuffle o rnd).stats (st.shuffle o rnd).log (st.shuffle o rnd).suiteLog
  refine ⟨es, ?_, ?_⟩
  · rw [e]; show (runSuites _ _ _ _ _ _ _).2.2.1 = _; rw [h1, r2]
  · rw [e]; show _ = (allCases (runSuites _ _ _ _ _ _ _).1).map _
    rw [← h5, List.map_map]
    exact List.map_congr_left fun x hx => by simp [h3 x hx]

theorem visits_log (o : Opts) (env : Env) (rnd : Nat → Nat → Int) (st : State) (h : st.log = []) (n : Nat) :
    (st.rounds o env rnd n).log.map (fun e => (e.round, e.case)) = (visits o env rnd st n).flatMap fun r => (allCases r.2).map fun c => (r.1, c) := by
  induction n with
  | zero => rw [State.rounds, h]; rfl
  | succ n ih =>
    obtain ⟨es, h1, h2⟩ := round_cases o env (rnd n) n (st.rounds o env rnd n)
    show ((st.rounds o env rnd n).round o env (rnd n) n).log.map _ = (visits o env rnd st n ++ [(n, ((st.rounds o env rnd n).round o env (rnd n) n).suites)]).flatMap _
    rw [h1, List.map_append, ih, h2, List.flatMap_append]
    simp

theorem outcome_eq (e : Event) (h : e.ran = true ↔ e.case.todo = false ∧ e.case.filtered = false ∧ e.case.ignored = false) :
    outcome e = some (if e.case.ignored then .ignored else if e.case.filtered then .filtered else if e.case.todo then .todo else
      if e.case.failed then .failed else if e.case.warning then .warning else .passed) := by
  have h : e.ran = (!e.case.todo && !e.case.filtered && !e.case.ignored) := by rw [Bool.eq_iff_iff, h]; simp [and_assoc]
  obtain ⟨r, c, ran⟩ := e
  dsimp only at h
  subst h
  obtain ⟨id, file, line, name, seq, todo, filtered, ignored, failed, last, warning⟩ := c
  cases todo <;> cases filtered <;> cases ignored <;> cases failed <;> cases warning <;> rfl

theorem block_expected (v : Int) (sn : Str) (i : Info) (e : Event) (h : e.ran = true ↔ e.case.todo = false ∧ e.case.filtered = false ∧ e.case.ignored = false) :
    block v sn i e.case = expected v sn i e := by
  unfold expected
  rw [outcome_eq e h]
  unfold block
  dsimp only
  cases e.case.ignored with
  | true => simp only [Bool.or_true, Bool.true_or, Bool.or_self, Bool.false_eq_true, if_true, if_false, named, explained, measured, called, decide_eq_true_eq, ge_iff_le, List.append_nil]
  | false =>
    cases e.case.filtered with
    | true => simp only [Bool.or_true, Bool.true_or, Bool.or_self, Bool.false_eq_true, if_true, if_false, named, explained, measured, called, decide_eq_true_eq, ge_iff_le, List.append_nil]
    | false =>
      cases e.case.todo with
      | true => simp only [Bool.or_true, Bool.true_or, Bool.or_self, Bool.false_eq_true, if_true, if_false, named, explained, measured, called, decide_eq_true_eq, ge_iff_le, List.append_nil]
      | false =>
        cases e.case.failed with
        | true => simp only [Bool.or_true, Bool.true_or, Bool.or_self, Bool.false_eq_true, if_true, if_false, named, explained, measured, called, decide_eq_true_eq, ge_iff_le, List.append_nil]
        | false =>
          cases e.case.warning with
          | true => simp only [Bool.or_true, Bool.true_or, Bool.or_self, Bool.false_eq_true, if_true, if_false, named, explained, measured, called, decide_eq_true_eq, ge_iff_le, List.append_nil]
          | false => simp only [Bool.or_self, Bool.false_eq_true, if_false, named, explained, measured, called, Bool.or_eq_true, beq_iff_eq, decide_eq_true_eq, ge_iff_le, List.append_nil, or_comm]
                     have hz : (0 < i.asserts ∨ 0 < i.footprint ∨ 0 < i.timecost) ↔ ¬(i.asserts = 0 ∧ i.footprint = 0 ∧ i.timecost = 0) := by omega
                     simp only [hz]
                     by_cases h5 : v = 3 ∨ 5 ≤ v
                     · rw [if_pos h5, if_pos h5]; rfl
                     · rw [if_neg h5, if_neg h5, if_neg (fun x => h5 (.inr x.1))]; rfl

/-! ### Words -/

theorem wordsFrom_word (w : Str) : ∀ (read r : Str), (∀ c ∈ w, c ≠ ' ' ∧ c ≠ ',' ∧ c ≠ '(' ∧ c ≠ ')') → wordsFrom read (w ++ r) = wordsFrom (read ++ w) r := by
  induction w with
  | nil => intro read r _; simp
  | cons c w ih =>
    intro read r h
    obtain ⟨h1, h2, h3, h4⟩ := h c (by simp)
    rw [List.cons_append]
    conv => lhs; unfold wordsFrom
    rw [if_neg (by simp [h1, h2, h3, h4]), ih _ _ (fun x hx => h x (by simp [hx]))]
    simp

theorem wordsFrom_nil (read : Str) : wordsFrom read [] = if read = [] then [] else [read] := rfl
theorem wordsFrom_cons (read : Str) (c : Char) (r : Str) : wordsFrom read (c :: r) =
    if c = ' ' ∨ c = ',' ∨ c = '(' ∨ c = ')' then (if read = [] then [] else [read]) ++ wordsFrom [] r else wordsFrom (read ++ [c]) r := rfl

theorem words_gap (d : Char) (hd : d = ' ' ∨ d = ',' ∨ d = '(' ∨ d = ')') (r : Str) : words (d :: r) = words r := by
  unfold words
  rw [wordsFrom_cons, if_pos hd]; rfl

/-- A word and a gap. -/
theorem words_word (w : Str) (d : Char) (hd : d = ' ' ∨ d = ',' ∨ d = '(' ∨ d = ')') (r : Str) (hw : w ≠ [] ∧ ∀ c ∈ w, c ≠ ' ' ∧ c ≠ ',' ∧ c ≠ '(' ∧ c ≠ ')') :
    words (w ++ d :: r) = w :: words r := by
  unfold words
  rw [wordsFrom_word w _ _ hw.2, wordsFrom_cons, if_pos hd, List.nil_append, if_neg hw.1]; rfl

/-- The number before a word, in a text of numbers and words. -/
theorem before_pairs (w : String) (ps : List (Str × Str)) (rest : List Str) : ∀ v, (∀ p ∈ ps, p.1 ≠ w.toList) → w.toList ∉ rest →
    before w (v :: (ps.flatMap fun p => [p.1, p.2]) ++ rest) = (ps.find? fun p => p.2 == w.toList).map (·.1) := by
  have none_rest : ∀ (rest : List Str) v, w.toList ∉ rest → before w (v :: rest) = none := by
    intro rest
    induction rest with
    | nil => intro v _; rfl
    | cons x rest ih =>
      intro v h
      simp only [List.mem_cons, not_or] at h
      unfold before
      rw [if_neg (fun e => h.1 e.symm)]
      exact ih x h.2
  induction ps with
  | nil => intro v _ h; exact none_rest rest v h
  | cons p ps ih =>
    intro v h1 h2
    show before w (v :: p.1 :: p.2 :: ((ps.flatMap fun p => [p.1, p.2]) ++ rest)) = _
    unfold before
    rw [if_neg (h1 p (by simp))]
    unfold before
    by_cases hp : p.2 = w.toList
    · rw [if_pos hp, List.find?_cons_of_pos (by simpa using hp)]; rfl
    · rw [if_neg hp, List.find?_cons_of_neg (by simpa using hp)]
      exact ih p.2 (fun q hq => h1 q (by simp [hq])) h2

/-- A text that begins with a gap. -/
def Gap (r : Str) : Prop := ∃ d r', r = d :: r' ∧ (d = ' ' ∨ d = ',' ∨ d = '(' ∨ d = ')')

def Clean (w : Str) : Prop := w ≠ [] ∧ ∀ c ∈ w, c ≠ ' ' ∧ c ≠ ',' ∧ c ≠ '(' ∧ c ≠ ')'

instance (w : Str) : Decidable (Clean w) := by unfold Clean; infer_instance

theorem words_clean {w r : Str} (hw : Clean w) (hr : Gap r) : words (w ++ r) = w :: words r := by
  obtain ⟨d, r', rfl, hd⟩ := hr
  rw [words_word w d hd r' hw, words_gap d hd]

theorem clean_decimal (n : Nat) : Clean (decimal n) := by
  refine ⟨Nat.toDigits_ne_nil, fun c hc => ?_⟩
  have h : c.isDigit = true := Nat.isDigit_of_mem_toDigits (by omega) (by omega) hc
  refine ⟨?_, ?_, ?_, ?_⟩ <;> (intro e; subst e; exact absurd h (by decide))

/-- A part of a text: nothing, or a gap and words. -/
def Piece (a : Str) (ws : List Str) : Prop := (a = [] ∧ ws = []) ∨ (Gap a ∧ ∀ r, Gap r → words (a ++ r) = ws ++ words r)

theorem Piece.nil : Piece [] [] := .inl ⟨rfl, rfl⟩

theorem Gap.append {a : Str} (h : Gap a) (b : Str) : Gap (a ++ b) := by
  obtain ⟨d, r, rfl, hd⟩ := h
  exact ⟨d, r ++ b, rfl, hd⟩

theorem Piece.gap {a : Str} {ws : List Str} (h : Piece a ws) {r : Str} (hr : Gap r) : Gap (a ++ r) := by
  rcases h with ⟨rfl, _⟩ | ⟨h, _⟩
  · exact hr
  · exact h.append r

theorem Piece.words {a : Str} {ws : List Str} (h : Piece a ws) {r : Str} (hr : Gap r) : words (a ++ r) = ws ++ words r := by
  rcases h with ⟨rfl, rfl⟩ | ⟨_, h⟩
  · rfl
  · exact h r hr

theorem Piece.append {a b : Str} {ws vs : List Str} (h1 : Piece a ws) (h2 : Piece b vs) : Piece (a ++ b) (ws ++ vs) := by
  rcases h1 with ⟨rfl, rfl⟩ | ⟨g, _⟩
  · exact h2
  · refine .inr ⟨g.append b, fun r hr => ?_⟩
    rw [List.append_assoc, Piece.words (.inr ⟨g, by assumption⟩) (h2.gap hr), h2.words hr, List.append_assoc]

theorem Piece.word {w : Str} (hw : Clean w) : Piece (' ' :: w) [w] := by
  refine .inr ⟨⟨' ', w, rfl, .inl rfl⟩, fun r hr => ?_⟩
  rw [List.cons_append, words_gap ' ' (.inl rfl), words_clean hw hr]; rfl

theorem Piece.count (n : Nat) {w : Str} (hw : Clean w) : Piece (", ".toList ++ decimal n ++ (' ' :: w)) [decimal n, w] := by
  have h : Piece (' ' :: decimal n ++ (' ' :: w)) ([decimal n] ++ [w]) := (Piece.word (clean_decimal n)).append (Piece.word hw)
  rcases h with ⟨h, _⟩ | ⟨_, h⟩
  · simp at h
  · refine .inr ⟨⟨',', ' ' :: decimal n ++ (' ' :: w), rfl, .inr (.inl rfl)⟩, fun r hr => ?_⟩
    show H2.Console.words (',' :: (' ' :: decimal n ++ (' ' :: w) ++ r)) = _
    rw [words_gap ',' (.inr (.inl rfl)), h r hr]; rfl

theorem Piece.ite {a : Str} {ws : List Str} (c : Prop) [Decidable c] (h : Piece a ws) : Piece (if c then a else []) (if c then ws else []) := by
  split
  · exact h
  · exact .nil

/-- The counts in the order they are shown. -/
def shownCounts (t : Stats) : List (Str × Str) :=
  [(decimal t.passed.toNat, "passed".toList)] ++ (if t.failed ≠ 0 then [(decimal t.failed.toNat, "failed".toList)] else []) ++
  (if t.warning ≠ 0 then [(decimal t.warning.toNat, "warning".toList)] else []) ++ (if t.todo ≠ 0 then [(decimal t.todo.toNat, "todo".toList)] else []) ++
  (if t.filtered ≠ 0 then [(decimal t.filtered.toNat, "filtered".toList)] else []) ++ (if t.ignored ≠ 0 then [(decimal t.ignored.toNat, "ignored".toList)] else [])

/-- Whether something else than passed cases is shown. -/
def mixed (t : Stats) : Prop := 0 < nonzeroCount [t.failed.toNat, t.warning.toNat, t.todo.toNat, t.filtered.toNat, t.ignored.toNat]

instance (t : Stats) : Decidable (mixed t) := by unfold mixed; infer_instance

def plural (n : Nat) (w : String) : Str := if n > 1 then (w ++ "s").toList else w.toList

def restWords (t : Stats) (cases asserts rounds : Nat) (duration : Str) : List Str :=
  (if mixed t then [decimal cases] else []) ++ ([plural cases "case"] ++ ([decimal asserts, plural asserts "assert"] ++
    ((if 1 < rounds then [decimal rounds, plural rounds "round"] else []) ++ words duration)))

theorem words_summary (t : Stats) (cases asserts rounds : Nat) (duration : Str) :
    words (summary t cases asserts rounds duration) =
      (if 0 < t.failed then "Failure".toList else "Success".toList) :: ((shownCounts t).flatMap fun p => [p.1, p.2]) ++ restWords t cases asserts rounds duration := by
  have hu : ∀ n (w : String), Clean w.toList → Clean (w ++ "s").toList → Piece (units n (' ' :: w.toList)) [plural n w] := by
    intro n w h1 h2
    unfold units plural
    split
    · have : ' ' :: w.toList ++ "s".toList = ' ' :: (w ++ "s").toList := by simp
      rw [this]; exact .word h2
    · exact .word h1
  have hf : ∀ n (w : String), Clean w.toList → Clean (w ++ "s").toList → Piece (", ".toList ++ formatUnits n (' ' :: w.toList)) [decimal n, plural n w] := by
    intro n w h1 h2
    unfold formatUnits plural
    split
    · have : ", ".toList ++ (decimal n ++ ' ' :: w.toList ++ "s".toList) = ", ".toList ++ decimal n ++ (' ' :: (w ++ "s").toList) := by simp
      rw [this]; exact .count n h2
    · have : ", ".toList ++ (decimal n ++ ' ' :: w.toList ++ []) = ", ".toList ++ decimal n ++ (' ' :: w.toList) := by simp
      rw [this]; exact .count n h1
  have hm : Piece (if mixed t then ") ".toList ++ decimal cases else []) (if mixed t then [decimal cases] else []) := by
    apply Piece.ite
    refine .inr ⟨⟨')', ' ' :: decimal cases, rfl, .inr (.inr (.inr rfl))⟩, fun r hr => ?_⟩
    show words (')' :: ' ' :: (decimal cases ++ r)) = _
    rw [words_gap ')' (.inr (.inr (.inr rfl))), words_gap ' ' (.inl rfl), words_clean (clean_decimal cases) hr]; rfl
  have hd : Gap (", ".toList ++ duration) := ⟨',', ' ' :: duration, rfl, .inr (.inl rfl)⟩
  have hdw : words (", ".toList ++ duration) = words duration := by
    show words (',' :: ' ' :: duration) = _
    rw [words_gap ',' (.inr (.inl rfl)), words_gap ' ' (.inl rfl)]
  have P := ((((((((Piece.word (w := "passed".toList) (by decide)).append
    (Piece.ite (t.failed ≠ 0) (Piece.count t.failed.toNat (w := "failed".toList) (by decide)))).append
    (Piece.ite (t.warning ≠ 0) (Piece.count t.warning.toNat (w := "warning".toList) (by decide)))).append
    (Piece.ite (t.todo ≠ 0) (Piece.count t.todo.toNat (w := "todo".toList) (by decide)))).append
    (Piece.ite (t.filtered ≠ 0) (Piece.count t.filtered.toNat (w := "filtered".toList) (by decide)))).append
    (Piece.ite (t.ignored ≠ 0) (Piece.count t.ignored.toNat (w := "ignored".toList) (by decide)))).append hm).append (hu cases "case" (by decide) (by decide))).append
    ((hf asserts "assert" (by decide) (by decide)).append (Piece.ite (1 < rounds) (hf rounds "round" (by decide) (by decide))))
  have key : ∀ X ws, Piece X ws → Gap (X ++ (", ".toList ++ duration)) →
      summary t cases asserts rounds duration = (if 0 < t.failed then "Failure".toList else "Success".toList) ++ (' ' ::
        ((if mixed t then "(".toList else []) ++ (decimal t.passed.toNat ++ (X ++ (", ".toList ++ duration))))) →
      words (summary t cases asserts rounds duration) =
        (if 0 < t.failed then "Failure".toList else "Success".toList) :: decimal t.passed.toNat :: (ws ++ words duration) := by
    intro X ws hX hg e
    rw [e, words_word _ ' ' (.inl rfl) _ (by split <;> decide)]
    congr 1
    have h1 : ∀ Y, words ((if mixed t then "(".toList else []) ++ Y) = words Y := by
      intro Y
      split
      · exact words_gap '(' (.inr (.inr (.inl rfl))) Y
      · rfl
    rw [h1, words_clean (clean_decimal _) hg, hX.words hd, hdw]
  rw [key _ _ P (P.gap hd) ?_]
  · unfold shownCounts restWords
    have h2 : ∀ (c : Prop) [Decidable c] (n : Nat) (w : Str) (l : List Str), ((if c then [(decimal n, w)] else []).flatMap fun p => [p.1, p.2]) = if c then [decimal n, w] else [] := by
      intro c _ n w l
      split <;> rfl
    simp only [List.cons_append, List.nil_append, List.flatMap_cons, List.flatMap_append, h2 _ _ _ [], List.append_assoc]
  · unfold summary
    have hs : (if 0 < t.failed then "Failure ".toList else "Success ".toList) = (if 0 < t.failed then "Failure".toList else "Success".toList) ++ [' '] := by
      split <;> decide
    simp only [hs, List.append_assoc]
    rfl

/-! ### Suites keep their names -/

theorem all₂_mem {α : Type} {R : α → α → Prop} {l l' : List α} (h : All₂ R l l') {x : α} (hx : x ∈ l') : ∃ y ∈ l, R y x := by
  induction h with
  | nil => cases hx
  | cons r _ ih =>
    rcases List.mem_cons.1 hx with rfl | hx
    · exact ⟨_, by simp, r⟩
    · obtain ⟨y, hy, hr⟩ := ih hx
      exact ⟨y, by simp [hy], hr⟩

theorem names_like {f : Nat → Str} {ss ss' : List Suite} (h : All₂ SuiteLike ss ss') (hq : SuiteNames f ss) : SuiteNames f ss' := by
  intro s hs c hc
  obtain ⟨t, ht, hl⟩ := all₂_mem h hs
  obtain ⟨d, hd, x⟩ := all₂_mem hl.cases hc
  rw [x.id, hl.name]
  exact hq t ht d hd

theorem names_sort {f : Nat → Str} {ss : List Suite} (cmp : Key → Key → Int) (hq : SuiteNames f ss) : SuiteNames f (sortAll cmp ss) := by
  intro s hs c hc
  unfold sortAll at hs
  obtain ⟨t, ht, rfl⟩ := List.mem_map.1 hs
  exact hq t ((sort_perm _ _).mem_iff.1 ht) c ((sort_perm _ _).mem_iff.1 hc)

theorem names_random {f : Nat → Str} {ss : List Suite} (rnd : Nat → Int) (hq : SuiteNames f ss) : SuiteNames f (ss.map (randomize rnd)) := by
  intro s hs c hc
  obtain ⟨t, ht, rfl⟩ := List.mem_map.1 hs
  simp only [randomize, List.mem_map] at hc
  obtain ⟨d, hd, rfl⟩ := hc
  exact hq t ht d hd

theorem names_shuffle {f : Nat → Str} (o : Opts) (rnd : Nat → Int) (st : State) (hq : SuiteNames f st.suites) : SuiteNames f (st.shuffle o rnd).suites := by
  have h := names_like (restore_like st) hq
  unfold State.shuffle
  simp only
  split
  · exact names_sort _ h
  · split
    · split
      · exact names_sort _ (names_random _ h)
      · exact names_sort _ h
    · exact h

theorem runCase_id (o : Opts) (env : Env) (round : Nat) (l : Loop) (c : Case) : (runCase o env round l c).1.id = c.id := by
  unfold runCase
  simp only
  split <;> split <;> rfl

theorem runCases_names {f : Nat → Str} (n : Str) (o : Opts) (env : Env) (round : Nat) (cs : List Case) : ∀ l : Loop, (∀ c ∈ cs, f c.id = n) →
    ∀ c ∈ (runCases o env round l cs).1, f c.id = n := by
  induction cs with
  | nil => intro l _ c hc; cases hc
  | cons d cs ih =>
    intro l h c hc
    have hc : c ∈ (runCase o env round l d).1 :: (runCases o env round (runCase o env round l d).2 cs).1 := hc
    rcases List.mem_cons.1 hc with rfl | hc
    · rw [runCase_id]; exact h d (by simp)
    · exact ih _ (fun x hx => h x (by simp [hx])) c hc

theorem runSuites_names {f : Nat → Str} (o : Opts) (env : Env) (round : Nat) (ss : List Suite) : ∀ (st : Stats) (log : List Event) (sl : List (Nat × Stats)),
    SuiteNames f ss → SuiteNames f (runSuites o env round st log sl ss).1 := by
  induction ss with
  | nil => intro st log sl _ s hs; cases hs
  | cons t ss ih =>
    intro st log sl h s hs
    simp only [runSuites] at hs
    rcases List.mem_cons.1 hs with rfl | hs
    · exact runCases_names t.name o env round t.cases _ (h t (by simp))
    · exact ih _ _ _ (fun x hx => h x (by simp [hx])) s hs

theorem names_rounds {f : Nat → Str} (o : Opts) (env : Env) (rnd : Nat → Nat → Int) (st : State) (hq : SuiteNames f st.suites) (n : Nat) :
    SuiteNames f (st.rounds o env rnd n).suites := by
  induction n with
  | zero => exact hq
  | succ n ih =>
    show SuiteNames f ((st.rounds o env rnd n).round o env (rnd n) n).suites
    obtain ⟨g, e⟩ := round_eq o env (rnd n) n (st.rounds o env rnd n)
    rw [e]
    exact runSuites_names o env n _ _ _ _ (names_shuffle o _ _ ih)

theorem visits_names {f : Nat → Str} (o : Opts) (env : Env) (rnd : Nat → Nat → Int) (st : State) (hq : SuiteNames f st.suites) (n : Nat) :
    ∀ r ∈ visits o env rnd st n, SuiteNames f r.2 := by
  induction n with
  | zero => intro r hr; cases hr
  | succ n ih =>
    intro r hr
    unfold visits at hr
    rcases List.mem_append.1 hr with hr | hr
    · exact ih r hr
    · rw [List.mem_singleton.1 hr]
      exact names_rounds o env rnd st hq (n + 1)

/-! ### Items -/

theorem flatMap_congr_mem {α β : Type} (l : List α) (f g : α → List β) (h : ∀ a ∈ l, f a = g a) : l.flatMap f = l.flatMap g := by
  induction l with
  | nil => rfl
  | cons a l ih => rw [List.flatMap_cons, List.flatMap_cons, h a (by simp), ih fun x hx => h x (by simp [hx])]

theorem countCases_eq (ss : List Suite) : countCases ss = (allCases ss).length := by
  unfold countCases allCases
  rw [List.length_flatMap]

theorem visitCases_index (g : Cfg) (cases : Nat) (info : Case → Info) (s : Suite) (cs : List Case) : ∀ index,
    (visitCases g cases info s index cs).1 = index + cs.length := by
  induction cs with
  | nil => intro index; rfl
  | cons c cs ih =>
    intro index
    show (visitCases g cases info s (index + 1) cs).1 = _
    rw [ih, List.length_cons]; omega

theorem visitSuites_index (g : Cfg) (cases : Nat) (info : Case → Info) (ss : List Suite) : ∀ index,
    (visitSuites g cases info index ss).1 = index + (allCases ss).length := by
  induction ss with
  | nil => intro index; rfl
  | cons s ss ih =>
    intro index
    show (visitSuites g cases info (visitCases g cases info s index s.cases).1 ss).1 = _
    rw [ih, visitCases_index]
    simp only [allCases, List.flatMap_cons, List.length_append]; omega

theorem mem_cases (g : Cfg) (cases : Nat) (info : Case → Info) (s : Suite) (cs : List Case) : ∀ index {i : Item}, i ∈ (visitCases g cases info s index cs).2 →
    ∃ c k, c ∈ cs ∧ index ≤ k ∧ k < index + cs.length ∧ i ∈ onCaseStart g (k + 1) cases s c ++ onCaseEndup g (k + 1) cases s c (info c) := by
  induction cs with
  | nil => intro index i h; cases h
  | cons c cs ih =>
    intro index i h
    have h : i ∈ (onCaseStart g (index + 1) cases s c ++ onCaseEndup g (index + 1) cases s c (info c)) ++ (visitCases g cases info s (index + 1) cs).2 := h
    rcases List.mem_append.1 h with h | h
    · exact ⟨c, index, by simp, Nat.le_refl _, by simp, h⟩
    · obtain ⟨d, k, h1, h2, h3, h4⟩ := ih _ h
      exact ⟨d, k, by simp [h1], by omega, by rw [List.length_cons]; omega, h4⟩

theorem mem_suites (g : Cfg) (cases : Nat) (info : Case → Info) (ss : List Suite) : ∀ index {i : Item}, i ∈ (visitSuites g cases info index ss).2 →
    ∃ s c k, s ∈ ss ∧ c ∈ s.cases ∧ index ≤ k ∧ k < index + (allCases ss).length ∧ i ∈ onCaseStart g (k + 1) cases s c ++ onCaseEndup g (k + 1) cases s c (info c) := by
  induction ss with
  | nil => intro index i h; cases h
  | cons s ss ih =>
    intro index i h
    have h : i ∈ (visitCases g cases info s index s.cases).2 ++ (visitSuites g cases info (visitCases g cases info s index s.cases).1 ss).2 := h
    have e : (allCases (s :: ss)).length = s.cases.length + (allCases ss).length := by simp [allCases]
    rcases List.mem_append.1 h with h | h
    · obtain ⟨c, k, h1, h2, h3, h4⟩ := mem_cases _ _ _ _ _ _ h
      exact ⟨s, c, k, by simp, h1, h2, by omega, h4⟩
    · obtain ⟨t, c, k, h0, h1, h2, h3, h4⟩ := ih _ h
      rw [visitCases_index] at h2 h3
      exact ⟨t, c, k, by simp [h0], h1, by omega, by omega, h4⟩

theorem mem_rounds (g : Cfg) (cases : Nat) (info : Nat → Case → Info) (rs : List (Nat × List Suite)) : ∀ index {i : Item}, i ∈ (visitRounds g cases info index rs).2 →
    ∃ r s c k, r ∈ rs ∧ s ∈ r.2 ∧ k < index + (rs.map fun r => (allCases r.2).length).sum ∧
      i ∈ onCaseStart g (k + 1) cases s c ++ onCaseEndup g (k + 1) cases s c (info r.1 c) := by
  induction rs with
  | nil => intro index i h; cases h
  | cons r rs ih =>
    intro index i h
    have h : i ∈ (visitSuites g cases (info r.1) index r.2).2 ++ (visitRounds g cases info (visitSuites g cases (info r.1) index r.2).1 rs).2 := h
    rw [List.map_cons, List.sum_cons]
    rcases List.mem_append.1 h with h | h
    · obtain ⟨s, c, k, h0, h1, h2, h3, h4⟩ := mem_suites _ _ _ _ _ h
      exact ⟨r, s, c, k, by simp, h0, by omega, h4⟩
    · obtain ⟨t, s, c, k, h0, h1, h2, h4⟩ := ih _ h
      rw [visitSuites_index] at h2
      exact ⟨t, s, c, k, by simp [h0], h1, by omega, h4⟩

theorem start_no_case (g : Cfg) (index cases : Nat) (s : Suite) (c : Case) (a b d e t : Str) : ¬ Item.case a b d e t ∈ onCaseStart g index cases s c := by
  unfold onCaseStart
  repeat' split
  all_goals simp

theorem endup_case (g : Cfg) (index cases : Nat) (s : Suite) (c : Case) (i : Info) (a b d e t : Str) (h : Item.case a b d e t ∈ onCaseEndup g index cases s c i) :
    ∃ status : String, Item.case a b d e t = .case status.toList c.name s.name i.filine (barText g index cases status.toList s.name c.name (some i.filine)) := by
  unfold onCaseEndup at h
  repeat' split at h
  all_goals simp only [List.mem_cons, List.mem_map, List.not_mem_nil, reduceCtorEq, and_false, exists_false, or_false, printBar] at h
  all_goals exact ⟨_, h⟩

theorem endup_no_testing (g : Cfg) (index cases : Nat) (s : Suite) (c : Case) (i : Info) (t : Str) : ¬ Item.testing t ∈ onCaseEndup g index cases s c i := by
  unfold onCaseEndup
  repeat' split
  all_goals simp [printBar]

theorem lastLine_console (g : Cfg) (o : Opts) (env : Env) (rnd : Nat → Nat → Int) (info : Nat → Case → Info) (asserts : Nat) (duration : Str) (st : State) :
    lastLine (console g o env rnd info asserts duration st) = some (summary (st.main o env rnd).1.stats (countCases st.suites) asserts o.rounds duration) := by
  unfold lastLine console
  simp only [List.getLast?_concat]

theorem find_shown (t : Stats) (b : Bucket) : ((shownCounts t).find? fun p => p.2 == (said b).toList) =
    if b = .passed ∨ t.get b ≠ 0 then some (decimal (t.get b).toNat, (said b).toList) else none := by
  have skip : ∀ (c : Prop) [Decidable c] (n : Str) (w : Str) (f : Str × Str → Bool), f (n, w) = false → (if c then [(n, w)] else []).find? f = none := by
    intro c _ n w f h
    split
    · rw [List.find?_cons, h]; rfl
    · rfl
  have hit : ∀ (c : Prop) [Decidable c] (n : Str) (w : Str) (f : Str × Str → Bool), f (n, w) = true → (if c then [(n, w)] else []).find? f = if c then some (n, w) else none := by
    intro c _ n w f h
    split
    · rw [List.find?_cons, h]
    · rfl
  have first : ∀ (n : Str) (w : Str) (f : Str × Str → Bool), f (n, w) = false → [(n, w)].find? f = none := by
    intro n w f h
    rw [List.find?_cons, h]; rfl
  unfold shownCounts
  simp only [List.find?_append]
  cases b with
  | passed => 
    rw [List.find?_cons]; rfl
  | failed =>
    rw [first _ _ _ rfl, hit _ _ _ _ rfl, skip _ _ _ _ rfl, skip _ _ _ _ rfl, skip _ _ _ _ rfl, skip _ _ _ _ rfl]
    simp only [Option.none_or, Option.or_none, reduceCtorEq, false_or]; rfl
  | warning =>
    rw [first _ _ _ rfl, skip _ _ _ _ rfl, hit _ _ _ _ rfl, skip _ _ _ _ rfl, skip _ _ _ _ rfl, skip _ _ _ _ rfl]
    simp only [Option.none_or, Option.or_none, reduceCtorEq, false_or]; rfl
  | todo =>
    rw [first _ _ _ rfl, skip _ _ _ _ rfl, skip _ _ _ _ rfl, hit _ _ _ _ rfl, skip _ _ _ _ rfl, skip _ _ _ _ rfl]
    simp only [Option.none_or, Option.or_none, reduceCtorEq, false_or]; rfl
  | filtered =>
    rw [first _ _ _ rfl, skip _ _ _ _ rfl, skip _ _ _ _ rfl, skip _ _ _ _ rfl, hit _ _ _ _ rfl, skip _ _ _ _ rfl]
    simp only [Option.none_or, Option.or_none, reduceCtorEq, false_or]; rfl
  | ignored =>
    rw [first _ _ _ rfl, skip _ _ _ _ rfl, skip _ _ _ _ rfl, skip _ _ _ _ rfl, skip _ _ _ _ rfl, hit _ _ _ _ rfl]
    simp only [Option.none_or, Option.or_none, reduceCtorEq, false_or]; rfl

theorem decimal_ne (n : Nat) (w : String) (h : ∃ c ∈ w.toList, c.isDigit = false) : decimal n ≠ w.toList := by
  intro e
  obtain ⟨c, h1, h2⟩ := h
  rw [← e] at h1
  have := Nat.isDigit_of_mem_toDigits (by omega) (by omega) h1
  rw [h2] at this
  cases this

theorem said_letters (b : Bucket) : ∃ c ∈ (said b).toList, c.isDigit = false := by
  cases b <;> decide

theorem shown_digits (t : Stats) (b : Bucket) : ∀ p ∈ shownCounts t, p.1 ≠ (said b).toList := by
  intro p hp
  have : ∃ n, p.1 = decimal n := by
    unfold shownCounts at hp
    simp only [List.mem_append] at hp
    have hi : ∀ (c : Prop) [Decidable c] (n : Nat) (w : Str), p ∈ (if c then [(decimal n, w)] else []) → ∃ n, p.1 = decimal n := by
      intro c _ n w h
      split at h
      · rw [List.mem_singleton.1 h]; exact ⟨n, rfl⟩
      · cases h
    rcases hp with ((((hp | hp) | hp) | hp) | hp) | hp
    · rw [List.mem_singleton.1 hp]; exact ⟨_, rfl⟩
    all_goals exact hi _ _ _ hp
  obtain ⟨n, e⟩ := this
  rw [e]
  exact decimal_ne n _ (said_letters b)

theorem rest_words (t : Stats) (cases asserts rounds : Nat) (duration : Str) (b : Bucket) (hd : (said b).toList ∉ words duration) :
    (said b).toList ∉ restWords t cases asserts rounds duration := by
  have hn : ∀ n, (said b).toList ≠ decimal n := fun n => (decimal_ne n _ (said_letters b)).symm
  have hp : ∀ n w, w ∈ ["case", "assert", "round"] → (said b).toList ≠ plural n w := by
    intro n w hw
    unfold plural
    simp only [List.mem_cons, List.not_mem_nil, or_false] at hw
    rcases hw with rfl | rfl | rfl <;> split <;> cases b <;> decide
  unfold restWords
  simp only [List.mem_append, List.mem_singleton, List.mem_cons, List.not_mem_nil, or_false, not_or]
  refine ⟨?_, hp _ _ (by simp), ⟨hn _, hp _ _ (by simp)⟩, ?_, hd⟩
  · split
    · simp [hn]
    · simp
  · split
    · simp only [List.mem_cons, List.not_mem_nil, or_false, not_or]; exact ⟨hn _, hp _ _ (by simp)⟩
    · simp

theorem before_none (w : String) (l : List Str) (h : w.toList ∉ l) : before w l = none := by
  induction l with
  | nil => rfl
  | cons a l ih =>
    cases l with
    | nil => rfl
    | cons b r =>
      unfold before
      rw [if_neg (fun e => h (by simp [e]))]
      exact ih fun x => h (by simp [List.mem_cons.1 x])

theorem before_at (w : String) (a : List Str) (x : Str) (r : List Str) (ha : w.toList ∉ a) (hx : x ≠ w.toList) :
    before w (a ++ ([x] ++ ([w.toList] ++ r))) = some x := by
  induction a with
  | nil => show (if w.toList = w.toList then some x else _) = _; rw [if_pos rfl]
  | cons b a ih =>
    have h2 : w.toList ∉ a := fun m => ha (by simp [m])
    cases a with
    | nil =>
      show (if x = w.toList then some b else _) = _
      rw [if_neg hx]
      exact ih h2
    | cons d a =>
      show (if d = w.toList then some b else _) = _
      rw [if_neg (fun e => h2 (by simp [e]))]
      exact ih h2

/-- The words before the totals. -/
def Known (x : Str) : Prop := (∃ n, x = decimal n) ∨ ∃ w ∈ ["Failure", "Success", "passed", "failed", "warning", "todo", "filtered", "ignored"], x = w.toList

theorem known_other (w : String) (hw : w ∈ ["case", "cases", "assert", "asserts", "round", "rounds"]) (x : Str) (hx : Known x) : x ≠ w.toList := by
  have hl : ∃ c ∈ w.toList, c.isDigit = false := by
    revert w; decide
  rcases hx with ⟨n, rfl⟩ | ⟨v, hv, rfl⟩
  · exact decimal_ne n w hl
  · revert v
    revert w
    decide

theorem shown_known (t : Stats) : ∀ x ∈ (if 0 < t.failed then "Failure".toList else "Success".toList) :: (shownCounts t).flatMap fun p => [p.1, p.2], Known x := by
  intro x hx
  rcases List.mem_cons.1 hx with rfl | hx
  · split
    · exact .inr ⟨"Failure", by simp, rfl⟩
    · exact .inr ⟨"Success", by simp, rfl⟩
  obtain ⟨p, hp, hx⟩ := List.mem_flatMap.1 hx
  have : ∃ n, ∃ w ∈ ["Failure", "Success", "passed", "failed", "warning", "todo", "filtered", "ignored"], p = (decimal n, w.toList) := by
    unfold shownCounts at hp
    simp only [List.mem_append] at hp
    have hi : ∀ (c : Prop) [Decidable c] (n : Nat) (w : String), w ∈ ["Failure", "Success", "passed", "failed", "warning", "todo", "filtered", "ignored"] →
        p ∈ (if c then [(decimal n, w.toList)] else []) → ∃ n, ∃ w ∈ ["Failure", "Success", "passed", "failed", "warning", "todo", "filtered", "ignored"], p = (decimal n, w.toList) := by
      intro c _ n w hw h
      split at h
      · rw [List.mem_singleton.1 h]; exact ⟨n, w, hw, rfl⟩
      · cases h
    rcases hp with ((((hp | hp) | hp) | hp) | hp) | hp
    · rw [List.mem_singleton.1 hp]; exact ⟨_, "passed", by decide, rfl⟩
    · exact hi _ _ "failed" (by decide) hp
    · exact hi _ _ "warning" (by decide) hp
    · exact hi _ _ "todo" (by decide) hp
    · exact hi _ _ "filtered" (by decide) hp
    · exact hi _ _ "ignored" (by decide) hp
  obtain ⟨n, w, hw, rfl⟩ := this
  simp only [List.mem_cons, List.not_mem_nil, or_false] at hx
  rcases hx with rfl | rfl
  · exact .inl ⟨n, rfl⟩
  · exact .inr ⟨w, hw, rfl⟩

theorem mixed_of (t : Stats) (b : Bucket) (hb : b ≠ .passed) (h : 0 < t.get b) : mixed t := by
  unfold mixed nonzeroCount
  rw [List.countP_pos_iff]
  refine ⟨(t.get b).toNat, ?_, by simp; omega⟩
  cases b <;> simp [Stats.get] at hb ⊢

end H2.Console
