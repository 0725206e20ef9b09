import Verif.Runner.Props
import Verif.Console.Lemmas
/-
C63: what is read on the console is what happened.

That the percentage of progress never exceeds 100 is false with more than one round (`C63_percentage_rounds`); it is proved of one
round.
-/
namespace H2.Console
open H2.Runner

/-- The lines about cases, and the failures and measures below them, are those a user expects at the verbosity chosen, for each case visited and in
this order. -/
theorem C63_cases (g : Cfg) (o : Opts) (env : Env) (rnd : Nat → Nat → Int) (info : Nat → Case → Info) (asserts : Nat) (duration : Str) (st : State)
    (h : Fresh st) (hl : o.lists = false) (suite : Nat → Str) (hs : SuiteNames suite st.suites) :
    lines (console g o env rnd info asserts duration st) =
      (st.main o env rnd).1.log.flatMap fun e => expected g.verbose (suite e.case.id) (info e.round e.case) e := by
  unfold console
  simp only
  rw [lines_append, lines_rounds suite g _ info _ (visits_names o env rnd st hs o.rounds), ← visits_log o env rnd st h.log o.rounds, List.flatMap_map,
    show lines [.summary _] = [] from rfl, List.append_nil]
  refine flatMap_congr_mem _ _ _ fun e he => ?_
  refine block_expected _ _ _ e ?_
  have := C32_ran o env rnd st h e he
  rw [this]
  exact ⟨fun x => x.2, fun x => ⟨hl, x⟩⟩

/-- Two suites with cases of all kinds: one passes, one fails, one is filtered, one is to do. -/
def sample : State where
  suites := [{ id := 0, name := "one".toList, cases := [{ id := 0, name := "a > b".toList }, { id := 1, name := "f".toList }] },
             { id := 1, name := "two".toList, cases := [{ id := 2, name := "x".toList, filtered := true }, { id := 3, name := "t".toList, todo := true }] }]

/-- The case with the number 1 fails. -/
def fails : Env := fun _ c => (c.id == 1, false)

def about : Nat → Case → Info := fun _ c => { filine := "test.cpp:12".toList, fails := if c.failed then ["1 is not 2".toList] else [], asserts := 3 }

example : lines (console ⟨5, true⟩ {} fails (fun _ _ => 0) about 7 "3 milliseconds".toList sample) =
    [.case "Passed ".toList "a > b".toList "one".toList "test.cpp:12".toList, .detail 3 0 0, .case "Failed ".toList "f".toList "one".toList "test.cpp:12".toList,
     .fail "1 is not 2".toList, .case "Todo   ".toList "t".toList "two".toList "test.cpp:12".toList] := by decide +kernel
example : lines (console ⟨1, true⟩ {} fails (fun _ _ => 0) about 7 "3 milliseconds".toList sample) =
    [.case "Failed ".toList "f".toList "one".toList "test.cpp:12".toList] := by decide +kernel
example : Fresh sample ∧ SuiteNames (fun n => if n < 2 then "one".toList else "two".toList) sample.suites :=
  ⟨⟨rfl, rfl, rfl, by decide⟩, by unfold SuiteNames; decide⟩

/-- A line about a case shows its status, its name, its suite and its place, in this order; `case` and `suite` stand for an empty
name. -/
theorem C63_text (g : Cfg) (o : Opts) (env : Env) (rnd : Nat → Nat → Int) (info : Nat → Case → Info) (asserts : Nat) (duration : Str) (st : State)
    (status name suite place text : Str) (h : .case status name suite place text ∈ console g o env rnd info asserts duration st) :
    ∃ a, (g.progressing = false → a = []) ∧ text = a ++ status ++ "┊ ".toList ++ (if name = [] then "case".toList else name) ++ " ┊ ".toList ++
      (if suite = [] then "suite".toList else suite) ++ " ┊ ".toList ++ place ++ " ".toList := by
  unfold console at h
  simp only at h
  rcases List.mem_append.1 h with h | h
  · obtain ⟨r, s, c, index, _, _, _, h⟩ := mem_rounds g _ info _ 0 h
    rcases List.mem_append.1 h with h | h
    · exact absurd h (start_no_case g _ _ s c _ _ _ _ _)
    · obtain ⟨st', e⟩ := endup_case g _ _ s c _ _ _ _ _ _ h
      injection e with e1 e2 e3 e4 e5
      subst e1; subst e2; subst e3; subst e4; subst e5
      refine ⟨if g.progressing then formatPercentage (index + 1) (countCases st.suites) else [], fun hp => by rw [hp]; rfl, ?_⟩
      unfold barText formatTitle
      have t1 : (if c.name ≠ [] then c.name ++ " ".toList else "case ".toList) = (if c.name = [] then "case".toList else c.name) ++ " ".toList := by
        by_cases e : c.name = []
        · rw [if_neg (by simp [e]), if_pos e]; decide
        · rw [if_pos e, if_neg e]
      have t2 : (if s.name ≠ [] then s.name ++ " ".toList else "suite ".toList) = (if s.name = [] then "suite".toList else s.name) ++ " ".toList := by
        by_cases e : s.name = []
        · rw [if_neg (by simp [e]), if_pos e]; decide
        · rw [if_pos e, if_neg e]
      have t3 : " ┊ ".toList = " ".toList ++ "┊ ".toList := by decide
      rw [t1, t2, t3]
      simp only [List.append_assoc]
  · simp at h

example : Item.case "Failed ".toList "f".toList "one".toList "test.cpp:12".toList "[ 50%] Failed ┊ f ┊ one ┊ test.cpp:12 ".toList ∈
    console ⟨1, true⟩ {} fails (fun _ _ => 0) about 7 "3 milliseconds".toList sample := by decide +kernel

/-- In a single round the percentage shown is that of some number of cases, at most all. -/
theorem C63_percentage_partial (g : Cfg) (o : Opts) (env : Env) (rnd : Nat → Nat → Int) (info : Nat → Case → Info) (asserts : Nat) (duration : Str) (st : State)
    (h : Fresh st) (h1 : o.rounds = 1) (hp : g.progressing = true) (text : Str)
    (ht : .testing text ∈ console g o env rnd info asserts duration st ∨ ∃ status name suite place, .case status name suite place text ∈ console g o env rnd info asserts duration st) :
    ∃ pad k rest, (0 < k ∧ k ≤ (allCases st.suites).length) ∧ (∀ c ∈ pad, c = ' ') ∧
      text = "[".toList ++ pad ++ Nat.toDigits 10 (k * 100 / (allCases st.suites).length) ++ "%] ".toList ++ rest := by
  have key : ∀ index rest, index < countCases st.suites → ∃ pad k rest', (0 < k ∧ k ≤ (allCases st.suites).length) ∧ (∀ c ∈ pad, c = ' ') ∧
      (if g.progressing then formatPercentage (index + 1) (countCases st.suites) else []) ++ rest = "[".toList ++ pad ++ Nat.toDigits 10 (k * 100 / (allCases st.suites).length) ++ "%] ".toList ++ rest' := by
    intro index rest hi
    rw [hp]
    refine ⟨List.replicate (3 - (decimal (percentage (index + 1) (countCases st.suites))).length) ' ', index + 1, rest, ⟨by omega, by rw [← countCases_eq]; omega⟩, ?_, ?_⟩
    · exact fun c hc => List.eq_of_mem_replicate hc
    · have hq : (index + 1) * 100 / (allCases st.suites).length = percentage (index + 1) (countCases st.suites) := by
        unfold percentage
        rw [if_pos (by omega), countCases_eq]
      rw [hq]
      unfold formatPercentage
      have t : "%] ".toList = "%".toList ++ "] ".toList := by decide
      rw [if_pos rfl, t]
      simp only [List.append_assoc]
      rfl
  have hn : ∀ index, index < ((visits o env rnd st o.rounds).map fun r => (allCases r.2).length).sum → index < countCases st.suites := by
    intro index hi
    rw [h1] at hi
    have e := (rounds_log o env rnd st h.log 1).2.2.1.length_eq
    simp only [ids, List.length_map] at e
    have : ((visits o env rnd st 1).map fun r => (allCases r.2).length).sum = (allCases st.suites).length := by
      show (allCases (st.rounds o env rnd 1).suites).length + 0 = _
      rw [e]; rfl
    rw [this] at hi
    rw [countCases_eq]; exact hi
  unfold console at ht
  simp only [List.mem_append, List.mem_singleton, reduceCtorEq, or_false] at ht
  rcases ht with ht | ⟨status, name, suite, place, ht⟩
  · obtain ⟨r, s, c, index, _, _, hi, ht⟩ := mem_rounds g _ info _ 0 ht
    have hi := hn index (by omega)
    rcases List.mem_append.1 ht with ht | ht
    · unfold onCaseStart at ht
      split at ht
      · simp at ht
      split at ht
      · simp at ht
      simp only [List.mem_singleton, Item.testing.injEq] at ht
      subst ht
      unfold barText
      rw [List.append_assoc]
      exact key index _ hi
    · exact absurd ht (endup_no_testing g _ _ s c _ _)
  · obtain ⟨r, s, c, index, _, _, hi, ht⟩ := mem_rounds g _ info _ 0 ht
    have hi := hn index (by omega)
    rcases List.mem_append.1 ht with ht | ht
    · exact absurd ht (start_no_case g _ _ s c _ _ _ _ _)
    · obtain ⟨st', e⟩ := endup_case g _ _ s c _ _ _ _ _ _ ht
      injection e with e1 e2 e3 e4 e5
      subst e5
      unfold barText
      rw [List.append_assoc]
      exact key index _ hi

/-- With two rounds 200% is shown. -/
theorem C63_percentage_rounds : Item.testing "[200%] Testing┊ f ┊ one ".toList ∈
    console ⟨1, true⟩ { rounds := 2 } fails (fun _ _ => 0) about 7 "3 milliseconds".toList
      { suites := [{ id := 0, name := "one".toList, cases := [{ id := 1, name := "f".toList }] }] } := by decide +kernel

/-- The last line begins with `Failure` if a case failed in some round, else with `Success`. -/
theorem C63_verdict (g : Cfg) (o : Opts) (env : Env) (rnd : Nat → Nat → Int) (info : Nat → Case → Info) (asserts : Nat) (duration : Str) (st : State) (h : Fresh st) :
    ∃ t, lastLine (console g o env rnd info asserts duration st) = some t ∧
      (words t).head? = some (if ∃ e ∈ (st.main o env rnd).1.log, e.is .failed = true then "Failure".toList else "Success".toList) := by
  refine ⟨_, lastLine_console g o env rnd info asserts duration st, ?_⟩
  rw [words_summary]
  have hc := C32_counts o env rnd st h .failed
  have hc : (st.main o env rnd).1.stats.failed = tally .failed (st.main o env rnd).1.log := hc
  show some _ = some _
  have hx : 0 < (st.main o env rnd).1.stats.failed ↔ ∃ e ∈ (st.main o env rnd).1.log, e.is .failed = true := by
    rw [hc, ← List.countP_pos_iff]
    unfold tally
    omega
  by_cases h0 : 0 < (st.main o env rnd).1.stats.failed
  · rw [if_pos h0, if_pos (hx.1 h0)]
  · rw [if_neg h0, if_neg (fun y => h0 (hx.2 y))]

/-- The last line tells the number of cases of each outcome: that of the passed ones always, that of another if it is not 0. -/
theorem C63_counts (g : Cfg) (o : Opts) (env : Env) (rnd : Nat → Nat → Int) (info : Nat → Case → Info) (asserts : Nat) (duration : Str) (st : State) (h : Fresh st)
    (b : Bucket) (hd : (said b).toList ∉ words duration) :
    ∃ t, lastLine (console g o env rnd info asserts duration st) = some t ∧
      before (said b) (words t) =
        let n := (st.main o env rnd).1.log.countP fun e => e.is b
        if b = .passed ∨ n ≠ 0 then some (Nat.toDigits 10 n) else none := by
  refine ⟨_, lastLine_console g o env rnd info asserts duration st, ?_⟩
  have hc : ∀ b, (st.main o env rnd).1.stats.get b = ((st.main o env rnd).1.log.countP fun e => e.is b : Nat) := C32_counts o env rnd st h
  rw [words_summary, before_pairs]
  · dsimp only
    have hb := hc b
    generalize ((st.main o env rnd).1.log.countP fun e => e.is b) = n at hb ⊢
    rw [find_shown (st.main o env rnd).1.stats b, hb]
    have e1 : ((n : Nat) : Int).toNat = n := by omega
    have e2 : ((n : Nat) : Int) ≠ 0 ↔ n ≠ 0 := by omega
    rw [e1]
    split <;> rename_i x
    · rw [if_pos (x.imp id e2.1)]; rfl
    · rw [if_neg (fun y => x (y.imp id e2.2))]; rfl
  · exact shown_digits _ b
  · exact rest_words _ _ _ _ _ b hd

example : (lastLine (console ⟨5, true⟩ {} fails (fun _ _ => 0) about 7 "3 milliseconds".toList sample)) =
    some "Failure (1 passed, 1 failed, 1 todo, 1 filtered) 4 cases, 7 asserts, 3 milliseconds".toList := by decide +kernel
example : (said .failed).toList ∉ words "3 milliseconds".toList := by decide

/-- The last line tells the number of cases registered if not all cases passed, the number of assertions, and that of rounds if
there were several. -/
theorem C63_totals (g : Cfg) (o : Opts) (env : Env) (rnd : Nat → Nat → Int) (info : Nat → Case → Info) (asserts : Nat) (duration : Str) (st : State) (h : Fresh st)
    (hd : ∀ w ∈ ["case", "cases", "assert", "asserts", "round", "rounds"], w.toList ∉ words duration) :
    ∃ t, lastLine (console g o env rnd info asserts duration st) = some t ∧
      ((∃ b, b ≠ .passed ∧ ∃ e ∈ (st.main o env rnd).1.log, e.is b = true) →
        before (if 1 < (allCases st.suites).length then "cases" else "case") (words t) = some (Nat.toDigits 10 (allCases st.suites).length)) ∧
      before (if 1 < asserts then "asserts" else "assert") (words t) = some (Nat.toDigits 10 asserts) ∧
      before (if 1 < o.rounds then "rounds" else "round") (words t) = if 1 < o.rounds then some (Nat.toDigits 10 o.rounds) else none := by
  refine ⟨_, lastLine_console g o env rnd info asserts duration st, ?_⟩
  have hc : ∀ b, (st.main o env rnd).1.stats.get b = ((st.main o env rnd).1.log.countP fun e => e.is b : Nat) := C32_counts o env rnd st h
  rw [words_summary, countCases_eq]
  unfold restWords
  have hplural : ∀ (n : Nat) (w ws : String), (w ++ "s").toList = ws.toList → plural n w = (if 1 < n then ws else w).toList := by
    intro n w ws hw
    unfold plural
    split
    · exact hw
    · rfl
  have hcase := hplural (allCases st.suites).length "case" "cases" (by decide)
  have hassert := hplural asserts "assert" "asserts" (by decide)
  have hround := hplural o.rounds "round" "rounds" (by decide)
  have hk := shown_known (st.main o env rnd).1.stats
  generalize ((if 0 < (st.main o env rnd).1.stats.failed then "Failure".toList else "Success".toList) :: (shownCounts (st.main o env rnd).1.stats).flatMap fun p => [p.1, p.2]) = pre at hk ⊢
  have known : ∀ w ∈ ["case", "cases", "assert", "asserts", "round", "rounds"], w.toList ∉ pre := by
    intro w hw hm
    exact known_other w hw _ (hk _ hm) rfl
  have number : ∀ w ∈ ["case", "cases", "assert", "asserts", "round", "rounds"], ∀ n, decimal n ≠ w.toList := by
    intro w hw n e
    exact known_other w hw _ (.inl ⟨n, rfl⟩) e
  have mem1 : ∀ n : Nat, (if 1 < n then "cases" else "case") ∈ ["case", "cases", "assert", "asserts", "round", "rounds"] := by intro n; split <;> simp
  have mem2 : ∀ n : Nat, (if 1 < n then "asserts" else "assert") ∈ ["case", "cases", "assert", "asserts", "round", "rounds"] := by intro n; split <;> simp
  have mem3 : ∀ n : Nat, (if 1 < n then "rounds" else "round") ∈ ["case", "cases", "assert", "asserts", "round", "rounds"] := by intro n; split <;> simp
  have ne12 : ∀ n m : Nat, (if 1 < n then "cases" else "case").toList ≠ (if 1 < m then "asserts" else "assert").toList := by
    intro n m; split <;> split <;> decide
  have ne13 : ∀ n m : Nat, (if 1 < n then "cases" else "case").toList ≠ (if 1 < m then "rounds" else "round").toList := by
    intro n m; split <;> split <;> decide
  have ne23 : ∀ n m : Nat, (if 1 < n then "asserts" else "assert").toList ≠ (if 1 < m then "rounds" else "round").toList := by
    intro n m; split <;> split <;> decide
  rw [hcase, hassert, hround]
  have hmid : ∀ w ∈ ["case", "cases", "assert", "asserts", "round", "rounds"], w.toList ∉ (if mixed (st.main o env rnd).1.stats then [decimal (allCases st.suites).length] else []) := by
    intro w hw
    split
    · simp only [List.mem_singleton]; exact fun e => number w hw _ e.symm
    · simp
  refine ⟨fun hb => ?_, ?_, ?_⟩
  · have hm : mixed (st.main o env rnd).1.stats := by
      obtain ⟨b, hb, e, he, hi⟩ := hb
      have h1 := hc b
      have h2 : 0 < (st.main o env rnd).1.log.countP fun e => e.is b := List.countP_pos_iff.2 ⟨e, he, hi⟩
      exact mixed_of _ b hb (by omega)
    rw [if_pos hm]
    exact before_at _ pre _ _ (known _ (mem1 _)) (number _ (mem1 _) _)
  · rw [show ∀ a b c d : List Str, a ++ (b ++ ([(if 1 < (allCases st.suites).length then "cases" else "case").toList] ++ (c ++ d))) =
      (a ++ b ++ [(if 1 < (allCases st.suites).length then "cases" else "case").toList]) ++ (c ++ d) from fun a b c d => by simp only [List.append_assoc]]
    refine before_at _ _ _ _ ?_ (number _ (mem2 _) _)
    simp only [List.mem_append, List.mem_singleton, not_or]
    exact ⟨⟨known _ (mem2 _), hmid _ (mem2 _)⟩, (ne12 _ _).symm⟩
  · have hpre : (if 1 < o.rounds then "rounds" else "round").toList ∉ pre ++ (if mixed (st.main o env rnd).1.stats then [decimal (allCases st.suites).length] else []) ++
        [(if 1 < (allCases st.suites).length then "cases" else "case").toList] ++ [decimal asserts, (if 1 < asserts then "asserts" else "assert").toList] := by
      simp only [List.mem_append, List.mem_cons, List.not_mem_nil, or_false, not_or]
      exact ⟨⟨⟨known _ (mem3 _), hmid _ (mem3 _)⟩, (ne13 _ _).symm⟩, (number _ (mem3 _) _).symm, (ne23 _ _).symm⟩
    rw [show ∀ a b c d e : List Str, a ++ (b ++ (c ++ (d ++ e))) = (a ++ b ++ c ++ d) ++ e from fun a b c d e => by simp only [List.append_assoc]]
    by_cases hr : 1 < o.rounds
    · rw [if_pos hr] at hpre ⊢
      rw [if_pos hr, if_pos hr]
      exact before_at _ _ _ _ hpre (number _ (by simp) _)
    · rw [if_neg hr] at hpre ⊢
      rw [if_neg hr, if_neg hr]
      refine before_none _ _ ?_
      rw [List.mem_append, List.nil_append, not_or]
      exact ⟨hpre, hd _ (by simp)⟩

example : before "cases" (words "Failure (1 passed, 1 failed, 1 todo, 1 filtered) 4 cases, 7 asserts, 2 rounds, 3 milliseconds".toList) = some "4".toList ∧
    before "rounds" (words "Failure (1 passed, 1 failed, 1 todo, 1 filtered) 4 cases, 7 asserts, 2 rounds, 3 milliseconds".toList) = some "2".toList := by decide
example : ∀ w ∈ ["case", "cases", "assert", "asserts", "round", "rounds"], w.toList ∉ words "3 milliseconds".toList := by decide

end H2.Console
