import Verif.Junit.Lemmas
/-
C62: the JUnit report names every case visited, with how it ended.

The full statement is false of the code: special characters are not escaped (`C62_special`), the counts of failed and skipped
cases are always 0 (`C62_counts_zero`), the failures themselves are not shown (`C62_no_messages`), a case that was not run shows a
failure of an earlier round (`C62_stale`), and a case that is left out for two reasons is counted for one and reported for the
other (`C62_two_reasons`).  The rest is proved.
-/
namespace H2.Junit
open H2.Runner

/-- The file is an XML document with one element for each case visited, in this order, that names it and tells how it ended. -/
theorem C62_cases_partial (o : Opts) (env : Env) (rnd : Nat → Nat → Int) (info : Nat → Case → Info) (st : State) (h : Fresh st) (hl : o.lists = false)
    (hs : ∀ s ∈ st.suites, Plain s.name ∧ ∀ c ∈ s.cases, Plain c.name) (hf : ∀ r c, Plain (info r c).filine) :
    ∃ doc, read (written o env rnd info st) = some doc ∧ (testcases doc).length = (st.main o env rnd).1.log.length ∧
      ∀ (k : Nat) n e, (testcases doc)[k]? = some n → (st.main o env rnd).1.log[k]? = some e → Tells n e := by
  refine ⟨_, report_read info (visits o env rnd st o.rounds) ?_, ?_⟩
  · intro r hr s hs'
    obtain ⟨h1, h2⟩ := visits_named (Q := Plain) o env rnd st hs o.rounds r hr s hs'
    exact ⟨h1, fun c hc => ⟨h2 c hc, hf _ _⟩⟩
  have hv := visits_log o env rnd st h.log o.rounds
  have ht : (testcases (docNode info (visits o env rnd st o.rounds))).map (fun n => (n.get "name", n.get "status", n.inside "failure" ≠ [])) =
      (st.rounds o env rnd o.rounds).log.map fun e => (some e.case.name, some (status e.case), e.case.failed = true) := by
    have e1 : (st.rounds o env rnd o.rounds).log.map (fun e => (some e.case.name, some (status e.case), e.case.failed = true)) =
        ((st.rounds o env rnd o.rounds).log.map fun e => (e.round, e.case)).map fun p => (some p.2.name, some (status p.2), p.2.failed = true) := by
      rw [List.map_map]; rfl
    rw [e1, hv, testcases_doc]
    simp only [List.map_flatMap, allCases, List.map_map]
    have key : ∀ (r : Nat) (s : Suite) (c : Case), ((caseNode s c (info r c)).get "name", (caseNode s c (info r c)).get "status",
        (caseNode s c (info r c)).inside "failure" ≠ []) = (some c.name, some (status c), c.failed = true) := by
      intro r s c
      have a3 : (caseNode s c (info r c)).inside "failure" ≠ [] ↔ c.failed = true := by
        show (failureNodes c (info r c) ++ _).filter _ ≠ [] ↔ _
        unfold failureNodes
        cases c.failed with
        | false => simp [Node.name]
        | true => simp [Node.name]
      rw [case_name, case_status, propext a3]
    congr 1
    funext r
    congr 1
    funext s
    exact List.map_congr_left fun c _ => key r.1 s c
  have hlen := congrArg List.length ht
  rw [List.length_map, List.length_map] at hlen
  refine ⟨hlen, fun k n e hn he => ?_⟩
  have hk := congrArg (fun l => l[k]?) ht
  simp only [List.getElem?_map] at hk
  have he' : (st.rounds o env rnd o.rounds).log[k]? = some e := he
  rw [hn, he'] at hk
  simp only [Option.map_some, Option.some.injEq, Prod.mk.injEq] at hk
  obtain ⟨k1, k2, k3⟩ := hk
  have hr := C32_ran o env rnd st h e (List.mem_of_getElem? he)
  have hr : e.ran = true ↔ e.case.todo = false ∧ e.case.filtered = false ∧ e.case.ignored = false := by
    rw [hr]; exact ⟨fun x => x.2, fun x => ⟨hl, x⟩⟩
  refine ⟨k1, fun h1 b hb => ?_, fun h1 => ?_⟩
  · rw [k2]
    congr 1
    obtain ⟨g1, g2, g3⟩ := h1
    unfold status
    cases e1 : e.case.todo <;> cases e2 : e.case.filtered <;> cases e3 : e.case.ignored <;> cases e4 : e.case.failed <;> cases e5 : e.case.warning <;> cases e6 : e.ran <;>
      cases b <;> simp_all [Event.is, word]
  · rw [k3]
    simp [Event.is, h1]

/-- Two suites with cases of all kinds: one passes, one fails, one is filtered, one is to do. -/
def sample : State where
  suites := [{ id := 0, name := "one".toList, cases := [{ id := 0, name := "a > b".toList }, { id := 1, name := "f".toList }] },
             { id := 1, name := "two".toList, cases := [{ id := 2, name := "x".toList, filtered := true }, { id := 3, name := "t".toList, todo := true }] }]

/-- The case with the number 1 fails. -/
def fails : Env := fun _ c => (c.id == 1, false)

def where_ : Nat → Case → Info := fun _ c => ⟨"test.cpp:12".toList, if c.failed then ["expect 1 actual 2".toList] else [], 1234⟩

theorem plain_where (r : Nat) (c : Case) : Plain (where_ r c).filine := (by decide : Plain "test.cpp:12".toList)

example : ∃ doc, read (written {} fails (fun _ _ => 0) where_ sample) = some doc ∧ (testcases doc).length = 4 ∧
    (testcases doc).map (fun n => n.get "name") = [some "a > b".toList, some "f".toList, some "x".toList, some "t".toList] ∧
    (testcases doc).map (fun n => n.get "status") = [some "Passed".toList, some "Failed".toList, some "Filtered".toList, some "TODO".toList] ∧
    (testcases doc).map (fun n => (n.inside "failure").length) = [0, 1, 0, 0] := by
  refine ⟨_, report_read where_ (visits {} fails (fun _ _ => 0) sample 1) ?_, ?_⟩
  · intro r hr s hs
    obtain ⟨h1, h2⟩ := visits_named (Q := Plain) {} fails (fun _ _ => 0) sample (by intro s hs; revert s; decide) 1 r hr s hs
    exact ⟨h1, fun c hc => ⟨h2 c hc, plain_where _ _⟩⟩
  · decide +kernel

example : Fresh sample ∧ (∀ s ∈ sample.suites, Plain s.name ∧ ∀ c ∈ s.cases, Plain c.name) ∧ ∀ r c, Plain (where_ r c).filine :=
  ⟨⟨rfl, rfl, rfl, by decide⟩, by decide, plain_where⟩

/-- Every suite of every round has an element of its own, with the number of its cases; the elements of its cases are in it and
name it. -/
theorem C62_suites_partial (o : Opts) (env : Env) (rnd : Nat → Nat → Int) (info : Nat → Case → Info) (st : State)
    (hs : ∀ s ∈ st.suites, Plain s.name ∧ ∀ c ∈ s.cases, Plain c.name) (hf : ∀ r c, Plain (info r c).filine) :
    ∃ doc, read (written o env rnd info st) = some doc ∧
      (doc.inside "testsuite").map (fun n => (n.get "name", n.get "tests", (n.inside "testcase").map fun k => (k.get "classname", k.get "name"))) =
        (List.range o.rounds).flatMap fun r => (st.rounds o env rnd (r + 1)).suites.map fun s =>
          (some s.name, some (Nat.toDigits 10 s.cases.length), s.cases.map fun c => (some s.name, some c.name)) := by
  refine ⟨_, report_read info (visits o env rnd st o.rounds) ?_, ?_⟩
  · intro r hr s hs'
    obtain ⟨h1, h2⟩ := visits_named (Q := Plain) o env rnd st hs o.rounds r hr s hs'
    exact ⟨h1, fun c hc => ⟨h2 c hc, hf _ _⟩⟩
  have hv : ∀ n, visits o env rnd st n = (List.range n).map fun r => (r, (st.rounds o env rnd (r + 1)).suites) := by
    intro n
    induction n with
    | zero => rfl
    | succ n ih => rw [List.range_succ, List.map_append, ← ih]; rfl
  rw [doc_suites, hv]
  simp only [List.map_flatMap, List.flatMap_map, List.map_map]
  congr 1
  funext r
  refine List.map_congr_left fun s _ => ?_
  show ((suiteNode (info r) s).get "name", (suiteNode (info r) s).get "tests", ((suiteNode (info r) s).inside "testcase").map _) = _
  rw [suite_cases, List.map_map]
  refine Prod.ext ?_ (Prod.ext ?_ ?_)
  · exact suite_name (info r) s
  · exact suite_tests (info r) s
  · exact List.map_congr_left fun c _ => by
      show ((caseNode s c (info r c)).get "classname", (caseNode s c (info r c)).get "name") = _
      rw [case_class, case_name]

example : ∃ doc, read (written {} fails (fun _ _ => 0) where_ sample) = some doc ∧
    (doc.inside "testsuite").map (fun n => (n.get "name", n.get "tests")) = [(some "one".toList, some "2".toList), (some "two".toList, some "2".toList)] := by
  obtain ⟨doc, h1, h2⟩ := C62_suites_partial {} fails (fun _ _ => 0) where_ sample (by decide) plain_where
  refine ⟨doc, h1, ?_⟩
  have := congrArg (List.map fun x => (x.1, x.2.1)) h2
  rw [List.map_map] at this
  refine Eq.trans (by rfl) (this.trans ?_)
  decide +kernel

/-- The elements show how long each case took, to the millisecond. -/
theorem C62_times_partial (o : Opts) (env : Env) (rnd : Nat → Nat → Int) (info : Nat → Case → Info) (st : State) (h : Fresh st)
    (hs : ∀ s ∈ st.suites, Plain s.name ∧ ∀ c ∈ s.cases, Plain c.name) (hf : ∀ r c, Plain (info r c).filine) :
    ∃ doc, read (written o env rnd info st) = some doc ∧
      ∀ (k : Nat) n e, (testcases doc)[k]? = some n → (st.main o env rnd).1.log[k]? = some e →
        ∃ t, n.get "time" = some t ∧ Seconds t (info e.round e.case).timecost := by
  refine ⟨_, report_read info (visits o env rnd st o.rounds) ?_, ?_⟩
  · intro r hr s hs'
    obtain ⟨h1, h2⟩ := visits_named (Q := Plain) o env rnd st hs o.rounds r hr s hs'
    exact ⟨h1, fun c hc => ⟨h2 c hc, hf _ _⟩⟩
  have hv := visits_log o env rnd st h.log o.rounds
  have ht : (testcases (docNode info (visits o env rnd st o.rounds))).map (fun n => n.get "time") =
      (st.rounds o env rnd o.rounds).log.map fun e => some (seconds (info e.round e.case).timecost) := by
    have e1 : (st.rounds o env rnd o.rounds).log.map (fun e => some (seconds (info e.round e.case).timecost)) =
        ((st.rounds o env rnd o.rounds).log.map fun e => (e.round, e.case)).map fun p => some (seconds (info p.1 p.2).timecost) := by
      rw [List.map_map]; rfl
    rw [e1, hv, testcases_doc]
    simp only [List.map_flatMap, allCases, List.map_map]
    rfl
  intro k n e hn he
  have hk := congrArg (fun l => l[k]?) ht
  simp only [List.getElem?_map] at hk
  have he' : (st.rounds o env rnd o.rounds).log[k]? = some e := he
  rw [hn, he'] at hk
  simp only [Option.map_some, Option.some.injEq] at hk
  exact ⟨_, hk, seconds_spec _⟩

example : Seconds "1.234".toList 1234 := ⟨"1".toList, "234".toList, rfl, by decide, rfl, by decide, by decide⟩

/-- The counts of failed and of skipped cases are 0 in every report of every run: they are written before the suite runs. -/
theorem C62_counts_zero (o : Opts) (env : Env) (rnd : Nat → Nat → Int) (info : Nat → Case → Info) (st : State)
    (hs : ∀ s ∈ st.suites, Plain s.name ∧ ∀ c ∈ s.cases, Plain c.name) (hf : ∀ r c, Plain (info r c).filine) :
    ∃ doc, read (written o env rnd info st) = some doc ∧
      ∀ n ∈ doc.inside "testsuite", n.get "failures" = some "0".toList ∧ n.get "skipped" = some "0".toList := by
  refine ⟨_, report_read info (visits o env rnd st o.rounds) ?_, ?_⟩
  · intro r hr s hs'
    obtain ⟨h1, h2⟩ := visits_named (Q := Plain) o env rnd st hs o.rounds r hr s hs'
    exact ⟨h1, fun c hc => ⟨h2 c hc, hf _ _⟩⟩
  intro n hn
  rw [doc_suites] at hn
  simp only [List.mem_flatMap, List.mem_map] at hn
  obtain ⟨r, _, s, _, rfl⟩ := hn
  exact ⟨suite_failures _ s, suite_skipped _ s⟩

/-- A case of the sample fails and two are left out. -/
example : (sample.main {} fails (fun _ _ => 0)).1.stats.failed = 1 ∧ (sample.main {} fails (fun _ _ => 0)).1.stats.filtered = 1 := by decide +kernel

/-- The failures are not shown: however many there are and whatever they say, the file only depends on their number. -/
theorem C62_no_messages (o : Opts) (env : Env) (rnd : Nat → Nat → Int) (st : State) (info info' : Nat → Case → Info)
    (h : ∀ r c, (info r c).filine = (info' r c).filine ∧ (info r c).timecost = (info' r c).timecost ∧ (info r c).fails.length = (info' r c).fails.length) :
    written o env rnd info st = written o env rnd info' st := by
  have hc : ∀ r s c, onCaseEndup s c (info r c) = onCaseEndup s c (info' r c) := by
    intro r s c
    obtain ⟨h1, h2, h3⟩ := h r c
    have hm : ∀ (a b : List (List Char)), a.length = b.length →
        (a.flatMap fun f => "{newline}".toList ++ printFile f) = b.flatMap fun f => "{newline}".toList ++ printFile f := by
      intro a
      induction a with
      | nil => intro b hb; cases b with
        | nil => rfl
        | cons => simp at hb
      | cons x a ih => intro b hb; cases b with
        | nil => simp at hb
        | cons y b => rw [List.flatMap_cons, List.flatMap_cons, ih b (by simpa using hb)]; rfl
    unfold onCaseEndup
    rw [h1, h2, hm _ _ h3]
  have : suiteText ∘ info = suiteText ∘ info' := by
    funext r s
    show onSuiteStart s {} ++ (s.cases.flatMap fun c => onCaseEndup s c (info r c)) ++ onSuiteEndup = onSuiteStart s {} ++ (s.cases.flatMap fun c => onCaseEndup s c (info' r c)) ++ onSuiteEndup
    simp only [hc r s]
  unfold written report
  have t : ∀ r, suiteText (info r) = suiteText (info' r) := fun r => congrFun this r
  simp only [t]

example : written {} fails (fun _ _ => 0) where_ sample = written {} fails (fun _ _ => 0)
    (fun _ c => ⟨"test.cpp:12".toList, if c.failed then ["the disk is full".toList] else [], 1234⟩) sample :=
  C62_no_messages _ _ _ _ _ _ fun _ c => ⟨rfl, rfl, by dsimp only [where_]; split <;> rfl⟩

/-- One suite with one case of this name. -/
def called (name : String) : State where
  suites := [{ id := 0, name := "s".toList, cases := [{ id := 0, name := name.toList }] }]

/-- Special characters in a name make the file unreadable. -/
theorem C62_special : ∀ name ∈ ["say \"hi\"", "a < b", "a & b", "vector<int>"],
    (read (written {} (fun _ _ => (false, false)) (fun _ _ => 0) where_ (called name))).isNone = true := by
  decide +kernel

example : (read (written {} (fun _ _ => (false, false)) (fun _ _ => 0) where_ (called "say hi"))).isSome = true := by decide +kernel

/-- With `-b` the second of two rounds ignores the case that failed in the first, and still shows a failure for it. -/
theorem C62_stale : ∃ doc, read (written { rounds := 2, breakAfter := 1 } (fun _ _ => (true, false)) (fun _ _ => 0) where_ (called "a")) = some doc ∧
    ((called "a").main { rounds := 2, breakAfter := 1 } (fun _ _ => (true, false)) (fun _ _ => 0)).1.log.map (·.ran) = [true, false] ∧
    (testcases doc).map (fun n => (n.get "status", (n.inside "failure").length)) = [(some "Failed".toList, 1), (some "Ignored".toList, 1)] := by
  refine ⟨_, report_read where_ (visits { rounds := 2, breakAfter := 1 } (fun _ _ => (true, false)) (fun _ _ => 0) (called "a") 2) ?_, ?_⟩
  · intro r hr s hs
    obtain ⟨h1, h2⟩ := visits_named (Q := Plain) { rounds := 2, breakAfter := 1 } (fun _ _ => (true, false)) (fun _ _ => 0) (called "a") (by intro s hs; revert s; decide) 2 r hr s hs
    exact ⟨h1, fun c hc => ⟨h2 c hc, plain_where _ _⟩⟩
  · decide +kernel

/-- A case that is to do and filtered counts as filtered, but is reported as to do. -/
theorem C62_two_reasons : ∃ (st : State) (doc : Node), Fresh st ∧ read (written {} (fun _ _ => (false, false)) (fun _ _ => 0) where_ st) = some doc ∧
    (st.main {} (fun _ _ => (false, false)) (fun _ _ => 0)).1.stats.filtered = 1 ∧ (st.main {} (fun _ _ => (false, false)) (fun _ _ => 0)).1.stats.todo = 0 ∧
    (testcases doc).map (fun n => n.get "status") = [some "TODO".toList] := by
  refine ⟨{ suites := [{ id := 0, name := "s".toList, cases := [{ id := 0, name := "a".toList, todo := true, filtered := true }] }] }, _, ?_,
    report_read where_ (visits {} (fun _ _ => (false, false)) (fun _ _ => 0) _ 1) ?_, ?_⟩
  · exact ⟨rfl, rfl, rfl, by decide⟩
  · intro r hr s hs
    obtain ⟨h1, h2⟩ := visits_named (Q := Plain) {} (fun _ _ => (false, false)) (fun _ _ => 0) _ (by intro s hs; revert s; decide) 1 r hr s hs
    exact ⟨h1, fun c hc => ⟨h2 c hc, plain_where _ _⟩⟩
  · decide +kernel

end H2.Junit
