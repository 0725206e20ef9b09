import Verif.Lifetime.Run
/-
C77: stubs and mocks last as long as the code they are made in.
-/
namespace H2.Lifetime

open Spec

/-- A case undoes what it did: whatever stubs and mocks others have, when the case has ended every
function executes what it did before the case, and the stubs are those there were before.  The case saw
its own stubs and mocks, and its mocks are checked, each once.  (The mockers it used have left the list they were in.) -/
theorem C77_case (p : Prog) (s : Nat) (st : State) (c : Case) (hr : c.runs = true) (hc : p.caseCleanup = [])
    (h1 : ∀ e ∈ st.stubs, e.owner ≠ .case_ s c.id) (h2 : ∀ q ∈ st.mocks, q.1 ≠ .case_ s c.id) :
    let ops := p.caseSetup ++ c.code
    let st' := runCase p s st c
    st'.calls = st.calls ∧ st'.stubs = st.stubs ∧
    st'.mocks = (st.mocks.filter fun q => !(mockers ops).contains q.2) ∧
    st'.trace = st.trace ++ [.begins s c.id st.calls, .ends s c.id (reaches st.calls ops) (mockers ops)] :=
  runCase_spec p s st c hr hc h1 h2

/-- A case that stubs a function stubbed by the run, undoes a stub of its own, and mocks with a mocker the run used. -/
example :
    let st : State := { calls := setCode (fun _ => .own) 0 (.other 10), stubs := [⟨.run, 0, .own⟩], mocks := [(.run, 5), (.suite 2, 6)] }
    let c : Case := ⟨0, true, [.stub 0 20, .stub 1 21, .unstub 1, .mock 5 2]⟩
    let p : Prog := { suites := [], rounds := [] }
    (∀ e ∈ st.stubs, e.owner ≠ .case_ 1 c.id) ∧ (∀ q ∈ st.mocks, q.1 ≠ .case_ 1 c.id) ∧
    (runCase p 1 st c).mocks = [(.suite 2, 6)] := by decide

/-- A suite undoes what its setup did, as long as no case was run before: its cases begin with the stubs
of the setup, and at its end every function executes what it did before the suite.
Missing: suites that come after a case; see `C77_suite_setup_false`. -/
theorem C77_suite_partial (p : Prog) (st : State) (s : Suite) (hc : p.caseCleanup = []) (hs : p.suiteCleanup = []) (h0 : st.case_ = none)
    (h1 : ∀ e ∈ st.stubs, e.owner ≠ .suite s.id ∧ ∀ c, e.owner ≠ .case_ s.id c)
    (h2 : ∀ q ∈ st.mocks, ∀ c, q.1 ≠ .case_ s.id c) :
    let st' := runSuite p st s
    st'.calls = st.calls ∧ st'.stubs = st.stubs ∧ (∀ q ∈ st'.mocks, q.1 ≠ .suite s.id) ∧
    st'.trace = st.trace ++ s.cases.flatMap (seenFrom p (reaches st.calls p.suiteSetup) s.id) := by
  intro st'
  obtain ⟨s0, e0⟩ : ∃ s0 : State, s0 = { st with suite := some s.id } := ⟨_, rfl⟩
  have ho : s0.owner = .suite s.id := by
    subst e0
    unfold State.owner
    simp only [h0]
  have k1 : s0.calls = st.calls := by subst e0; rfl
  have k2 : s0.stubs = st.stubs := by subst e0; rfl
  have k3 : s0.mocks = st.mocks := by subst e0; rfl
  have k4 : s0.trace = st.trace := by subst e0; rfl
  have t0 : Tracks st.calls (.suite s.id) st.stubs s0 := by
    rw [← k1, ← k2]
    exact Tracks.start (by rw [k2]; exact fun e he => (h1 e he).1)
  obtain ⟨t1, c1⟩ := exec_tracks t0 k1 ho p.suiteSetup
  obtain ⟨s1, e1⟩ : ∃ s1 : State, s1 = exec p.suiteSetup s0 := ⟨_, rfl⟩
  rw [← e1] at t1 c1
  have n1 : ∀ e ∈ s1.stubs, ∀ c, e.owner ≠ .case_ s.id c := by
    intro e he c ho
    have hm : e ∈ s1.stubs.filter fun e => !decide (e.owner = .suite s.id) :=
      List.mem_filter.mpr ⟨he, by rw [ho]; rfl⟩
    rw [t1.others] at hm
    exact (h1 e hm).2 c ho
  have n2 : ∀ q ∈ s1.mocks, ∀ c, q.1 ≠ .case_ s.id c := by
    rw [e1]
    exact exec_others ho (by rw [k3]; exact h2) (fun c => by simp) p.suiteSetup
  obtain ⟨i1, i2, i3⟩ := runCases_spec hc s.id s.cases s1 n1 n2
  have es : st' = suiteEnd s.id (s.cases.foldl (runCase p s.id) s1) := by
    show runSuite p st s = _
    rw [runSuite, hs, e1, e0]
    rfl
  obtain ⟨j1, j2⟩ := (t1.congr i2 i1).clear
  refine ⟨?_, ?_, ?_, ?_⟩
  · rw [es]; exact j1
  · rw [es]; exact j2
  · intro q hq
    rw [es] at hq
    have := (List.mem_filter.mp hq).2
    simpa using this
  · rw [es]
    show (s.cases.foldl (runCase p s.id) s1).trace = _
    rw [i3, c1, e1, (exec_keeps _ _).2.2, k4]

/-- The first suite of a run, whose setup stubs a function that the run has stubbed. -/
example :
    let st : State := { calls := setCode (fun _ => .own) 0 (.other 10), stubs := [⟨.run, 0, .own⟩], mocks := [(.run, 5)] }
    let s : Suite := ⟨1, [], [⟨0, true, [.stub 0 20]⟩]⟩
    let p : Prog := { suiteSetup := [.stub 0 15, .mock 6 2], suites := [], rounds := [] }
    (∀ e ∈ st.stubs, e.owner = .run) ∧ (∀ q ∈ st.mocks, q.1 = .run) ∧
    (runSuite p st s).mocks = [(.run, 5)] ∧ (runSuite p st s).calls 0 = .other 10 := by decide

/-- The cases do not see each other's stubs and mocks: if the code that runs between cases neither stubs
nor mocks, then in every round, in every order, every case that is run begins with exactly the stubs and
mocks made by the global setup and the statements of the suites, sees its own as written, and has exactly its own mocks checked.
Missing: programs that stub in the setup or cleanup of suites or in the cleanup of cases; for these it is not true. -/
theorem C77_run_partial (p : Prog) (hb : Between p) : (main p).trace = history p := by
  obtain ⟨S, st, est, hS, hq, ht, htr⟩ := start_quiet hb
  obtain ⟨a, b⟩ := rounds_quiet hS hb p.rounds hq
  rw [main, ← est]
  show (exec p.cleanup _).trace = _
  rw [(exec_keeps _ _).2.2, b, htr]
  rfl

/-- When the run is over every function executes its own code again and nothing is left, if the code that runs between the
cases and the global cleanup neither stub nor mock. -/
theorem C77_end_partial (p : Prog) (hb : Between p) (hc : p.cleanup = []) :
    (main p).calls = (fun _ => .own) ∧ (main p).stubs = [] ∧ (main p).mocks = [] := by
  obtain ⟨S, st, est, hS, hq, ht, htr⟩ := start_quiet hb
  obtain ⟨a, b⟩ := rounds_quiet hS hb p.rounds hq
  rw [main, ← est, hc]
  have t' : Tracks (fun _ => .own) .run [] (p.rounds.foldl (round p) st) :=
    ht.congr (a.stubs.trans hq.stubs.symm) (a.calls.trans hq.calls.symm)
  obtain ⟨c1, c2⟩ := t'.clear
  refine ⟨c1, c2, ?_⟩
  refine List.filter_eq_nil_iff.mpr fun q hq' => ?_
  simp [a.mocks q hq']

/-- Two suites, two rounds in different orders; the global setup stubs 0, the first suite stubs 1 outside
of blocks; the cases stub, undo and mock. -/
def sample : Prog :=
  let s1 : Suite := ⟨1, [.stub 1 11], [⟨0, true, [.stub 0 20, .mock 5 2, .mock 6 3, .mock 5 2]⟩, ⟨1, false, [.stub 9 9]⟩]⟩
  let s2 : Suite := ⟨2, [], [⟨0, true, [.stub 1 21, .unstub 1, .unstub 0, .mock 5 4]⟩]⟩
  { setup := [.stub 0 10], caseSetup := [.stub 7 17], suites := [s1, s2], rounds := [[s1, s2], [s2, s1]] }

example : Between sample := ⟨rfl, rfl, rfl⟩

/-- The mockers checked, with the suites and cases. -/
def checks (l : List Event) : List (Nat × Nat × List Nat) :=
  l.filterMap fun | .ends s c _ ms => some (s, c, ms) | _ => none

/-- What a function executed at the beginnings and ends of cases. -/
def views (f : Nat) (l : List Event) : List Code :=
  l.map fun | .begins _ _ v => v f | .ends _ _ v _ => v f

example : checks (main sample).trace = [(1, 0, [5, 6]), (2, 0, [5]), (2, 0, [5]), (1, 0, [5, 6])] := by decide
example : views 0 (main sample).trace =
    [.other 10, .other 20, .other 10, .other 10, .other 10, .other 10, .other 10, .other 20] := by decide
example : views 1 (main sample).trace =
    [.other 11, .other 11, .other 11, .other 11, .other 11, .other 11, .other 11, .other 11] := by decide
example : views 2 (main sample).trace = [.own, .mocker 5, .own, .own, .own, .own, .own, .mocker 5] := by decide

/-- Finding: what the setup of suites stubs stays stubbed: in the cases of all suites from the
enumeration on, and after the end of the run (the stub of the second suite is in the list of a case that has ended). -/
theorem C77_suite_setup_false :
    ¬ ∀ p : Prog, p.suiteCleanup = [] → p.caseCleanup = [] → p.cleanup = [] → (main p).calls = fun _ => .own := by
  intro h
  let s1 : Suite := ⟨1, [], [⟨0, true, []⟩]⟩
  let s2 : Suite := ⟨2, [], [⟨0, true, []⟩]⟩
  have := congrFun (h { suiteSetup := [.stub 3 4], suites := [], rounds := [[s1, s2]] } rfl rfl rfl) 3
  revert this
  decide

/-- Finding: what the cleanup of cases stubs is seen by the following cases. -/
theorem C77_case_cleanup_false :
    ¬ ∀ p : Prog, p.suiteSetup = [] → p.suiteCleanup = [] → ∀ s c v, .begins s c v ∈ (main p).trace → v = reaches (fun _ => .own) (before p) := by
  intro h
  have hm : Event.begins 1 1 (setCode (fun _ => .own) 3 (.other 4)) ∈
      (main { caseCleanup := [.stub 3 4], suites := [], rounds := [[⟨1, [], [⟨0, true, []⟩, ⟨1, true, []⟩]⟩]] }).trace := by
    have : (main { caseCleanup := [.stub 3 4], suites := [], rounds := [[⟨1, [], [⟨0, true, []⟩, ⟨1, true, []⟩]⟩]] }).trace =
        [.begins 1 0 (fun _ => .own), .ends 1 0 (fun _ => .own) [], .begins 1 1 (setCode (fun _ => .own) 3 (.other 4)),
         .ends 1 1 (setCode (fun _ => .own) 3 (.other 4)) []] := rfl
    rw [this]
    simp
  have := congrFun (h _ rfl rfl _ _ _ hm) 3
  revert this
  decide

/-- Finding: a stub written in one suite outside all blocks is in force in the cases of the other suites:
a case need not find the functions as the global setup left them. -/
theorem C77_enumerate_false :
    ¬ ∀ p : Prog, Between p → ∀ s c v, .begins s c v ∈ (main p).trace → v = reaches (fun _ => .own) p.setup := by
  intro h
  have hm : Event.begins 2 0 (setCode (fun _ => .own) 3 (.other 4)) ∈
      (main { suites := [⟨1, [.stub 3 4], []⟩], rounds := [[⟨2, [], [⟨0, true, []⟩]⟩]] }).trace := by
    have : (main { suites := [⟨1, [.stub 3 4], []⟩], rounds := [[⟨2, [], [⟨0, true, []⟩]⟩]] }).trace =
        [.begins 2 0 (setCode (fun _ => .own) 3 (.other 4)), .ends 2 0 (setCode (fun _ => .own) 3 (.other 4)) []] := rfl
    rw [this]
    simp
  have := congrFun (h _ ⟨rfl, rfl, rfl⟩ _ _ _ hm) 3
  revert this
  decide

/-- Finding: what the global cleanup stubs stays stubbed when there was a case. -/
theorem C77_cleanup_false : ¬ ∀ p : Prog, Between p → (main p).calls = fun _ => .own := by
  intro h
  have := congrFun (h { cleanup := [.stub 3 4], suites := [], rounds := [[⟨2, [], [⟨0, true, []⟩]⟩]] } ⟨rfl, rfl, rfl⟩) 3
  revert this
  decide

/-- Mocks made outside of cases are checked by no one: the mockers checked are always those a case used. -/
theorem C77_checked (p : Prog) (hb : Between p) (s c : Nat) (v : Nat → Code) (ms : List Nat) (h : .ends s c v ms ∈ (main p).trace)
    (m : Nat) (hm : m ∈ ms) :
    ∃ l ∈ p.rounds, ∃ su ∈ l, ∃ ca ∈ su.cases, su.id = s ∧ ca.id = c ∧ ca.runs = true ∧ ∃ f, .mock m f ∈ p.caseSetup ++ ca.code := by
  rw [C77_run_partial p hb, history] at h
  obtain ⟨l, hl, h⟩ := List.mem_flatMap.mp h
  obtain ⟨su, hsu, h⟩ := List.mem_flatMap.mp h
  obtain ⟨ca, hca, h⟩ := List.mem_flatMap.mp h
  refine ⟨l, hl, su, hsu, ca, hca, ?_⟩
  unfold seen seenFrom at h
  cases hr : ca.runs with
  | false => simp [hr] at h
  | true =>
    simp only [hr, if_true, List.mem_cons, List.not_mem_nil, or_false, Event.ends.injEq, reduceCtorEq, false_or] at h
    obtain ⟨h1, h2, -, h4⟩ := h
    refine ⟨h1.symm, h2.symm, rfl, ?_⟩
    rw [h4] at hm
    have := List.mem_reverse.mp (List.mem_eraseDups.mp hm)
    obtain ⟨op, hop, e⟩ := List.mem_filterMap.mp this
    cases op with
    | mock m' f => exact ⟨f, by simp only [mockerOf, Option.some.injEq] at e; exact e ▸ hop⟩
    | stub f g => simp [mockerOf] at e
    | unstub f => simp [mockerOf] at e

example : (main { setup := [.mock 8 1], suites := [], rounds := [[⟨2, [], [⟨0, true, [.mock 9 2]⟩]⟩]] }).trace.filterMap
    (fun | .ends s c _ ms => some (s, c, ms) | _ => none) = [(2, 0, [9])] := by decide

end H2.Lifetime
