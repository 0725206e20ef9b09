import Verif.CaseRun.Lemmas
/-
C37: how a case comes to its end.
-/
namespace H2.CaseRun

/-- The state after a deferred failure, as far as it matters. -/
theorem failing_late (o : Opts) (st : State) (msgs : List Msg) (warn : Bool) :
    (failing st msgs warn o.continueAssert).trace = st.trace ∧
    ((failing st msgs warn o.continueAssert).failed = true ↔ st.failed = true ∨ (warn = false ∧ msgs ≠ [])) ∧
    ((failing st msgs warn o.continueAssert).warning = true ↔ st.warning = true ∨ (warn = true ∧ msgs ≠ [])) ∧
    (failing st msgs warn o.continueAssert).fails = late o st.fails msgs := by
  cases msgs with
  | nil => simp [failing, late]
  | cons m r =>
    cases warn <;> cases hf : st.fails <;> cases hc : o.continueAssert <;> simp [failing, late, hf, hc]

/-- Everything that is known about a run that has come to its end. -/
structure Account (o : Opts) (t : Test) (st : State) (pre mid post : List Event) : Prop where
  /-- the events: the global setup, the blocks of the suite, the end-of-case work once and in this order,
  the global cleanup -/
  trace : st.trace = pre ++ mid ++ [.dnsCleared, .stubsCleared, .mocksChecked, .memoryChecked] ++ post
  preIs : pre = ran .globalSetup t.globalSetup
  postIs : post = ran .globalCleanup t.globalCleanup
  midIn : ∀ e ∈ mid, e.block? = some .setup ∨ e.block? = some .body ∨ e.block? = some .cleanup
  /-- the case has failed exactly when one of these is so -/
  failed : st.failed = true ↔
    (∃ e ∈ mid ++ post, e.fails) ∨
    (o.warnUncaught = false ∧ ∃ m, ∃ e ∈ mid, Escapes t m e) ∨
    t.mocks (pre ++ mid ++ [.dnsCleared, .stubsCleared]) ≠ [] ∨
    t.memory (pre ++ mid ++ [.dnsCleared, .stubsCleared, .mocksChecked]) ≠ []
  warning : st.warning = true ↔
    (∃ e ∈ mid ++ post, e.warns o) ∨ (o.warnUncaught = true ∧ ∃ m, ∃ e ∈ mid, Escapes t m e)
  /-- the messages -/
  fails : ∃ exc : Option Nat, (∀ m, exc = some m ↔ ∃ e ∈ mid, Escapes t m e) ∧
    st.fails =
      late o (late o (late o ((pre ++ mid).filterMap (Event.message o)) (exc.toList.map .exception))
        ((t.mocks (pre ++ mid ++ [.dnsCleared, .stubsCleared])).map .mock))
        ((t.memory (pre ++ mid ++ [.dnsCleared, .stubsCleared, .mocksChecked])).map .memory) ++
      post.filterMap (Event.message o)
  /-- `Cleanup` is executed after the last execution of the case -/
  cleanup : t.cleanup.isSome → .enter .body ∈ mid →
    ∃ a b, mid = a ++ .enter .cleanup :: b ∧ ∀ e ∈ b, e.block? ≠ some .body

theorem testFp_grows (o t f st st' exc) (h : testFp o t f st = .ended (st', exc)) :
    ∃ evs, Grows o st st' evs ∧
      (∀ e ∈ evs, e.block? = some .setup ∨ e.block? = some .body ∨ e.block? = some .cleanup) ∧
      (∀ m, exc = some m ↔ ∃ e ∈ evs, Escapes t m e) ∧
      (t.cleanup.isSome → .enter .body ∈ evs → ∃ a b, evs = a ++ .enter .cleanup :: b ∧ ∀ e ∈ b, e.block? ≠ some .body) := by
  have hb := block_grows o .setup t.setup st
  obtain ⟨st1, x, hx⟩ : ∃ st1 x, block o .setup t.setup st = (st1, x) := ⟨_, _, rfl⟩
  have ht := exitOf_thrown o t.setup
  rw [← hb.2] at ht
  rw [hx] at hb ht
  simp only [testFp, hx] at h
  have hesc : ∀ m, (∃ e ∈ ran .setup (cut (stops o) t.setup), Escapes t m e) ↔ x = .thrown m := by
    intro m
    rw [ht m]
    simp only [mem_ran, Escapes]
    constructor
    · rintro ⟨e, rfl | ⟨s, hs, rfl⟩, h⟩
      · simp at h
      · simp only [Event.step.injEq, true_and, reduceCtorEq, false_and, or_false] at h
        exact h ▸ hs
    · rintro h
      exact ⟨_, .inr ⟨_, h, rfl⟩, .inl rfl⟩
  cases x with
  | jump => simp at h
  | thrown m =>
    simp only [Result.ended.injEq, Prod.mk.injEq] at h
    obtain ⟨rfl, rfl⟩ := h
    refine ⟨_, hb.1, fun e he => .inl (ran_block he), fun m' => by rw [hesc]; simp, fun _ he => ?_⟩
    have := ran_block he
    simp [Event.block?] at this
  | done =>
    simp only at h
    obtain ⟨evs, g, c⟩ := case_grows o t f _ _ _ _ _ h
    refine ⟨_, hb.1.trans g, fun e he => ?_, fun m => ?_, fun hs _ => ?_⟩
    · rcases List.mem_append.mp he with he | he
      · exact .inl (ran_block he)
      · exact .inr (c.mem e he)
    · rw [c.exc]
      refine ⟨fun ⟨e, he, hE⟩ => ⟨e, List.mem_append_right _ he, hE⟩, ?_⟩
      rintro ⟨e, he, hE⟩
      rcases List.mem_append.mp he with he | he
      · have := (hesc m).mp ⟨e, he, hE⟩; simp at this
      · exact ⟨e, he, hE⟩
    · obtain ⟨a, b, hab, hb'⟩ := c.last hs
      exact ⟨ran .setup (cut (stops o) t.setup) ++ a, b, by rw [hab]; simp, hb'⟩

/-- A block that is left regularly has executed all its steps. -/
theorem exitOf_done (o : Opts) : ∀ l : List Step, exitOf o l = .done → cut (stops o) l = l
  | [], _ => rfl
  | s :: r, h => by
    have ih := exitOf_done o r
    cases s with
    | fail n => cases hc : o.continueAssert <;> simp_all [exitOf, cut, stops]
    | throw n => simp [exitOf] at h
    | act n => simp_all [exitOf, cut, stops]
    | warn n => simp_all [exitOf, cut, stops]
    | caught n => simp_all [exitOf, cut, stops]

/-- C37.  Every run that comes to its end: the case is failed exactly when a failing assertion was
executed in its blocks or in the global cleanup, an uncaught exception left the blocks (unless that is
made a warning), or the mock check or the memory check found something; the end-of-case work is done
exactly once; if the case was started and the suite has a `Cleanup`, it is executed after it. -/
theorem C37_account (o : Opts) (t : Test) (f : Nat) (st : State) (h : run o t f = .ended st) :
    ∃ pre mid post, Account o t st pre mid post := by
  have hg := block_grows o .globalSetup t.globalSetup {}
  obtain ⟨st1, x1, hx1⟩ : ∃ st1 x, block o .globalSetup t.globalSetup {} = (st1, x) := ⟨_, _, rfl⟩
  rw [hx1] at hg
  simp only [run, hx1] at h
  cases x1 with
  | jump => simp at h
  | thrown m => simp at h
  | done =>
    simp only at h
    rw [exitOf_done o _ hg.2.symm] at hg
    obtain ⟨r, hr⟩ : ∃ r, test o t f st1 = r := ⟨_, rfl⟩
    rw [hr] at h
    cases r with
    | running => simp at h
    | undefined => simp at h
    | ended st2 =>
      simp only at h
      have hc := block_grows o .globalCleanup t.globalCleanup st2
      obtain ⟨st3, x3, hx3⟩ : ∃ st1 x, block o .globalCleanup t.globalCleanup st2 = (st1, x) := ⟨_, _, rfl⟩
      rw [hx3] at hc h
      cases x3 with
      | jump => simp at h
      | thrown m => simp at h
      | done =>
        rw [exitOf_done o _ hc.2.symm] at hc
        simp only [Result.ended.injEq] at h
        subst h
        simp only [test] at hr
        obtain ⟨q, hq⟩ : ∃ q, testFp o t f { st1 with failed := false, warning := false } = q := ⟨_, rfl⟩
        rw [hq] at hr
        match q, hq, hr with
        | .running, _, hr => simp at hr
        | .undefined, _, hr => simp at hr
        | .ended (st4, exc), hq, hr =>
          obtain ⟨mid, g, hmid, hexc, hclean⟩ := testFp_grows o t f _ _ _ hq
          simp only [Result.ended.injEq] at hr
          obtain ⟨st5, h5⟩ : ∃ st5, st5 = uncaught o exc st4 := ⟨_, rfl⟩
          rw [← h5] at hr
          have h5' : st5.trace = st4.trace ∧
              (st5.failed = true ↔ st4.failed = true ∨ (o.warnUncaught = false ∧ exc ≠ none)) ∧
              (st5.warning = true ↔ st4.warning = true ∨ (o.warnUncaught = true ∧ exc ≠ none)) ∧
              st5.fails = late o st4.fails (exc.toList.map .exception) := by
            cases exc with
            | none => subst h5; simp [late, uncaught]
            | some m => subst h5; simpa [uncaught] using failing_late o st4 [.exception m] o.warnUncaught
          have hex : exc ≠ none ↔ ∃ m, ∃ e ∈ mid, Escapes t m e := by
            rw [Option.ne_none_iff_exists']
            exact ⟨fun ⟨m, h⟩ => ⟨m, (hexc m).mp h⟩, fun ⟨m, h⟩ => ⟨m, (hexc m).mpr h⟩⟩
          rw [hex] at h5'
          have ht1 : st1.trace = ran .globalSetup t.globalSetup := by simpa using hg.1.trace
          have hf1 : st1.fails = (ran .globalSetup t.globalSetup).filterMap (Event.message o) := by
            simpa using hg.1.fails
          have ht4 : st4.trace = ran .globalSetup t.globalSetup ++ mid := by rw [g.trace, ← ht1]
          have hf4 : st4.failed = true ↔ ∃ e ∈ mid, e.fails := by rw [g.failed]; simp
          have hw4 : st4.warning = true ↔ ∃ e ∈ mid, e.warns o := by rw [g.warning]; simp
          have hm4 : st4.fails = (ran .globalSetup t.globalSetup ++ mid).filterMap (Event.message o) := by
            rw [g.fails, List.filterMap_append, ← hf1]
          -- the end-of-case checks
          simp only [postCleanup] at hr
          have m6 := failing_late o { st5 with trace := st5.trace ++ [.dnsCleared, .stubsCleared] }
            ((t.mocks (st5.trace ++ [.dnsCleared, .stubsCleared])).map .mock) false
          obtain ⟨st6, h6⟩ : ∃ st6, st6 = failing { st5 with trace := st5.trace ++ [.dnsCleared, .stubsCleared] }
            ((t.mocks (st5.trace ++ [.dnsCleared, .stubsCleared])).map .mock) false o.continueAssert := ⟨_, rfl⟩
          rw [← h6] at hr m6
          have m7 := failing_late o { st6 with trace := st6.trace ++ [.mocksChecked] }
            ((t.memory (st6.trace ++ [.mocksChecked])).map .memory) false
          obtain ⟨st7, h7⟩ : ∃ st7, st7 = failing { st6 with trace := st6.trace ++ [.mocksChecked] }
            ((t.memory (st6.trace ++ [.mocksChecked])).map .memory) false o.continueAssert := ⟨_, rfl⟩
          rw [← h7] at hr m7
          subst hr
          simp only [true_and, ne_eq, List.map_eq_nil_iff, Bool.false_eq_true, false_and, or_false] at m6 m7
          rw [h5'.1, ht4] at m6
          have hmm : ran .globalSetup t.globalSetup ++ mid ++ [Event.dnsCleared, .stubsCleared] ++ [.mocksChecked] =
            ran .globalSetup t.globalSetup ++ mid ++ [.dnsCleared, .stubsCleared, .mocksChecked] := by simp
          rw [m6.1, hmm] at m7
          refine ⟨_, mid, _, ⟨?_, rfl, rfl, hmid, ?_, ?_, ⟨exc, hexc, ?_⟩, hclean⟩⟩
          · rw [hc.1.trace, m7.1]; simp
          · rw [hc.1.failed]
            simp only
            rw [m7.2.1, m6.2.1, h5'.2.1, hf4]
            simp only [List.mem_append, or_and_right, exists_or]
            grind
          · rw [hc.1.warning]
            simp only
            rw [m7.2.2.1, m6.2.2.1, h5'.2.2.1, hw4]
            simp only [List.mem_append, or_and_right, exists_or]
            grind
          · rw [hc.1.fails]
            simp only
            rw [m7.2.2.2, m6.2.2.2, h5'.2.2.2, hm4]

/-- C37.  The ordinary run: no global function, `Setup` or `Cleanup` raises something that ends it, and no
exception leaves a case of a suite with a `Cleanup`.  Then the run comes to its end and is exactly this:
the case is executed up to its first failing assertion (under `-c` through all of them) or the exception
that leaves it, followed by the whole `Cleanup`. -/
theorem C37_trace (o : Opts) (t : Test) (f : Nat)
    (hgs : ∀ s ∈ t.globalSetup, stops o s = false) (hs : ∀ s ∈ t.setup, stops o s = false)
    (hc : ∀ k, t.cleanup = some k → ∀ s ∈ k 0, stops o s = false)
    (hb : t.cleanup.isSome → ∀ m, .throw m ∉ cut (stops o) (t.body 0))
    (hgc : ∀ s ∈ t.globalCleanup, stops o s = false) :
    ∃ st, run o t (f + 1) = .ended st ∧ st.trace =
      ran .globalSetup t.globalSetup ++ ran .setup t.setup ++ ran .body (cut (stops o) (t.body 0)) ++
      (match t.cleanup with
        | none => []
        | some k => ran .cleanup (k 0)) ++
      [.dnsCleared, .stubsCleared, .mocksChecked, .memoryChecked] ++ ran .globalCleanup t.globalCleanup := by
  have hg := block_grows o .globalSetup t.globalSetup {}
  obtain ⟨st1, x1, hx1⟩ : ∃ st1 x, block o .globalSetup t.globalSetup {} = (st1, x) := ⟨_, _, rfl⟩
  rw [(exitOf_none o _ hgs).1, (exitOf_none o _ hgs).2, hx1] at hg
  obtain ⟨g1, e1⟩ := hg
  simp only at e1 g1; subst e1
  have hg := block_grows o .setup t.setup { st1 with failed := false, warning := false }
  obtain ⟨st2, x2, hx2⟩ : ∃ st1' x, block o .setup t.setup { st1 with failed := false, warning := false } = (st1', x) := ⟨_, _, rfl⟩
  rw [(exitOf_none o _ hs).1, (exitOf_none o _ hs).2, hx2] at hg
  obtain ⟨g2, e2⟩ := hg
  simp only at e2 g2; subst e2
  have hg := block_grows o .body (t.body 0) st2
  obtain ⟨st3, x3, hx3⟩ : ∃ st1' x, block o .body (t.body 0) st2 = (st1', x) := ⟨_, _, rfl⟩
  rw [hx3] at hg
  obtain ⟨g3, e3⟩ := hg
  simp only at e3 g3
  have hcase : ∃ st4 exc, case_ o t (f + 1) 0 0 st2 = .ended (st4, exc) ∧ st4.trace = st3.trace ++ (match t.cleanup with
        | none => []
        | some k => ran .cleanup (k 0)) := by
    simp only [case_, hx3]
    cases hk : t.cleanup with
    | none => exact ⟨_, _, rfl, by simp⟩
    | some k =>
      have hz : (afterBody x3).1 = true := by
        cases hx : x3 with
        | thrown m =>
          rw [hx] at e3
          exact absurd ((exitOf_thrown o _ m).mp e3.symm) (hb (by simp [hk]) m)
        | _ => rfl
      simp only [hz, cleanup]
      have hg := block_grows o .cleanup (k 0) st3
      obtain ⟨st5, x5, hx5⟩ : ∃ st1' x, block o .cleanup (k 0) st3 = (st1', x) := ⟨_, _, rfl⟩
      rw [(exitOf_none o _ (hc k hk)).1, (exitOf_none o _ (hc k hk)).2, hx5] at hg
      obtain ⟨g5, e5⟩ := hg
      simp only at e5 g5; subst e5
      simp only [hx5]
      exact ⟨_, _, rfl, g5.trace⟩
  obtain ⟨st4, exc, h4, t4⟩ := hcase
  have htest : ∃ st6, test o t (f + 1) st1 = .ended st6 := by
    simp only [test, testFp, hx2, h4]; exact ⟨_, rfl⟩
  obtain ⟨st6, h6⟩ := htest
  have hg := block_grows o .globalCleanup t.globalCleanup st6
  obtain ⟨st7, x7, hx7⟩ : ∃ st1' x, block o .globalCleanup t.globalCleanup st6 = (st1', x) := ⟨_, _, rfl⟩
  rw [(exitOf_none o _ hgc).1, (exitOf_none o _ hgc).2, hx7] at hg
  obtain ⟨g7, e7⟩ := hg
  simp only at e7 g7; subst e7
  have hrun : run o t (f + 1) = .ended st7 := by simp only [run, hx1, h6, hx7]
  refine ⟨st7, hrun, ?_⟩
  rw [g7.trace]
  congr 1
  simp only [test, testFp, hx2, h4, Result.ended.injEq] at h6
  subst h6
  have hpost : ∀ s, (postCleanup o t s).trace = s.trace ++ [.dnsCleared, .stubsCleared, .mocksChecked, .memoryChecked] := by
    intro s
    simp only [postCleanup, (failing_late o _ _ _).1]
    simp
  rw [hpost]
  congr 1
  have : ∀ s, (uncaught o exc s).trace = s.trace := by
    intro s; cases exc with
    | none => rfl
    | some m => exact (failing_late o _ _ _).1
  rw [this, t4, g3.trace, g2.trace]
  have : st1.trace = ran .globalSetup t.globalSetup := by simpa using g1.trace
  simp [this]

/-- C37, without `-c`: of the case only what precedes the first failing assertion is executed; with `-c`
a failing assertion does not end it. -/
theorem C37_first (o : Opts) (a b : List Step) (m : Nat) (ha : ∀ s ∈ a, stops o s = false) :
    cut (stops o) (a ++ .fail m :: b) =
      a ++ .fail m :: (if o.continueAssert = true then cut (stops o) b else []) := by
  induction a with
  | nil => cases hc : o.continueAssert <;> simp [cut, stops, hc]
  | cons s r ih =>
    simp only [List.cons_append, cut, ha s (by simp), Bool.false_eq_true, if_false,
      ih (fun s hs => ha s (by simp [hs]))]

/-- A case with two failing assertions, a suite with `Setup` and `Cleanup`, and a mock complaint. -/
def sample : Test where
  setup := [.act 1]
  body := fun _ => [.act 2, .warn 3, .fail 4, .act 5, .fail 6]
  cleanup := some fun _ => [.act 7]
  mocks := fun _ => [8]

example : run {} sample 1 = .ended
    { failed := true, warning := true, fails := [.assert 3, .assert 4],
      trace := [.enter .globalSetup, .enter .setup, .step .setup (.act 1), .enter .body, .step .body (.act 2),
        .step .body (.warn 3), .step .body (.fail 4), .enter .cleanup, .step .cleanup (.act 7),
        .dnsCleared, .stubsCleared, .mocksChecked, .memoryChecked, .enter .globalCleanup] } := by
  decide +kernel

example : run { continueAssert := true } sample 1 = .ended
    { failed := true, warning := true, fails := [.assert 3, .assert 4, .assert 6, .mock 8],
      trace := [.enter .globalSetup, .enter .setup, .step .setup (.act 1), .enter .body, .step .body (.act 2),
        .step .body (.warn 3), .step .body (.fail 4), .step .body (.act 5), .step .body (.fail 6),
        .enter .cleanup, .step .cleanup (.act 7),
        .dnsCleared, .stubsCleared, .mocksChecked, .memoryChecked, .enter .globalCleanup] } := by
  decide +kernel

example (f : Nat) := C37_trace {} sample f (by simp [sample]) (by simp [sample, stops])
  (by intro k hk; simp [sample] at hk; subst hk; simp [stops]) (by simp [sample, cut, stops]) (by simp [sample])

/-- Finding.  A failing assertion in `Setup` without `-c` jumps to a buffer nobody has set. -/
theorem C37_setup_undefined (o : Opts) (ho : o.continueAssert = false) (t : Test) (hg : t.globalSetup = [])
    (a b : List Step) (m : Nat) (ha : ∀ s ∈ a, stops o s = false) (hs : t.setup = a ++ .fail m :: b) (f : Nat) :
    run o t f = .undefined := by
  have h1 := block_grows o .globalSetup t.globalSetup {}
  obtain ⟨st1, x1, hx1⟩ : ∃ st1 x, block o .globalSetup t.globalSetup {} = (st1, x) := ⟨_, _, rfl⟩
  rw [hx1, hg] at h1
  have e1 : x1 = .done := h1.2
  subst e1
  have h2 := block_grows o .setup t.setup { st1 with failed := false, warning := false }
  obtain ⟨st2, x2, hx2⟩ : ∃ st1' x, block o .setup t.setup { st1 with failed := false, warning := false } = (st1', x) := ⟨_, _, rfl⟩
  rw [hx2] at h2
  have e2 : x2 = .jump := by
    refine h2.2.trans ?_
    refine (exitOf_jump o _).mpr ⟨ho, m, ?_⟩
    rw [hs, C37_first o a b m ha]; simp
  subst e2
  simp only [run, hx1, test, testFp, hx2]

example : run {} { setup := [.act 1, .fail 2], body := fun _ => [] } 5 = .undefined := by decide +kernel

theorem cleanup_running (o : Opts) (k : Code) (hk : ∀ n, exitOf o (k n) = .jump) :
    ∀ (f n : Nat) (z : Bool) (st : State), cleanup o k f n z st = .running
  | 0, _, _, _ => rfl
  | f + 1, n, z, st => by
    have h := block_grows o .cleanup (k n) st
    obtain ⟨st1, x, hx⟩ : ∃ st1 x, block o .cleanup (k n) st = (st1, x) := ⟨_, _, rfl⟩
    rw [hx, hk] at h
    have e : x = .jump := h.2
    subst e
    simp only [cleanup, hx]
    exact cleanup_running o k hk f _ _ _

/-- Finding.  Without `-c`, a `Cleanup` with an assertion that fails every time is repeated for ever: the
jump leads back behind the case, and from there into `Cleanup` again. -/
theorem C37_cleanup_hangs (o : Opts) (ho : o.continueAssert = false) (m : Nat) (f : Nat) :
    run o { body := fun _ => [], cleanup := some fun _ => [.fail m] } f = .running := by
  have hk : ∀ n : Nat, exitOf o ((fun _ => [.fail m] : Code) n) = .jump := by intro n; simp [exitOf, ho]
  cases f with
  | zero => rfl
  | succ f => simp only [run, block, steps, test, testFp, case_, cleanup_running o _ hk]

theorem case_running (o : Opts) (m : Nat) (t : Test) (hb : t.body = fun _ => [.throw m]) (hk : t.cleanup = some fun _ => []) :
    ∀ (f n kn : Nat) (st : State), case_ o t f n kn st = .running
  | 0, _, _, _ => rfl
  | f + 1, n, kn, st => by
    simp only [case_, hb, hk, block, steps, step, cleanup, afterBody]
    exact case_running o m t hb hk f _ _ _

/-- Finding.  In a suite with a `Cleanup`, an exception that leaves a case is lost: the destructor that
starts `Cleanup` jumps out of the unwinding, and the case is executed once more.  A case that throws
every time is repeated for ever, with or without `-c`. -/
theorem C37_exception_hangs (o : Opts) (m : Nat) (f : Nat) :
    run o { body := fun _ => [.throw m], cleanup := some fun _ => [] } f = .running := by
  simp only [run, block, steps, test, testFp]
  rw [case_running o m _ rfl rfl]

/-- Finding.  … and one that throws the first time only passes. -/
theorem C37_exception_lost (o : Opts) (hw : o.warnException = false) (m : Nat) (f : Nat) :
    ∃ st, run o { body := fun n => if n = 0 then [.throw m] else [], cleanup := some fun _ => [] } (f + 2) = .ended st ∧
      st.failed = false ∧ st.warning = false ∧ .step .body (.throw m) ∈ st.trace := by
  refine ⟨_, by
    simp only [run, block, steps, test, testFp, case_, step, hw, cleanup, afterBody]
    rfl, ?_⟩
  simp [postCleanup, failing, uncaught, steps, step, hw]

/-- Finding.  Under `-c`, a failing assertion in a global case setup does not make the case fail: the marks
are reset when the case begins. -/
theorem C37_global_lost : ∃ (o : Opts) (t : Test) (st : State), run o t 1 = .ended st ∧
    .step .globalSetup (.fail 1) ∈ st.trace ∧ st.failed = false ∧ st.fails = [.assert 1] :=
  ⟨{ continueAssert := true }, { globalSetup := [.fail 1], body := fun _ => [] }, _,
    by simp only [run, block, steps, step, test, testFp, case_]; rfl, by decide +kernel, by decide +kernel, by decide +kernel⟩

/-- Finding.  After a warning, what the mock check finds is not reported (without `-c`); the case is
failed all the same. -/
theorem C37_message_lost : ∃ (o : Opts) (t : Test) (st : State), run o t 1 = .ended st ∧
    st.failed = true ∧ st.fails = [.assert 1] ∧ ∀ e ∈ st.trace, ¬ e.fails :=
  ⟨{}, { body := fun _ => [.warn 1], mocks := fun _ => [2] }, _,
    by simp only [run, block, steps, step, test, testFp, case_]; rfl, by decide +kernel, by decide +kernel, by decide +kernel⟩

end H2.CaseRun
