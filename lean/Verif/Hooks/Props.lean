import Verif.Hooks.Lemmas
/-
Global functions are called when they should be.
-/
namespace H2.Hooks
open Spec

/-- All functions of a kind are called, in order, each as often as it was registered, as long as there are fewer than 1024. -/
theorem C79_called (fs : List Nat) (h : fs.length < 1024) : called (register fs) = fs := by
  rw [called_register, List.take_of_length_le (by omega)]

example : called (register [7, 3, 7]) = [7, 3, 7] := C79_called _ (by decide)

/-- The 1024th function is never called, and nothing is said. -/
theorem C79_many_false : called (register (List.range 1024)) = List.range 1023 := by
  rw [called_register, List.take_range]
  rfl

/-- **Every global function is called exactly when it should be**: global setups once before everything, global cleanups once behind
everything, in their order; suite setups and suite cleanups before and behind every suite, when it is collected and again in every round;
case setups and cleanups directly before and behind every case that is executed, and for no other. -/
theorem C79_trace (g : Globals) (hg : g.fit) (w : World) (suites : List Nat) (rounds : List (List (Nat × List (Nat × Bool)))) (st : State)
    (h : main g.arrays w suites rounds = .going st) : st.trace = g.run suites rounds := by
  obtain ⟨h1, h2, h3, h4, h5, h6⟩ := hg
  have := adds_main g.arrays w suites rounds st h
  unfold Globals.arrays at this
  simp only [C79_called _ h1, C79_called _ h2, C79_called _ h3, C79_called _ h4, C79_called _ h5, C79_called _ h6] at this
  exact this

theorem bind_going {o : Outcome} {k : State → Outcome} (h : ∃ st, o = .going st) (g : ∀ st, ∃ st', k st = .going st') : ∃ st, o.bind k = .going st := by
  obtain ⟨st, rfl⟩ := h
  exact g st

/-- The run comes to its end if no check fails in a global function, and with `-c` in any case. -/
theorem C79_ends (a : Arrays) (w : World) (hw : w.continueAssert = true ∨ ∀ t, w.fails t = false) (suites : List Nat)
    (rounds : List (List (Nat × List (Nat × Bool)))) : ∃ st, main a w suites rounds = .going st := by
  have hcall : ∀ e st, ∃ st', call w e st = .going st' := by
    intro e st
    unfold call failing
    simp only
    split
    · rename_i hf
      split
      · exact ⟨_, rfl⟩
      · cases hw with
        | inl hc => rw [if_pos hc]; exact ⟨_, rfl⟩
        | inr hn => rw [hn] at hf; exact absurd hf (by decide)
    · exact ⟨_, rfl⟩
  have hcalls : ∀ kind fs st, ∃ st', calls w kind fs st = .going st' := by
    intro kind fs
    induction fs with
    | nil => intro st; exact ⟨_, rfl⟩
    | cons f fs ih => intro st; exact bind_going (hcall _ st) ih
  have heach : ∀ {α : Type} (f : α → State → Outcome), (∀ x st, ∃ st', f x st = .going st') → ∀ l st, ∃ st', each f l st = .going st' := by
    intro α f hf l
    induction l with
    | nil => intro st; exact ⟨_, rfl⟩
    | cons x xs ih => intro st; exact bind_going (hf x st) ih
  have hcase : ∀ s c st, ∃ st', runCase a w s c st = .going st' := by
    intro s c st
    unfold runCase
    simp only
    split
    · exact bind_going (hcalls _ _ _) fun st' => hcalls _ _ _
    · exact ⟨_, rfl⟩
  have hcases : ∀ s cs st, ∃ st', runCases a w s cs st = .going st' := by
    intro s cs
    induction cs with
    | nil => intro st; exact ⟨_, rfl⟩
    | cons c cs ih => intro st; exact bind_going (hcase s c st) ih
  refine bind_going (hcalls _ _ _) fun st1 => bind_going (heach _ (fun s st => ?_) _ _) fun st2 =>
    bind_going (heach _ (fun r st => heach _ (fun s st => ?_) _ _) _ _) fun st3 => hcalls _ _ _
  · exact bind_going (hcalls _ _ _) fun st' => hcalls _ _ _
  · exact bind_going (hcalls _ _ _) fun st' => bind_going (hcases _ _ _) fun st'' => hcalls _ _ _

/-- How often a suite setup is called: once for every suite that is collected, and once for every suite of every round. -/
theorem C79_suite_times (g : Globals) (suites : List Nat) (rounds : List (List (Nat × List (Nat × Bool)))) (f : Nat) :
    (g.run suites rounds).count (.suiteSetup f) = (suites.length + rounds.flatten.length) * g.suiteSetups.count f := by
  have none : ∀ (kind : Nat → Event), (∀ x, kind x ≠ .suiteSetup f) → ∀ l : List Nat, (l.map kind).count (.suiteSetup f) = 0 := by
    intro kind hk l
    refine List.count_eq_zero.mpr fun hm => ?_
    obtain ⟨x, _, e⟩ := List.mem_map.mp hm
    exact hk x e
  have some_ : ∀ l : List Nat, (l.map Event.suiteSetup).count (.suiteSetup f) = l.count f := by
    intro l
    induction l with
    | nil => rfl
    | cons x l ih =>
      rw [List.map_cons, List.count_cons, List.count_cons, ih]
      by_cases e : x = f
      · subst e; simp
      · have : (Event.suiteSetup x == .suiteSetup f) = false := by simp [e]
        rw [this]; simp [e]
  have rep : ∀ {α : Type} (l : List α) (h : α → List Event) (n : Nat), (∀ x ∈ l, (h x).count (.suiteSetup f) = n) → (l.flatMap h).count (.suiteSetup f) = l.length * n := by
    intro α l h n hl
    induction l with
    | nil => simp
    | cons x l ih =>
      rw [List.flatMap_cons, List.count_append, hl x List.mem_cons_self, ih (fun y hy => hl y (List.mem_cons_of_mem _ hy)), List.length_cons, Nat.succ_mul, Nat.add_comm]
  have hsuite : ∀ x : List Event, x.count (.suiteSetup f) = 0 → (g.suite x).count (.suiteSetup f) = g.suiteSetups.count f := by
    intro x hx
    unfold Globals.suite around
    rw [List.count_append, List.count_append, some_, hx, none .suiteCleanup (by intro x h; exact nomatch h)]
    rfl
  have hcases : ∀ s, (g.cases s).count (.suiteSetup f) = 0 := by
    intro s
    unfold Globals.cases
    rw [rep _ _ 0, Nat.mul_zero]
    intro c _
    unfold Globals.case_ around
    rw [List.count_append, List.count_append, none .caseSetup (by intro x h; exact nomatch h), none .caseCleanup (by intro x h; exact nomatch h)]
    rfl
  unfold Globals.run around
  rw [List.count_append, List.count_append, List.count_append, none .setup (by intro x h; exact nomatch h), none .cleanup (by intro x h; exact nomatch h),
    rep suites _ _ (fun s _ => hsuite _ rfl), rep rounds.flatten _ _ (fun s _ => hsuite _ (hcases s)), Nat.add_mul]
  omega

/-- A run with two of most kinds, one of them failing nowhere: two suites, two rounds in different orders, one case not executed. -/
def sampleG : Globals := { setups := [1], cleanups := [2], suiteSetups := [3, 4], suiteCleanups := [5], caseSetups := [6, 7], caseCleanups := [8] }

example : sampleG.fit := by unfold Globals.fit sampleG; decide

example : sampleG.run [0, 1] [[(0, [(0, true), (1, false)])], [(1, [(0, true)])]] =
    [.setup 1, .suiteSetup 3, .suiteSetup 4, .collect 0, .suiteCleanup 5, .suiteSetup 3, .suiteSetup 4, .collect 1, .suiteCleanup 5,
     .suiteSetup 3, .suiteSetup 4, .caseSetup 6, .caseSetup 7, .test 0 0, .caseCleanup 8, .suiteCleanup 5,
     .suiteSetup 3, .suiteSetup 4, .caseSetup 6, .caseSetup 7, .test 1 0, .caseCleanup 8, .suiteCleanup 5, .cleanup 2] := by decide +kernel

example : ∃ st, main sampleG.arrays {} [0, 1] [[(0, [(0, true), (1, false)])], [(1, [(0, true)])]] = .going st :=
  C79_ends _ _ (.inr fun _ => rfl) _ _

/-! ### Checks that fail in global functions -/

/-- What is charged while functions are called with `-c` and a case that is current. -/
theorem charged_calls (w : World) (hc : w.continueAssert = true) (kind : Nat → Event) (x : Nat × Nat) (fs : List Nat) (st : State) (hx : st.current = some x) :
    ∃ st' new, calls w kind fs st = .going st' ∧ st'.current = some x ∧ st'.trace = st.trace ++ fs.map kind ∧ st'.charged = st.charged ++ new ∧
      ∀ y, y ∈ new ↔ ∃ (k : Nat) (f : Nat), fs[k]? = some f ∧ w.fails (st.trace ++ (fs.take (k + 1)).map kind) = true ∧ y = (kind f, x) := by
  induction fs generalizing st with
  | nil => exact ⟨st, [], rfl, hx, (List.append_nil _).symm, (List.append_nil _).symm, fun y => ⟨fun h => (nomatch h), fun ⟨k, f, h, _⟩ => (nomatch h)⟩⟩
  | cons f fs ih =>
    have h1 : ∃ st1 new1, call w (kind f) st = .going st1 ∧ st1.current = some x ∧ st1.trace = st.trace ++ [kind f] ∧ st1.charged = st.charged ++ new1 ∧
        ∀ y, y ∈ new1 ↔ w.fails (st.trace ++ [kind f]) = true ∧ y = (kind f, x) := by
      cases hf : w.fails (st.trace ++ [kind f]) with
      | true =>
        refine ⟨{ st with trace := st.trace ++ [kind f], charged := st.charged ++ [(kind f, x)] }, [(kind f, x)], ?_, hx, rfl, rfl, fun y => by simp⟩
        unfold call failing
        simp only [hf, if_true, hx, hc]
      | false =>
        refine ⟨{ st with trace := st.trace ++ [kind f] }, [], ?_, hx, rfl, (List.append_nil _).symm, fun y => by simp⟩
        unfold call
        simp only [hf]
        rfl
    obtain ⟨st1, new1, e1, c1, t1, g1, m1⟩ := h1
    obtain ⟨st2, new2, e2, c2, t2, g2, m2⟩ := ih st1 c1
    refine ⟨st2, new1 ++ new2, ?_, c2, ?_, ?_, ?_⟩
    · rw [calls, e1]; exact e2
    · rw [t2, t1, List.append_assoc]; rfl
    · rw [g2, g1, List.append_assoc]
    · intro y
      rw [List.mem_append, m1, m2]
      constructor
      · rintro (⟨h1, h2⟩ | ⟨k, f', h1, h2, h3⟩)
        · exact ⟨0, f, rfl, by simpa using h1, h2⟩
        · refine ⟨k + 1, f', h1, ?_, h3⟩
          rw [t1, List.append_assoc] at h2
          exact h2
      · rintro ⟨k, f', h1, h2, h3⟩
        cases k with
        | zero =>
          have : f = f' := by simpa using h1
          subst this
          exact .inl ⟨by simpa using h2, h3⟩
        | succ k =>
          refine .inr ⟨k, f', h1, ?_, h3⟩
          rw [t1, List.append_assoc]
          exact h2

/-- **With `-c`, checks that fail in the setups and cleanups of a case are failures of that case**, exactly those. -/
theorem C79_case_partial (a : Arrays) (w : World) (hc : w.continueAssert = true) (s c : Nat) (st : State) :
    ∃ st' new, runCase a w s (c, true) st = .going st' ∧ st'.charged = st.charged ++ new ∧
      ∀ e x, (e, x) ∈ new ↔ x = (s, c) ∧ ∃ k : Nat, st.trace.length ≤ k ∧ st'.trace[k]? = some e ∧ e ≠ .test s c ∧ w.fails (st'.trace.take (k + 1)) = true := by
  obtain ⟨st1, n1, e1, c1, t1, g1, m1⟩ := charged_calls w hc .caseSetup (s, c) (called a.caseSetups) { st with current := some (s, c) } rfl
  obtain ⟨st2, n2, e2, c2, t2, g2, m2⟩ := charged_calls w hc .caseCleanup (s, c) (called a.caseCleanups) (st1.note (.test s c)) c1
  have ht : st2.trace = st.trace ++ ((called a.caseSetups).map .caseSetup ++ ([.test s c] ++ (called a.caseCleanups).map .caseCleanup)) := by
    rw [t2]
    show st1.trace ++ [.test s c] ++ _ = _
    rw [t1]
    simp only [List.append_assoc]
  refine ⟨st2, n1 ++ n2, ?_, ?_, ?_⟩
  · unfold runCase
    simp only [if_true, e1]
    exact e2
  · rw [g2]
    show st1.charged ++ n2 = _
    rw [g1, List.append_assoc]
  · intro e x
    rw [List.mem_append, m1, m2]
    clear m1 m2 e1 e2
    generalize called a.caseSetups = A at *
    generalize called a.caseCleanups = B at *
    have hn : (st1.note (.test s c)).trace = st.trace ++ (A.map .caseSetup ++ [.test s c]) := by
      show st1.trace ++ [.test s c] = _
      rw [t1, List.append_assoc]
    rw [ht, hn]
    constructor
    · rintro (⟨k, f, h1, h2, h3⟩ | ⟨k, f, h1, h2, h3⟩)
      · obtain ⟨rfl, rfl⟩ := Prod.mk.inj h3
        have hk : k < A.length := (List.getElem?_eq_some_iff.mp h1).1
        refine ⟨rfl, st.trace.length + k, by omega, ?_, by simp, ?_⟩
        · rw [List.getElem?_append_right (by omega), Nat.add_sub_cancel_left, List.getElem?_append_left (by simpa using hk), List.getElem?_map, h1]; rfl
        · rw [List.take_append, List.take_of_length_le (by omega), show st.trace.length + k + 1 - st.trace.length = k + 1 by omega,
            List.take_append_of_le_length (by rw [List.length_map]; omega), ← List.map_take]
          exact h2
      · obtain ⟨rfl, rfl⟩ := Prod.mk.inj h3
        have hk : k < B.length := (List.getElem?_eq_some_iff.mp h1).1
        refine ⟨rfl, st.trace.length + A.length + 1 + k, by omega, ?_, by simp, ?_⟩
        · rw [← List.append_assoc, ← List.append_assoc, List.append_assoc st.trace, List.getElem?_append_right (by simp; omega), List.getElem?_map]
          simp only [List.length_append, List.length_map, List.length_cons, List.length_nil]
          rw [show st.trace.length + A.length + 1 + k - (st.trace.length + (A.length + (0 + 1))) = k by omega, h1]
          rfl
        · rw [← List.append_assoc (A.map _), ← List.append_assoc, List.take_append, List.take_of_length_le (by simp; omega)]
          simp only [List.length_append, List.length_map, List.length_cons, List.length_nil]
          rw [show st.trace.length + A.length + 1 + k + 1 - (st.trace.length + (A.length + (0 + 1))) = k + 1 by omega, ← List.map_take]
          exact h2
    · rintro ⟨rfl, k, hk, h1, h2, h3⟩
      obtain ⟨j, rfl⟩ : ∃ j, k = st.trace.length + j := ⟨k - st.trace.length, by omega⟩
      rw [List.getElem?_append_right (by omega), Nat.add_sub_cancel_left] at h1
      rw [List.take_append, List.take_of_length_le (by omega), show st.trace.length + j + 1 - st.trace.length = j + 1 by omega] at h3
      by_cases c1 : j < A.length
      · rw [List.getElem?_append_left (by simpa using c1), List.getElem?_map] at h1
        rw [List.take_append_of_le_length (by rw [List.length_map]; omega), ← List.map_take] at h3
        obtain ⟨f, hf, rfl⟩ := Option.map_eq_some_iff.mp h1
        exact .inl ⟨j, f, hf, h3, rfl⟩
      · rw [List.getElem?_append_right (by simp; omega), List.length_map] at h1
        by_cases c2 : j = A.length
        · subst c2
          rw [Nat.sub_self] at h1
          exact absurd (Option.some.inj h1).symm h2
        · obtain ⟨i, rfl⟩ : ∃ i, j = A.length + 1 + i := ⟨j - A.length - 1, by omega⟩
          rw [show A.length + 1 + i - A.length = i + 1 by omega] at h1
          rw [List.singleton_append, List.getElem?_cons_succ, List.getElem?_map] at h1
          obtain ⟨f, hf, rfl⟩ := Option.map_eq_some_iff.mp h1
          refine .inr ⟨i, f, hf, ?_, rfl⟩
          rw [← List.append_assoc, List.take_append, List.take_of_length_le (by simp; omega)] at h3
          simp only [List.length_append, List.length_map, List.length_cons, List.length_nil] at h3
          rw [show A.length + 1 + i + 1 - (A.length + (0 + 1)) = i + 1 by omega, ← List.map_take, ← List.append_assoc] at h3
          exact h3

/-- Whether the function executed last is this one. -/
def lastIs (e : Event) (t : List Event) : Bool := t.getLast? == some e

/-- A check that fails in a global setup is a failure of nothing: it is lost. -/
theorem C79_lost_false : ∃ st, main (Globals.arrays { setups := [1] }) { fails := lastIs (.setup 1) } [0] [[(0, [(0, true)])]] = .going st ∧
    lastIs (.setup 1) (st.trace.take 1) = true ∧ st.charged = [] := by
  refine ⟨⟨some (0, 0), [.setup 1, .collect 0, .test 0 0], []⟩, ?_, rfl, rfl⟩
  have e1 : called (Globals.arrays { setups := [1] }).setups = [1] := C79_called [1] (by decide)
  have e2 : called (register []) = [] := C79_called [] (by decide)
  unfold main
  rw [e1]
  unfold Globals.arrays
  simp only [collect, runSuite, runCase, runCases, each, e2, calls, Outcome.bind]
  rfl

/-- With `-c`, a check that fails in the setup of the second suite is reported for a case of the first, which has ended. -/
theorem C79_suite_false : ∃ st, main (Globals.arrays { suiteSetups := [1] }) { continueAssert := true, fails := fun t => t == [.suiteSetup 1, .collect 0, .suiteSetup 1, .collect 1, .suiteSetup 1, .test 0 5, .suiteSetup 1] } [0, 1] [[(0, [(5, true)]), (1, [(6, true)])]] = .going st ∧
    st.charged = [(.suiteSetup 1, (0, 5))] := by
  have e1 : called (register [1]) = [1] := C79_called [1] (by decide)
  have e2 : called (register []) = [] := C79_called [] (by decide)
  unfold main Globals.arrays
  simp only [e2, collect, runSuite, runCase, runCases, each, e1, calls, Outcome.bind]
  exact ⟨_, rfl, rfl⟩

/-- Without `-c` it is a jump into a frame that has been left, and so is one in a case setup, where the frame has not been entered. -/
theorem C79_jump_false :
    (∃ st, main (Globals.arrays { suiteSetups := [1] }) { fails := fun t => t == [.suiteSetup 1, .collect 0, .suiteSetup 1, .collect 1, .suiteSetup 1, .test 0 5, .suiteSetup 1] } [0, 1] [[(0, [(5, true)]), (1, [(6, true)])]] = .undefined st) ∧
    ∃ st, main (Globals.arrays { caseSetups := [1] }) { fails := lastIs (.caseSetup 1) } [0] [[(0, [(5, true)])]] = .undefined st := by
  have e1 : called (register [1]) = [1] := C79_called [1] (by decide)
  have e2 : called (register []) = [] := C79_called [] (by decide)
  constructor
  · unfold main Globals.arrays
    simp only [e2, collect, runSuite, runCase, runCases, each, e1, calls, Outcome.bind]
    exact ⟨_, rfl⟩
  · unfold main Globals.arrays
    simp only [e2, collect, runSuite, runCase, runCases, each, e1, calls, Outcome.bind]
    exact ⟨_, rfl⟩

end H2.Hooks
