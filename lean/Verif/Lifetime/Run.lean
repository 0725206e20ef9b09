import Verif.Lifetime.Lemmas
namespace H2.Lifetime

open Spec

theorem runCase_spec (p : Prog) (s : Nat) (st : State) (c : Case) (hr : c.runs = true) (hc : p.caseCleanup = [])
    (h1 : ∀ e ∈ st.stubs, e.owner ≠ .case_ s c.id) (h2 : ∀ q ∈ st.mocks, q.1 ≠ .case_ s c.id) :
    let ops := p.caseSetup ++ c.code
    let st' := runCase p s st c
    st'.calls = st.calls ∧ st'.stubs = st.stubs ∧
    st'.mocks = (st.mocks.filter fun q => !(mockers ops).contains q.2) ∧
    st'.trace = st.trace ++ [.begins s c.id st.calls, .ends s c.id (reaches st.calls ops) (mockers ops)] := by
  intro ops st'
  obtain ⟨s0, e0⟩ : ∃ s0 : State, s0 = State.event (.begins s c.id st.calls) { st with case_ := some (s, c.id) } := ⟨_, rfl⟩
  have ho : s0.owner = .case_ s c.id := by subst e0; rfl
  have k1 : s0.calls = st.calls := by subst e0; rfl
  have k2 : s0.stubs = st.stubs := by subst e0; rfl
  have k3 : s0.mocks = st.mocks := by subst e0; rfl
  have k4 : s0.trace = st.trace ++ [.begins s c.id st.calls] := by subst e0; rfl
  obtain ⟨s1, e1⟩ : ∃ s1 : State, s1 = exec ops s0 := ⟨_, rfl⟩
  obtain ⟨s2, e2⟩ : ∃ s2 : State, s2 = s1.event (.ends s c.id s1.calls (mocksOf (.case_ s c.id) s1)) := ⟨_, rfl⟩
  have es : st' = clearMocks (.case_ s c.id) (clearStubs (.case_ s c.id) s2) := by
    show runCase p s st c = _
    rw [runCase, if_pos hr, testCase, hc, e2, e1, e0, exec_append]
    rfl
  have t0 : Tracks st.calls (.case_ s c.id) st.stubs s0 := by
    rw [← k1, ← k2]
    exact Tracks.start (by rw [k2]; exact h1)
  obtain ⟨t1, c1⟩ := exec_tracks t0 k1 ho ops
  obtain ⟨m1, m2⟩ := exec_mocks _ s0 ho (by rw [k3]; exact h2) ops
  rw [← e1] at t1 c1 m1 m2
  have t2 : Tracks st.calls (.case_ s c.id) st.stubs s2 := t1.congr (by rw [e2]; rfl) (by rw [e2]; rfl)
  obtain ⟨c2, c3⟩ := t2.clear
  refine ⟨?_, ?_, ?_, ?_⟩
  · rw [es]; exact c2
  · rw [es]; exact c3
  · rw [es, ← k3, ← m2, e2]; rfl
  · rw [es]
    show s2.trace = _
    rw [e2]
    show s1.trace ++ _ = _
    rw [c1, m1, e1, (exec_keeps _ _).2.2, k4, List.append_assoc]
    rfl

/-- The cases of a suite, one after another, in a state where none of them has stubs or mocks. -/
theorem runCases_spec {p : Prog} (hc : p.caseCleanup = []) (s : Nat) (l : List Case) (st : State)
    (h1 : ∀ e ∈ st.stubs, ∀ c, e.owner ≠ .case_ s c) (h2 : ∀ q ∈ st.mocks, ∀ c, q.1 ≠ .case_ s c) :
    (l.foldl (runCase p s) st).calls = st.calls ∧ (l.foldl (runCase p s) st).stubs = st.stubs ∧
    (l.foldl (runCase p s) st).trace = st.trace ++ l.flatMap (seenFrom p st.calls s) := by
  induction l generalizing st with
  | nil => exact ⟨rfl, rfl, (List.append_nil _).symm⟩
  | cons c l ih =>
    have key : (runCase p s st c).calls = st.calls ∧ (runCase p s st c).stubs = st.stubs ∧
        (∀ q ∈ (runCase p s st c).mocks, q ∈ st.mocks) ∧ (runCase p s st c).trace = st.trace ++ seenFrom p st.calls s c := by
      cases hr : c.runs with
      | false =>
        have e1 : runCase p s st c = { st with case_ := some (s, c.id) } := by rw [runCase, hr]; rfl
        have e2 : seenFrom p st.calls s c = [] := by simp [seenFrom, hr]
        rw [e1, e2]
        exact ⟨rfl, rfl, fun _ h => h, (List.append_nil _).symm⟩
      | true =>
        obtain ⟨a1, a2, a3, a4⟩ := runCase_spec p s st c hr hc (fun e he => h1 e he _) (fun e he => h2 e he _)
        refine ⟨a1, a2, fun q hq => ?_, ?_⟩
        · rw [a3] at hq
          exact (List.mem_filter.mp hq).1
        · rw [a4]
          simp only [seenFrom, hr, if_true]
    obtain ⟨k1, k2, k3, k4⟩ := key
    obtain ⟨i1, i2, i3⟩ := ih (runCase p s st c) (by rw [k2]; exact h1) (fun q hq => h2 q (k3 q hq))
    rw [List.foldl_cons]
    refine ⟨i1.trans k1, i2.trans k2, ?_⟩
    rw [i3, k4, k1, List.flatMap_cons, List.append_assoc]

/-- What is there in the rounds: nothing but what was made before them. -/
structure Quiet (p : Prog) (S : List Entry) (st : State) : Prop where
  calls : st.calls = reaches (fun _ => .own) (before p)
  stubs : st.stubs = S
  mocks : ∀ q ∈ st.mocks, q.1 = .run

theorem runCase_quiet {p : Prog} {S : List Entry} (hS : ∀ e ∈ S, e.owner = .run) (hc : p.caseCleanup = []) {st : State} (h : Quiet p S st)
    (s : Suite) (c : Case) :
    Quiet p S (runCase p s.id st c) ∧ (runCase p s.id st c).trace = st.trace ++ seen p s c := by
  cases hr : c.runs with
  | false =>
    have e1 : runCase p s.id st c = { st with case_ := some (s.id, c.id) } := by rw [runCase, hr]; rfl
    have e2 : seen p s c = [] := by simp [seen, seenFrom, hr]
    rw [e1, e2]
    exact ⟨⟨h.calls, h.stubs, h.mocks⟩, (List.append_nil _).symm⟩
  | true =>
    obtain ⟨a1, a2, a3, a4⟩ := runCase_spec p s.id st c hr hc (fun e he ho => by
        rw [h.stubs] at he
        rw [hS e he] at ho
        exact Owner.noConfusion ho)
      (fun q hq ho => by rw [h.mocks q hq] at ho; exact Owner.noConfusion ho)
    refine ⟨⟨a1.trans h.calls, a2.trans h.stubs, fun q hq => ?_⟩, ?_⟩
    · rw [a3] at hq
      exact h.mocks q (List.mem_filter.mp hq).1
    · rw [a4, h.calls]
      simp only [seen, seenFrom, hr, if_true]

theorem runCases_quiet {p : Prog} {S : List Entry} (hS : ∀ e ∈ S, e.owner = .run) (hc : p.caseCleanup = []) (s : Suite) (l : List Case)
    {st : State} (h : Quiet p S st) :
    Quiet p S (l.foldl (runCase p s.id) st) ∧ (l.foldl (runCase p s.id) st).trace = st.trace ++ l.flatMap (seen p s) := by
  induction l generalizing st with
  | nil => exact ⟨h, (List.append_nil _).symm⟩
  | cons c l ih =>
    obtain ⟨a, b⟩ := runCase_quiet hS hc h s c
    obtain ⟨a', b'⟩ := ih a
    refine ⟨a', ?_⟩
    rw [List.foldl_cons, b', b, List.flatMap_cons, List.append_assoc]

theorem suiteEnd_quiet {s : Nat} {st : State} (h1 : ∀ e ∈ st.stubs, e.owner = .run) (h2 : ∀ q ∈ st.mocks, q.1 = .run) : suiteEnd s st = st := by
  unfold suiteEnd
  rw [clearStubs_none fun e he ho => by rw [h1 e he] at ho; exact Owner.noConfusion ho,
    clearMocks_none fun e he ho => by rw [h2 e he] at ho; exact Owner.noConfusion ho]

theorem runSuite_quiet {p : Prog} {S : List Entry} (hS : ∀ e ∈ S, e.owner = .run) (hb : Between p) {st : State} (h : Quiet p S st) (s : Suite) :
    Quiet p S (runSuite p st s) ∧ (runSuite p st s).trace = st.trace ++ s.cases.flatMap (seen p s) := by
  obtain ⟨b1, b2, b3⟩ := hb
  have h' : Quiet p S { st with suite := some s.id } := ⟨h.calls, h.stubs, h.mocks⟩
  obtain ⟨a, b⟩ := runCases_quiet hS b3 s s.cases h'
  have e1 : runSuite p st s = s.cases.foldl (runCase p s.id) { st with suite := some s.id } := by
    rw [runSuite, b1, b2]
    exact suiteEnd_quiet (fun e he => hS e (a.stubs ▸ he)) a.mocks
  rw [e1]
  exact ⟨a, b⟩

theorem round_quiet {p : Prog} {S : List Entry} (hS : ∀ e ∈ S, e.owner = .run) (hb : Between p) (l : List Suite) {st : State} (h : Quiet p S st) :
    Quiet p S (round p st l) ∧ (round p st l).trace = st.trace ++ l.flatMap fun s => s.cases.flatMap (seen p s) := by
  unfold round
  induction l generalizing st with
  | nil => exact ⟨h, (List.append_nil _).symm⟩
  | cons s l ih =>
    obtain ⟨a, b⟩ := runSuite_quiet hS hb h s
    obtain ⟨a', b'⟩ := ih a
    refine ⟨a', ?_⟩
    rw [List.foldl_cons, b', b, List.flatMap_cons, List.append_assoc]

theorem rounds_quiet {p : Prog} {S : List Entry} (hS : ∀ e ∈ S, e.owner = .run) (hb : Between p) (l : List (List Suite)) {st : State} (h : Quiet p S st) :
    Quiet p S (l.foldl (round p) st) ∧
    (l.foldl (round p) st).trace = st.trace ++ l.flatMap fun l => l.flatMap fun s => s.cases.flatMap (seen p s) := by
  induction l generalizing st with
  | nil => exact ⟨h, (List.append_nil _).symm⟩
  | cons s l ih =>
    obtain ⟨a, b⟩ := round_quiet hS hb s h
    obtain ⟨a', b'⟩ := ih a
    refine ⟨a', ?_⟩
    rw [List.foldl_cons, b', b, List.flatMap_cons, List.append_assoc]

/-- What is made while no suite and no case is current belongs to the run. -/
theorem exec_run {st : State} (ho : st.owner = .run) (h1 : ∀ e ∈ st.stubs, e.owner = .run) (h2 : ∀ q ∈ st.mocks, q.1 = .run) (ops : List Op) :
    (∀ e ∈ (exec ops st).stubs, e.owner = .run) ∧ ∀ q ∈ (exec ops st).mocks, q.1 = .run := by
  induction ops generalizing st with
  | nil => exact ⟨h1, h2⟩
  | cons op ops ih =>
    have ho' : (step st op).owner = .run := (owner_congr (step_keeps op st).1 (step_keeps op st).2.1).trans ho
    refine ih ho' (fun e he => ?_) fun q hq => ?_
    · have add : ∀ (f : Nat) (code : Code) (st' : State), st'.stubs = st.stubs → e ∈ (addStub st.owner f code st').stubs → e.owner = .run := by
        intro f code st' e' hm
        unfold addStub at hm
        split at hm
        · exact h1 e (e' ▸ hm)
        · cases List.mem_cons.mp hm with
          | inl e1 => subst e1; exact ho
          | inr h => exact h1 e (e' ▸ h)
      cases op with
      | stub f g => exact add f _ _ rfl he
      | unstub f =>
        change e ∈ (delStub _ _ _).stubs at he
        unfold delStub at he
        split at he
        · exact h1 e (List.mem_filter.mp he).1
        · exact h1 e he
      | mock m f => exact add f _ (addMock st.owner m st) rfl he
    · rw [step_mocks] at hq
      cases e : mockerOf op with
      | none => rw [e] at hq; exact h2 q hq
      | some m =>
        rw [e] at hq
        cases List.mem_cons.mp hq with
        | inl e1 => subst e1; exact ho
        | inr h => exact h2 q (List.mem_filter.mp h).1

theorem enumerate_exec {p : Prog} (hb : Between p) (l : List Suite) {st : State} (ho : st.owner = .run) (h1 : ∀ e ∈ st.stubs, e.owner = .run)
    (h2 : ∀ q ∈ st.mocks, q.1 = .run) : l.foldl (enumerate p) st = exec (l.flatMap Suite.plain) st := by
  induction l generalizing st with
  | nil => rfl
  | cons s l ih =>
    obtain ⟨k1, k2⟩ := exec_run ho h1 h2 s.plain
    have e1 : enumerate p st s = exec s.plain st := by
      rw [enumerate, hb.1, hb.2.1]
      exact suiteEnd_quiet k1 k2
    rw [List.foldl_cons, e1, ih ((exec_owner _ _).trans ho) k1 k2, List.flatMap_cons, exec_append]

theorem start_quiet {p : Prog} (hb : Between p) :
    ∃ S : List Entry, ∃ st : State, st = p.suites.foldl (enumerate p) (exec p.setup {}) ∧ (∀ e ∈ S, e.owner = .run) ∧ Quiet p S st ∧
      Tracks (fun _ => .own) .run [] st ∧ st.trace = [] := by
  obtain ⟨i1, i2⟩ := exec_run (st := {}) rfl (by simp) (by simp) p.setup
  have e1 : p.suites.foldl (enumerate p) (exec p.setup {}) = exec (before p) {} := by
    rw [enumerate_exec hb p.suites ((exec_owner _ _).trans rfl) i1 i2, before, exec_append]
  obtain ⟨j1, j2⟩ := exec_run (st := {}) rfl (by simp) (by simp) (before p)
  have t0 : Tracks (fun _ => .own) .run [] ({} : State) := Tracks.start (st := {}) (by simp)
  obtain ⟨t1, c1⟩ := exec_tracks t0 rfl rfl (before p)
  exact ⟨_, _, e1.symm, j1, ⟨c1, rfl, j2⟩, t1, (exec_keeps _ _).2.2⟩

end H2.Lifetime
