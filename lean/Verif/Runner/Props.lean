import Verif.Runner.Lemmas
/-
C32, C35 and the first half of C34: outcomes, breaking off, exit code, and every case reported exactly
once per round.
-/
namespace H2.Runner

/-! ### C32 -/

theorem tally_append (b : Bucket) (xs ys : List Event) : tally b (xs ++ ys) = tally b xs + tally b ys := by
  simp [tally]

theorem tally_one (b : Bucket) (e : Event) : tally b [e] = if e.is b = true then 1 else 0 := by
  unfold tally
  rw [List.countP_singleton]
  split <;> rfl

theorem tally_kept (o : Opts) (b : Bucket) : Kept o (fun st log => st.get b = tally b log) (fun _ _ => True) where
  case := fun round l c r e hj _ sp => ⟨by rw [sp.stats b, sp.log, hj, tally_append, tally_one], trivial⟩
  mono := fun _ _ _ _ => trivial
  seq := fun _ _ _ _ _ => trivial

/-- C32: each count shown is the number of reported cases with that outcome. -/
theorem C32_counts (o : Opts) (env : Env) (rnd : Nat → Nat → Int) (st : State) (h : Fresh st) (b : Bucket) :
    (st.main o env rnd).1.stats.get b = tally b (st.main o env rnd).1.log := by
  refine (rounds_kept (tally_kept o b) env rnd o.rounds st ?_ (fun _ _ => trivial)).1
  rw [h.stats, h.log]
  cases b <;> rfl

/-- What is always true of a reported case. -/
theorem ran_kept (o : Opts) : Kept o (fun _ log => ∀ e ∈ log, e.ran = (!o.lists && !e.case.todo && !e.case.filtered && !e.case.ignored)) (fun _ _ => True) where
  case := fun round l c r e hj _ sp => ⟨by
    intro e' he'
    rw [sp.log] at he'
    rcases List.mem_append.1 he' with x | x
    · exact hj e' x
    · have : e' = e := by simpa using x
      subst this
      exact sp.ran, trivial⟩
  mono := fun _ _ _ _ => trivial
  seq := fun _ _ _ _ _ => trivial

/-- C32: a case is run exactly if it is not a TODO, not filtered out, not ignored, and the cases are not
only being listed. -/
theorem C32_ran (o : Opts) (env : Env) (rnd : Nat → Nat → Int) (st : State) (h : Fresh st) (e : Event) (he : e ∈ (st.main o env rnd).1.log) :
    e.ran = true ↔ o.lists = false ∧ e.case.todo = false ∧ e.case.filtered = false ∧ e.case.ignored = false := by
  have := (rounds_kept (ran_kept o) env rnd o.rounds st (by rw [h.log]; simp) (fun _ _ => trivial)).1 e he
  rw [this]
  simp [and_assoc]

theorem one_outcome (e : Event) (h : e.ran = (!e.case.todo && !e.case.filtered && !e.case.ignored)) :
    ∃ b, e.is b = true ∧ ∀ b', e.is b' = true → b' = b := by
  rcases e with ⟨round, ⟨_, _, _, _, _, todo, filtered, ignored, failed, _, warning⟩, ran⟩
  simp only at h
  subst h
  refine ⟨if todo || filtered || ignored then (if ignored then .ignored else if filtered then .filtered else .todo)
    else (if failed then .failed else if warning then .warning else .passed), ?_, ?_⟩
  · cases todo <;> cases filtered <;> cases ignored <;> cases failed <;> cases warning <;> rfl
  · intro b'
    cases b' <;> cases todo <;> cases filtered <;> cases ignored <;> cases failed <;> cases warning <;> simp [Event.is]

/-- C32: unless the cases are only being listed, each reported case has exactly one outcome. -/
theorem C32_one (o : Opts) (env : Env) (rnd : Nat → Nat → Int) (st : State) (h : Fresh st) (hl : o.lists = false) (e : Event)
    (he : e ∈ (st.main o env rnd).1.log) : ∃ b, e.is b = true ∧ ∀ b', e.is b' = true → b' = b := by
  have := (rounds_kept (ran_kept o) env rnd o.rounds st (by rw [h.log]; simp) (fun _ _ => trivial)).1 e he
  rw [hl] at this
  exact one_outcome e this

/-! Every case is reported once per round. -/

theorem runCases_log (o : Opts) (env : Env) (round : Nat) (cs : List Case) : ∀ l : Loop, ∃ es,
    (runCases o env round l cs).2.log = l.log ++ es ∧ es.map (·.case.id) = cs.map (·.id) ∧ (∀ e ∈ es, e.round = round) ∧
      (runCases o env round l cs).1.map (·.id) = cs.map (·.id) ∧ es.map (·.case) = (runCases o env round l cs).1 ∧
      (∀ b, (runCases o env round l cs).2.suite.get b = l.suite.get b + tally b es) ∧
      ∀ e ∈ es, e.ran = (!o.lists && !e.case.todo && !e.case.filtered && !e.case.ignored) := by
  induction cs with
  | nil => intro l; exact ⟨[], by simp [runCases], rfl, by simp, rfl, rfl, fun b => by simp [runCases, tally], by simp⟩
  | cons c cs ih =>
    intro l
    obtain ⟨e, sp⟩ := runCase_spec o env round l c
    obtain ⟨es, h1, h2, h3, h4, h5, h6, h7⟩ := ih (runCase o env round l c).2
    refine ⟨e :: es, ?_, ?_, ?_, ?_, ?_, ?_, ?_⟩
    · show (runCases o env round (runCase o env round l c).2 cs).2.log = _
      rw [h1, sp.log]; simp
    · rw [List.map_cons, List.map_cons, h2, sp.case, sp.id]
    · intro e' he'
      rcases List.mem_cons.1 he' with x | x
      · subst x; exact sp.round
      · exact h3 e' x
    · show ((runCase o env round l c).1 :: (runCases o env round (runCase o env round l c).2 cs).1).map (·.id) = _
      rw [List.map_cons, List.map_cons, h4, sp.id]
    · show _ = (runCase o env round l c).1 :: (runCases o env round (runCase o env round l c).2 cs).1
      rw [List.map_cons, h5, sp.case]
    · intro b
      show (runCases o env round (runCase o env round l c).2 cs).2.suite.get b = _
      rw [h6 b, sp.suite b]
      have : tally b (e :: es) = tally b [e] + tally b es := tally_append b [e] es
      rw [this, tally_one]
      omega
    · intro e' he'
      rcases List.mem_cons.1 he' with x | x
      · subst x; exact sp.ran
      · exact h7 e' x

theorem runSuites_log (o : Opts) (env : Env) (round : Nat) (ss : List Suite) : ∀ (st : Stats) (log : List Event) (sl : List (Nat × Stats)), ∃ es,
    (runSuites o env round st log sl ss).2.2.1 = log ++ es ∧ es.map (·.case.id) = (allCases ss).map (·.id) ∧ (∀ e ∈ es, e.round = round) ∧
      ids (runSuites o env round st log sl ss).1 = ids ss ∧ es.map (·.case) = allCases (runSuites o env round st log sl ss).1 ∧
      (runSuites o env round st log sl ss).1.map (·.id) = ss.map (·.id) := by
  induction ss with
  | nil => intro st log sl; exact ⟨[], by simp [runSuites], rfl, by simp, rfl, rfl, rfl⟩
  | cons s ss ih =>
    intro st log sl
    obtain ⟨es, h1, h2, h3, h4, h5, h6, h7⟩ := runCases_log o env round s.cases ⟨st, {}, log⟩
    obtain ⟨r, hr⟩ : ∃ r, runCases o env round ⟨st, {}, log⟩ s.cases = r := ⟨_, rfl⟩
    rw [hr] at h1 h4 h5
    obtain ⟨fs, g1, g2, g3, g4, g5, g6⟩ := ih r.2.stats r.2.log (sl ++ [(s.id, r.2.suite)])
    simp only [runSuites, hr]
    refine ⟨es ++ fs, ?_, ?_, ?_, ?_, ?_, ?_⟩
    · rw [g1, h1, List.append_assoc]
    · simp only [allCases, List.flatMap_cons, List.map_append] at *
      rw [h2, g2]
    · intro e he
      rcases List.mem_append.1 he with x | x
      · exact h3 e x
      · exact g3 e x
    · simp only [ids, allCases, List.flatMap_cons, List.map_append] at *
      rw [h4, g4]
    · simp only [allCases, List.flatMap_cons, List.map_append] at *
      rw [h5, g5]
    · simp only [List.map_cons, g6]

theorem round_log (o : Opts) (env : Env) (rnd : Nat → Int) (round : Nat) (st : State) : ∃ es,
    (st.round o env rnd round).log = st.log ++ es ∧ (es.map (·.case.id)).Perm (ids st.suites) ∧ (∀ e ∈ es, e.round = round) ∧
      (ids (st.round o env rnd round).suites).Perm (ids st.suites) := by
  obtain ⟨f, e⟩ := round_eq o env rnd round st
  obtain ⟨r1, r2, r3⟩ := shuffle_rest o rnd st
  obtain ⟨es, h1, h2, h3, h4, h5, _⟩ := runSuites_log o env round (st.shuffle o rnd).suites (st.shuffle o rnd).stats (st.shuffle o rnd).log (st.shuffle o rnd).suiteLog
  have hp := (shuffle_alike o rnd st).ids
  refine ⟨es, ?_, ?_, h3, ?_⟩
  · rw [e]; show (runSuites _ _ _ _ _ _ _).2.2.1 = _; rw [h1, r2]
  · rw [h2]; exact hp
  · rw [e]; show (ids (runSuites _ _ _ _ _ _ _).1).Perm _; rw [h4]; exact hp

theorem rounds_log (o : Opts) (env : Env) (rnd : Nat → Nat → Int) (st : State) (h : st.log = []) (n : Nat) :
    (∀ r, r < n → (((st.rounds o env rnd n).log.filter fun e => e.round == r).map (·.case.id)).Perm (ids st.suites)) ∧
      (∀ e ∈ (st.rounds o env rnd n).log, e.round < n) ∧ (ids (st.rounds o env rnd n).suites).Perm (ids st.suites) ∧
      (st.rounds o env rnd n).log.length = n * (allCases st.suites).length := by
  induction n with
  | zero => exact ⟨by intro r hr; omega, (by intro e he; rw [State.rounds, h] at he; cases he), .refl _, by rw [State.rounds, h]; simp⟩
  | succ n ih =>
    obtain ⟨i1, i2, i3, i4⟩ := ih
    obtain ⟨es, h1, h2, h3, h4⟩ := round_log o env (rnd n) n (st.rounds o env rnd n)
    refine ⟨?_, ?_, h4.trans i3, ?_⟩
    · intro r hr
      show (((State.round o env (rnd n) n (st.rounds o env rnd n)).log.filter fun e => e.round == r).map (·.case.id)).Perm _
      rw [h1, List.filter_append, List.map_append]
      by_cases hn : r = n
      · subst hn
        have e1 : (st.rounds o env rnd r).log.filter (fun e => e.round == r) = [] := by
          rw [List.filter_eq_nil_iff]
          intro e he hb
          have := i2 e he
          have hb : e.round = r := by simpa using hb
          omega
        have e2 : es.filter (fun e => e.round == r) = es := by
          rw [List.filter_eq_self]
          intro e he
          simpa using h3 e he
        rw [e1, e2]
        exact h2.trans i3
      · have e2 : es.filter (fun e => e.round == r) = [] := by
          rw [List.filter_eq_nil_iff]
          intro e he hb
          have := h3 e he
          have hb : e.round = r := by simpa using hb
          omega
        rw [e2, List.map_nil, List.append_nil]
        exact i1 r (by omega)
    · intro e he
      rw [show (st.rounds o env rnd (n + 1)).log = _ from h1] at he
      rcases List.mem_append.1 he with x | x
      · have := i2 e x; omega
      · rw [h3 e x]; omega
    · rw [show (st.rounds o env rnd (n + 1)).log = _ from h1, List.length_append, i4]
      have a := h2.length_eq
      have b := i3.length_eq
      simp only [ids, List.length_map] at a b
      rw [a, b, Nat.add_mul, Nat.one_mul]

/-- C34: whatever the options and the random numbers, every round reports every case exactly once. -/
theorem C34_once (o : Opts) (env : Env) (rnd : Nat → Nat → Int) (st : State) (h : Fresh st) (r : Nat) (hr : r < o.rounds) :
    (((st.main o env rnd).1.log.filter fun e => e.round == r).map (·.case.id)).Perm (ids st.suites) :=
  (rounds_log o env rnd st h.log o.rounds).1 r hr

theorem sum_tally (es : List Event) (h : ∀ e ∈ es, ∃ b, e.is b = true ∧ ∀ b', e.is b' = true → b' = b) :
    tally .passed es + tally .failed es + tally .warning es + tally .todo es + tally .filtered es + tally .ignored es = es.length := by
  induction es with
  | nil => rfl
  | cons e es ih =>
    have hi := ih fun e' he' => h e' (List.mem_cons_of_mem _ he')
    have ht : ∀ b, tally b (e :: es) = (if e.is b = true then 1 else 0) + tally b es := by
      intro b
      have : tally b (e :: es) = tally b [e] + tally b es := tally_append b [e] es
      rw [this, tally_one]
    obtain ⟨b, hb, hu⟩ := h e (List.mem_cons_self ..)
    have hn : ∀ b', b' ≠ b → ¬ e.is b' = true := fun b' hne hx => hne (hu b' hx)
    simp only [ht, List.length_cons]
    cases b <;> simp [hb, hn] <;> omega

/-- C32: unless the cases are only being listed, the six counts add up to the number of cases times the
number of rounds. -/
theorem C32_total (o : Opts) (env : Env) (rnd : Nat → Nat → Int) (st : State) (h : Fresh st) (hl : o.lists = false) :
    (st.main o env rnd).1.stats.sum = ((o.rounds * (allCases st.suites).length : Nat) : Int) := by
  have hc := C32_counts o env rnd st h
  have h1 := sum_tally _ (C32_one o env rnd st h hl)
  rw [show (st.main o env rnd).1.log.length = o.rounds * (allCases st.suites).length from (rounds_log o env rnd st h.log o.rounds).2.2.2] at h1
  rw [← h1]
  simp only [← hc]
  rfl

theorem runSuites_suiteLog (o : Opts) (env : Env) (round : Nat) (hl : o.lists = false) (ss : List Suite) : ∀ (st : Stats) (log : List Event) (sl : List (Nat × Stats)),
    ∃ tl, (runSuites o env round st log sl ss).2.2.2 = sl ++ tl ∧ tl.map (·.1) = ss.map (·.id) ∧
      tl.map (·.2.sum) = ss.map fun s => (s.cases.length : Int) := by
  induction ss with
  | nil => intro st log sl; exact ⟨[], by simp [runSuites], rfl, rfl⟩
  | cons s ss ih =>
    intro st log sl
    obtain ⟨es, h1, h2, h3, h4, h5, h6, h7⟩ := runCases_log o env round s.cases ⟨st, {}, log⟩
    obtain ⟨r, hr⟩ : ∃ r, runCases o env round ⟨st, {}, log⟩ s.cases = r := ⟨_, rfl⟩
    rw [hr] at h1 h6
    obtain ⟨tl, g1, g2, g3⟩ := ih r.2.stats r.2.log (sl ++ [(s.id, r.2.suite)])
    simp only [runSuites, hr]
    refine ⟨(s.id, r.2.suite) :: tl, ?_, ?_, ?_⟩
    · rw [g1]; simp
    · simp only [List.map_cons, g2]
    · simp only [List.map_cons, g3]
      have hlen : es.length = s.cases.length := by
        have := congrArg List.length h2
        simpa using this
      have hone := sum_tally es ?_
      · have e1 : r.2.suite.sum = (es.length : Int) := by
          rw [← hone]
          unfold Stats.sum
          have := h6 .passed; have := h6 .failed; have := h6 .warning; have := h6 .todo; have := h6 .filtered; have := h6 .ignored
          simp only [Stats.get] at *
          omega
        rw [e1, hlen]
      · intro e he
        apply one_outcome
        rw [h7 e he, hl]
        rfl

/-- C32: at the end of each suite its six counts add up to the number of its cases. -/
theorem C32_suites (o : Opts) (env : Env) (rnd : Nat → Int) (round : Nat) (st : State) (hl : o.lists = false) :
    ∃ tl, (st.round o env rnd round).suiteLog = st.suiteLog ++ tl ∧
      tl.map (fun t => (t.1, t.2.sum)) = (st.shuffle o rnd).suites.map fun s => (s.id, (s.cases.length : Int)) := by
  obtain ⟨f, e⟩ := round_eq o env rnd round st
  obtain ⟨r1, r2, r3⟩ := shuffle_rest o rnd st
  obtain ⟨tl, h1, h2, h3⟩ := runSuites_suiteLog o env round hl (st.shuffle o rnd).suites (st.shuffle o rnd).stats (st.shuffle o rnd).log (st.shuffle o rnd).suiteLog
  refine ⟨tl, ?_, ?_⟩
  · rw [e]; show (runSuites _ _ _ _ _ _ _).2.2.2 = _; rw [h1, r3]
  · revert h2 h3
    generalize (st.shuffle o rnd).suites = ss
    clear h1
    intro h2 h3
    induction tl generalizing ss with
    | nil => cases ss with
      | nil => rfl
      | cons => cases h2
    | cons t tl ih => cases ss with
      | nil => cases h2
      | cons s ss =>
        simp only [List.map_cons, List.cons.injEq] at h2 h3 ⊢
        exact ⟨Prod.ext h2.1 h3.1, ih ss h2.2 h3.2⟩

/-! ### C35 -/

/-- Why a case may be ignored, given what was reported before it. -/
def Excuse (o : Opts) (pre : List Event) (c : Case) : Prop :=
  (0 < o.breakAfter ∧ o.breakAfter ≤ tally .failed pre) ∨ (o.onlyLast = true ∧ c.lastFailed = false) ∨
    ∃ e' ∈ pre, e'.case.id = c.id ∧ e'.case.ignored = true

theorem append_singleton_cases {α : Type} {pre post log : List α} {e x : α} (h : log ++ [x] = pre ++ e :: post) :
    (∃ post', post = post' ++ [x] ∧ log = pre ++ e :: post') ∨ (post = [] ∧ e = x ∧ log = pre) := by
  rcases List.eq_nil_or_concat post with hp | ⟨p', y, hp⟩
  · subst hp
    right
    have := List.append_inj' h rfl
    refine ⟨rfl, ?_, this.1⟩
    have := this.2
    simp at this
    exact this.symm
  · left
    subst hp
    have h' : log ++ [x] = (pre ++ e :: p') ++ [y] := by rw [h]; simp
    have := List.append_inj' h' rfl
    refine ⟨p', ?_, this.1⟩
    have := this.2
    simp at this
    simp [this]

theorem ignored_kept (o : Opts) : Kept o
    (fun st log => st.failed = tally .failed log ∧ ∀ pre e post, log = pre ++ e :: post →
      (e.case.ignored = true → Excuse o pre e.case) ∧
      ((0 < o.breakAfter ∧ o.breakAfter ≤ tally .failed pre) ∨ (o.onlyLast = true ∧ e.case.lastFailed = false) → e.case.ignored = true))
    (fun log c => c.ignored = true → ∃ e' ∈ log, e'.case.id = c.id ∧ e'.case.ignored = true) where
  case := by
    intro round l c r e ⟨hs, hj⟩ hk sp
    have hlast : e.case.lastFailed = c.lastFailed := by rw [sp.case, sp.same]
    have hid : e.case.id = c.id := by rw [sp.case, sp.id]
    refine ⟨⟨?_, ?_⟩, ?_⟩
    · have := sp.stats .failed
      simp only [Stats.get] at this
      rw [this, sp.log, tally_append, tally_one, hs]
    · intro pre e' post h
      rw [sp.log] at h
      rcases append_singleton_cases h with ⟨post', _, h2⟩ | ⟨_, h2, h3⟩
      · exact hj pre e' post' h2
      · subst h2; subst h3
        constructor
        · intro hi
          rcases sp.ignored.1 hi with x | x | x
          · left; rw [← hs]; exact x
          · right; left; rw [hlast]; exact x
          · right; right
            obtain ⟨e0, h1, h2, h3⟩ := hk x
            exact ⟨e0, h1, h2.trans hid.symm, h3⟩
        · rintro (x | x)
          · exact sp.ignored.2 (.inl (by rw [hs]; exact x))
          · exact sp.ignored.2 (.inr (.inl (by rw [← hlast]; exact x)))
    · rw [sp.log]
      intro h
      exact ⟨e, List.mem_append_right _ (List.mem_cons_self ..), by rw [sp.case], by rw [sp.case]; exact h⟩
  mono := by
    intro log e c h hi
    obtain ⟨e', h1, h2⟩ := h hi
    exact ⟨e', List.mem_append_left _ h1, h2⟩
  seq := fun log c seq last h => h

theorem ignored_fact (o : Opts) (env : Env) (rnd : Nat → Nat → Int) (st : State) (h : Fresh st) (pre post : List Event) (e : Event)
    (hl : (st.main o env rnd).1.log = pre ++ e :: post) :
    (e.case.ignored = true → Excuse o pre e.case) ∧
      ((0 < o.breakAfter ∧ o.breakAfter ≤ tally .failed pre) ∨ (o.onlyLast = true ∧ e.case.lastFailed = false) → e.case.ignored = true) := by
  refine (rounds_kept (ignored_kept o) env rnd o.rounds st ⟨?_, ?_⟩ ?_).1.2 pre e post hl
  · rw [h.stats, h.log]; rfl
  · intro pre e post hx
    rw [h.log] at hx
    exact absurd hx (by simp)
  · intro c hc hi
    rw [h.ignored c hc] at hi
    cases hi

/-- C35: with `-b n` no case is run once `n` cases have failed. -/
theorem C35_break (o : Opts) (env : Env) (rnd : Nat → Nat → Int) (st : State) (h : Fresh st) (hb : 0 < o.breakAfter) (pre post : List Event) (e : Event)
    (hl : (st.main o env rnd).1.log = pre ++ e :: post) (hf : o.breakAfter ≤ tally .failed pre) : e.ran = false ∧ e.case.ignored = true := by
  have hi := (ignored_fact o env rnd st h pre post e hl).2 (.inl ⟨hb, hf⟩)
  refine ⟨?_, hi⟩
  have := C32_ran o env rnd st h e (by rw [hl]; exact List.mem_append_right _ (List.mem_cons_self ..))
  cases hr : e.ran with
  | false => rfl
  | true => have := this.1 hr; rw [hi] at this; exact absurd this.2.2.2 (by simp)

/-- C35: never more than `n` cases fail with `-b n`. -/
theorem C35_atmost (o : Opts) (env : Env) (rnd : Nat → Nat → Int) (st : State) (h : Fresh st) (hb : 0 < o.breakAfter) :
    (st.main o env rnd).1.stats.failed ≤ o.breakAfter := by
  have hc := C32_counts o env rnd st h .failed
  have key : ∀ pre post, (st.main o env rnd).1.log = pre ++ post → tally .failed pre ≤ o.breakAfter := by
    intro pre
    induction hn : pre.length generalizing pre with
    | zero =>
      intro post _
      have : pre = [] := List.length_eq_zero_iff.1 hn
      subst this
      simp only [tally, List.countP_nil]
      omega
    | succ n ih =>
      intro post hl
      rcases List.eq_nil_or_concat pre with hp | ⟨p', e, hp⟩
      · subst hp; simp at hn
      · rw [List.concat_eq_append] at hp
        subst hp
        rw [List.length_append] at hn
        have hl' : (st.main o env rnd).1.log = p' ++ e :: post := by rw [hl]; simp
        have h1 := ih p' (by simpa using hn) (e :: post) hl'
        rw [tally_append, tally_one]
        by_cases hx : o.breakAfter ≤ tally .failed p'
        · have := C35_break o env rnd st h hb p' post e hl' hx
          have : e.is .failed = false := by simp [Event.is, this.1]
          rw [this]
          simp only [Bool.false_eq_true, if_false]
          omega
        · split <;> omega
  have := key _ [] (by rw [List.append_nil])
  simp only [Stats.get] at hc
  omega

/-- C35: nothing else stops a case: one that is not a TODO and not filtered out is run unless `n` cases
have failed before (`-b n`), or it did not fail last time (`-f`), or it was ignored in an earlier round
for such a reason. -/
theorem C35_runs (o : Opts) (env : Env) (rnd : Nat → Nat → Int) (st : State) (h : Fresh st) (hl : o.lists = false) (pre post : List Event) (e : Event)
    (hlog : (st.main o env rnd).1.log = pre ++ e :: post) (ht : e.case.todo = false) (hx : e.case.filtered = false)
    (h1 : ¬ (0 < o.breakAfter ∧ o.breakAfter ≤ tally .failed pre)) (h2 : o.onlyLast = true → e.case.lastFailed = true)
    (h3 : ∀ e' ∈ pre, e'.case.id = e.case.id → e'.case.ignored = false) : e.ran = true := by
  rw [C32_ran o env rnd st h e (by rw [hlog]; exact List.mem_append_right _ (List.mem_cons_self ..))]
  refine ⟨hl, ht, hx, ?_⟩
  cases hi : e.case.ignored with
  | false => rfl
  | true =>
    exfalso
    rcases (ignored_fact o env rnd st h pre post e hlog).1 hi with x | x | ⟨e', he', hid, hig⟩
    · exact h1 x
    · rw [h2 x.1] at x; exact absurd x.2 (by simp)
    · rw [h3 e' he' hid] at hig; cases hig

/-- C35: with `-f` only cases marked as failed last time are run. -/
theorem C35_only_last (o : Opts) (env : Env) (rnd : Nat → Nat → Int) (st : State) (h : Fresh st) (ho : o.onlyLast = true) (e : Event)
    (he : e ∈ (st.main o env rnd).1.log) (hr : e.ran = true) : e.case.lastFailed = true := by
  obtain ⟨pre, post, hl⟩ := List.append_of_mem he
  cases hx : e.case.lastFailed with
  | true => rfl
  | false =>
    have hi := (ignored_fact o env rnd st h pre post e hl).2 (.inr ⟨ho, hx⟩)
    have := (C32_ran o env rnd st h e he).1 hr
    rw [hi] at this
    exact absurd this.2.2.2 (by simp)

/-- C35: the value returned is the number of failed cases with `-x`, and 0 without. -/
theorem C35_exit (o : Opts) (env : Env) (rnd : Nat → Nat → Int) (st : State) (h : Fresh st) :
    (o.exitWithFails = true → (st.main o env rnd).2 = tally .failed (st.main o env rnd).1.log) ∧
      (o.exitWithFails = false → (st.main o env rnd).2 = 0) := by
  have := C32_counts o env rnd st h .failed
  constructor
  · intro hx
    rw [← this]
    simp only [State.main, hx, if_true, Stats.get]
  · intro hx
    simp only [State.main, hx]
    simp

/-- C35: as the operating system keeps one byte, the status a shell sees is right for up to 255 failed
cases. -/
theorem C35_status (o : Opts) (env : Env) (rnd : Nat → Nat → Int) (st : State) (h : Fresh st) (hx : o.exitWithFails = true)
    (hlt : tally .failed (st.main o env rnd).1.log < 256) :
    exitStatus (st.main o env rnd).2 = tally .failed (st.main o env rnd).1.log := by
  rw [(C35_exit o env rnd st h).1 hx]
  unfold exitStatus
  have : 0 ≤ tally .failed (st.main o env rnd).1.log := by unfold tally; omega
  omega

/-- `n` cases. -/
def many (n : Nat) : State := { suites := [{ id := 0, cases := (List.range n).map fun i => { id := i } }] }

theorem many_fresh (n : Nat) : Fresh (many n) := by
  refine ⟨rfl, rfl, rfl, ?_⟩
  intro c hc
  simp only [many, allCases, List.flatMap_cons, List.flatMap_nil, List.append_nil] at hc
  obtain ⟨i, _, rfl⟩ := List.mem_map.1 hc
  rfl

/-- Finding: 256 failed cases and `-x` give the exit status of success. -/
theorem C35_status_false : exitStatus ((many 256).main { exitWithFails := true } (fun _ _ => (true, false)) (fun _ _ => 0)).2 = 0 ∧
    ((many 256).main { exitWithFails := true } (fun _ _ => (true, false)) (fun _ _ => 0)).1.stats.failed = 256 := by decide +kernel

/-! The hypotheses of the theorems above are met: five cases of which some are left out, some fail. -/

def sampleCases : List Case := [{ id := 1 }, { id := 2, todo := true }, { id := 3, filtered := true }, { id := 4 }, { id := 5 }]
def sampleState : State := { suites := [{ id := 0, cases := sampleCases }, { id := 9, cases := [{ id := 6 }] }] }
def sampleEnv : Env := fun _ c => (c.id == 4, c.id == 1)

example : Fresh sampleState := ⟨rfl, rfl, rfl, by decide⟩
example : (sampleState.main { rounds := 2 } sampleEnv (fun _ _ => 0)).1.stats = { passed := 4, warning := 2, failed := 2, todo := 2, filtered := 2 } := by decide +kernel
example : ((sampleState.main { breakAfter := 1 } sampleEnv (fun _ _ => 0)).1.log.map fun e => (e.case.id, e.ran, e.case.ignored)) =
    [(1, true, false), (2, false, false), (3, false, false), (4, true, false), (5, false, true), (6, false, true)] := by decide +kernel

end H2.Runner
