import Verif.Count.Spec
/-
C99: the number of assertions that is told.
-/
namespace H2.Count

/-! ### Lemmas -/

/-- `n` more at one place. -/
def plus (f : Nat → Nat) (o : Option Nat) (n : Nat) : Nat → Nat := fun j => if o = some j then f j + n else f j

def St.add (s : St) (n : Nat) : St := { s with cases := plus s.cases s.curCase n, suites := plus s.suites s.curSuite n, total := s.total + n }

theorem bump_eq (f : Nat → Nat) (o : Option Nat) : bump f o = plus f o 1 := by
  funext j
  cases o with
  | none => simp [bump, plus]
  | some i => by_cases h : j = i <;> simp [bump, plus, h, eq_comm]

theorem asserts_eq (s : St) : s.asserts = s.add 1 := by simp [St.asserts, St.add, bump_eq]

theorem plus_zero (f : Nat → Nat) (o : Option Nat) : plus f o 0 = f := by funext j; simp [plus]

theorem plus_plus (f : Nat → Nat) (o : Option Nat) (n m : Nat) : plus (plus f o n) o m = plus f o (n + m) := by
  funext j; simp only [plus]; split <;> omega

theorem add_zero (s : St) : s.add 0 = s := by simp [St.add, plus_zero]

theorem add_add (s : St) (n m : Nat) : (s.add n).add m = s.add (n + m) := by simp [St.add, plus_plus, Nat.add_assoc]

theorem tuple_eq (n : Nat) (s : St) : tupleMatches n s = s.add n := by
  induction n with
  | zero => rw [add_zero]; rfl
  | succ n ih => rw [tupleMatches, ih, asserts_eq, add_add]

theorem call_eq (n k : Nat) : ∀ s, callMatches n k s = s.add (k * n) := by
  induction k with
  | zero => intro s; rw [Nat.zero_mul, add_zero]; rfl
  | succ k ih => intro s; rw [callMatches, ih, tuple_eq, add_add, Nat.succ_mul, Nat.add_comm]

theorem mock_eq (n : Nat) : ∀ s, mockCheck n s = s.add n := by
  induction n with
  | zero => intro s; rw [add_zero]; rfl
  | succ n ih => intro s; rw [mockCheck, ih, asserts_eq, add_add, Nat.add_comm]

theorem check_eq (s : St) (c : Check) : check s c = s.add c.weight := by
  cases c <;> simp only [check, Check.weight, asserts_eq, call_eq, mock_eq]

theorem checks_eq (l : List Check) : ∀ s, checks s l = s.add (weight l) := by
  induction l with
  | nil => intro s; rw [show weight [] = 0 from rfl, add_zero]; rfl
  | cons c l ih =>
    intro s
    show checks (check s c) l = _
    rw [ih, check_eq, add_add]
    simp [weight]

theorem weight_append (a b : List Check) : weight (a ++ b) = weight a + weight b := by simp [weight]

/-- One case. -/
theorem runCase_eq (p : Prog) (r c : Nat) (s : St) : runCase p r c s =
    { s with curCase := some c, cases := fun j => if j = c then 0 else s.cases j, suites := plus s.suites s.curSuite (p.own r c),
             total := s.total + p.own r c, told := s.told ++ [.case r c (s.cases c + p.own r c)] } := by
  unfold runCase Prog.own
  by_cases h : p.runs r c = true
  · simp only [h, if_true, checks_eq, add_add, weight_append]
    simp only [St.add, plus, if_true, St.mk.injEq, and_true, true_and]
    funext j
    by_cases hj : j = c
    · simp [hj]
    · have hj' : ¬ c = j := fun e => hj e.symm
      simp [hj, hj']
  · simp only [h, Bool.false_eq_true, if_false, plus_zero, Nat.add_zero]

theorem runCases_suite (p : Prog) (r : Nat) (cs : List Nat) : ∀ s, (runCases p r cs s).curSuite = s.curSuite ∧
    (runCases p r cs s).suites = plus s.suites s.curSuite (cs.map (p.own r)).sum ∧ (runCases p r cs s).total = s.total + (cs.map (p.own r)).sum ∧
    (runCases p r cs s).told.filterMap asSuite = s.told.filterMap asSuite := by
  induction cs with
  | nil => intro s; simp [runCases, plus_zero]
  | cons c cs ih =>
    intro s
    obtain ⟨h1, h2, h3, h4⟩ := ih (runCase p r c s)
    rw [runCase_eq] at h1 h2 h3 h4
    rw [runCases, runCase_eq]
    refine ⟨h1, ?_, ?_, ?_⟩
    · rw [h2]; simp [plus_plus]
    · rw [h3]; simp [Nat.add_assoc]
    · rw [h4]; simp [asSuite]

/-- The suites that are not the current one have no counts. -/
def Idle (s : St) : Prop := ∀ u, s.suites u = 0

theorem runSuite_suite (p : Prog) (r : Nat) (u : Nat × List Nat) (s : St) (h : Idle s) : Idle (runSuite p r u s) ∧
    (runSuite p r u s).total = s.total + p.whole r u ∧
    (runSuite p r u s).told.filterMap asSuite = s.told.filterMap asSuite ++ [(r, u.1, p.whole r u)] := by
  obtain ⟨h1, h2, h3, h4⟩ := runCases_suite p r u.2 (({ s with curSuite := some u.1 } : St).add (weight (p.suiteSetup r u.1)))
  unfold runSuite
  simp only [checks_eq]
  have h3' : ∀ x, (({ s with curSuite := some u.1 } : St).add x).total = s.total + x := fun _ => rfl
  have h4' : ∀ x, (({ s with curSuite := some u.1 } : St).add x).told = s.told := fun _ => rfl
  have h1' : ∀ x, (({ s with curSuite := some u.1 } : St).add x).curSuite = some u.1 := fun _ => rfl
  have h2' : ∀ x, (({ s with curSuite := some u.1 } : St).add x).suites = plus s.suites (some u.1) x := fun _ => rfl
  rw [h1'] at h1 h2
  rw [h2'] at h2
  rw [h3'] at h3
  rw [h4'] at h4
  have e : (runCases p r u.2 (({ s with curSuite := some u.1 } : St).add (weight (p.suiteSetup r u.1)))).suites u.1 =
      weight (p.suiteSetup r u.1) + (u.2.map (p.own r)).sum := by
    rw [h2]; simp [plus, h u.1]
  generalize runCases p r u.2 (({ s with curSuite := some u.1 } : St).add (weight (p.suiteSetup r u.1))) = z at *
  refine ⟨?_, ?_, ?_⟩
  · intro v
    by_cases hv : v = u.1
    · simp [hv]
    · have hv' : ¬ u.1 = v := fun e => hv e.symm
      simp only [hv, if_false, St.add, h1, plus, Option.some.injEq, hv', h2]
      simpa using h v
  · simp only [St.add, h3, Prog.whole]; omega
  · simp only [St.add, List.filterMap_append, h4, h1, plus, if_true]
    simp [asSuite, e, Prog.whole]

theorem runSuites_suite (p : Prog) (r : Nat) (us : List (Nat × List Nat)) : ∀ s, Idle s → Idle (runSuites p r us s) ∧
    (runSuites p r us s).total = s.total + (us.map (p.whole r)).sum ∧
    (runSuites p r us s).told.filterMap asSuite = s.told.filterMap asSuite ++ us.map fun u => (r, u.1, p.whole r u) := by
  induction us with
  | nil => intro s h; simp [runSuites, h]
  | cons u us ih =>
    intro s h
    obtain ⟨i, t, l⟩ := runSuite_suite p r u s h
    obtain ⟨h1, h2, h3⟩ := ih _ i
    refine ⟨h1, ?_, ?_⟩
    · rw [runSuites, h2, t]; simp [Nat.add_assoc]
    · rw [runSuites, h3, l]; simp

theorem runRounds_suite (p : Prog) (rounds : List (List (Nat × List Nat))) : ∀ r s, Idle s →
    (runRounds p r rounds s).total = s.total + ((rounds.zipIdx r).map fun x => (x.1.map (p.whole x.2)).sum).sum ∧
    (runRounds p r rounds s).told.filterMap asSuite = s.told.filterMap asSuite ++
      (rounds.zipIdx r).flatMap fun x => x.1.map fun u => (x.2, u.1, p.whole x.2 u) := by
  induction rounds with
  | nil => intro r s _; simp [runRounds]
  | cons us rounds ih =>
    intro r s h
    obtain ⟨i, t, l⟩ := runSuites_suite p r us s h
    obtain ⟨h1, h2⟩ := ih (r + 1) _ i
    rw [runRounds, h1, h2, t, l]
    simp [Nat.add_assoc]

theorem start_idle (p : Prog) : Idle (checks {} p.start) := by
  intro u; rw [checks_eq]; simp [St.add, plus]

theorem numbered_sum (p : Prog) (l : List (List (Nat × List Nat))) : ∀ r, ((l.zipIdx r).map fun x => (x.1.map (p.whole x.2)).sum).sum =
    ((l.zipIdx r).flatMap fun x => x.1.map fun u => p.whole x.2 u).sum := by
  induction l with
  | nil => intro r; rfl
  | cons us l ih => intro r; simp [ih (r + 1)]

/-! ### C99 -/

/-- **C99.** The number of assertions told at the end is the number of checks made: before the suites run, and in all suites of all
rounds. -/
theorem C99_run (p : Prog) (rounds : List (List (Nat × List Nat))) :
    (main p rounds).getLast? = some (.run (weight p.start + ((numbered rounds).map fun x => p.whole x.1 x.2).sum)) := by
  unfold main
  simp only [List.getLast?_append, List.getLast?_singleton, Option.some_or, Option.some.injEq, Told.run.injEq]
  rw [(runRounds_suite p rounds 0 _ (start_idle p)).1, numbered_sum, checks_eq]
  simp only [numbered, List.map_flatMap, List.map_map, St.add, Nat.zero_add]
  rfl

/-- **C99.** For each suite of each round, in the order in which they run, the number told is that of the checks in it: in its setups
and cleanups, and in its cases. -/
theorem C99_suite (p : Prog) (rounds : List (List (Nat × List Nat))) :
    (main p rounds).filterMap asSuite = (numbered rounds).map fun x => (x.1, x.2.1, p.whole x.1 x.2) := by
  unfold main
  rw [List.filterMap_append, (runRounds_suite p rounds 0 _ (start_idle p)).2, checks_eq]
  simp [numbered, List.map_flatMap, asSuite, St.add, Function.comp_def]

theorem case_append (l : List Told) (r u n : Nat) : (l ++ [Told.suite r u n]).filterMap asCase = l.filterMap asCase := by
  rw [List.filterMap_append]; simp [asCase]

/-- The cases that are still to come have no counts, and none of them is the current one. -/
def Clear (s : St) (soon : List Nat) : Prop := ∀ c ∈ soon, s.cases c = 0 ∧ s.curCase ≠ some c

theorem add_clear {s : St} {soon : List Nat} (h : Clear s soon) (n : Nat) : Clear (s.add n) soon := by
  intro c hc
  obtain ⟨h1, h2⟩ := h c hc
  exact ⟨by simp [St.add, plus, h1, h2], h2⟩

theorem runCases_case (p : Prog) (r : Nat) (cs : List Nat) : ∀ s soon, (cs ++ soon).Nodup → Clear s (cs ++ soon) →
    Clear (runCases p r cs s) soon ∧
    (runCases p r cs s).told.filterMap asCase = s.told.filterMap asCase ++ cs.map fun c => (r, c, p.own r c) := by
  induction cs with
  | nil => intro s soon _ h; simpa [runCases] using h
  | cons c cs ih =>
    intro s soon hn hc
    have e := runCase_eq p r c s
    have hc0 := (hc c (by simp)).1
    obtain ⟨hx, hn'⟩ := List.nodup_cons.1 hn
    have hcl : Clear (runCase p r c s) (cs ++ soon) := by
      intro d hd
      have hne : d ≠ c := fun e => hx (e ▸ hd)
      rw [e]
      refine ⟨?_, fun h => hne (Option.some.inj h).symm⟩
      show (if d = c then 0 else s.cases d) = 0
      rw [if_neg hne]
      exact (hc d (List.mem_cons_of_mem _ hd)).1
    obtain ⟨h1, h2⟩ := ih _ _ hn' hcl
    refine ⟨h1, ?_⟩
    rw [runCases, h2, e]
    simp [asCase, hc0]

theorem runSuite_case (p : Prog) (r : Nat) (u : Nat × List Nat) (s : St) (soon : List Nat) (hn : (u.2 ++ soon).Nodup) (hc : Clear s (u.2 ++ soon)) :
    Clear (runSuite p r u s) soon ∧
    (runSuite p r u s).told.filterMap asCase = s.told.filterMap asCase ++ u.2.map fun c => (r, c, p.own r c) := by
  have h0 : Clear (({ s with curSuite := some u.1 } : St).add (weight (p.suiteSetup r u.1))) (u.2 ++ soon) :=
    add_clear (s := { s with curSuite := some u.1 }) hc _
  obtain ⟨h1, h2⟩ := runCases_case p r u.2 _ soon hn h0
  unfold runSuite
  simp only [checks_eq]
  exact ⟨add_clear h1 _, (case_append _ _ _ _).trans h2⟩

theorem runSuites_case (p : Prog) (r : Nat) (us : List (Nat × List Nat)) : ∀ s, (us.flatMap (·.2)).Nodup → Clear s (us.flatMap (·.2)) →
    (runSuites p r us s).told.filterMap asCase = s.told.filterMap asCase ++ us.flatMap fun u => u.2.map fun c => (r, c, p.own r c) := by
  induction us with
  | nil => intro s _ _; simp [runSuites]
  | cons u us ih =>
    intro s hn hc
    rw [List.flatMap_cons] at hn hc
    obtain ⟨h1, h2⟩ := runSuite_case p r u s _ hn hc
    rw [runSuites, ih _ (List.nodup_append.1 hn).2.1 h1, h2]
    simp

/-- No case has a count. -/
def Empty (s : St) : Prop := ∀ c, s.cases c = 0

theorem runCases_silent (p : Prog) (r : Nat) (cs : List Nat) : ∀ s, Empty s → Empty (runCases p r cs s) ∧
    (runCases p r cs s).told.filterMap asCase = s.told.filterMap asCase ++ cs.map fun c => (r, c, p.own r c) := by
  induction cs with
  | nil => intro s h; simpa [runCases] using h
  | cons c cs ih =>
    intro s h
    have e := runCase_eq p r c s
    have hcl : Empty (runCase p r c s) := by
      intro d
      rw [e]
      show (if d = c then 0 else s.cases d) = 0
      split
      · rfl
      · exact h d
    obtain ⟨h1, h2⟩ := ih _ hcl
    refine ⟨h1, ?_⟩
    rw [runCases, h2, e]
    simp [asCase, h c]

theorem runSuites_silent (p : Prog) (hp : p.Silent) (r : Nat) (us : List (Nat × List Nat)) : ∀ s, Empty s → Empty (runSuites p r us s) ∧
    (runSuites p r us s).told.filterMap asCase = s.told.filterMap asCase ++ us.flatMap fun u => u.2.map fun c => (r, c, p.own r c) := by
  induction us with
  | nil => intro s h; simpa [runSuites] using h
  | cons u us ih =>
    intro s h
    obtain ⟨h1, h2⟩ := runCases_silent p r u.2 { s with curSuite := some u.1 } h
    have e : Empty (runSuite p r u s) ∧ (runSuite p r u s).told.filterMap asCase = s.told.filterMap asCase ++ u.2.map fun c => (r, c, p.own r c) := by
      unfold runSuite
      simp only [checks_eq, (hp r u.1).1, (hp r u.1).2, add_zero]
      exact ⟨h1, (case_append _ _ _ _).trans h2⟩
    obtain ⟨h3, h4⟩ := ih _ e.1
    refine ⟨h3, ?_⟩
    rw [runSuites, h4, e.2]
    simp

theorem runRounds_silent (p : Prog) (hp : p.Silent) (rounds : List (List (Nat × List Nat))) : ∀ r s, Empty s →
    (runRounds p r rounds s).told.filterMap asCase = s.told.filterMap asCase ++
      (rounds.zipIdx r).flatMap fun x => x.1.flatMap fun u => u.2.map fun c => (x.2, c, p.own x.2 c) := by
  induction rounds with
  | nil => intro r s _; simp [runRounds]
  | cons us rounds ih =>
    intro r s h
    obtain ⟨h1, h2⟩ := runSuites_silent p hp r us s h
    rw [runRounds, ih _ _ h1, h2]
    simp

/-- **C99.** For each case of each round the number told is that of the checks in it (none, if it does not run), if there is one round, or if
setups and cleanups of suites make no checks.  In full: without this condition; that is false (`C99_case_false`). -/
theorem C99_case_partial (p : Prog) (rounds : List (List (Nat × List Nat))) (hn : ∀ us ∈ rounds, (us.flatMap (·.2)).Nodup)
    (h : rounds.length = 1 ∨ p.Silent) :
    (main p rounds).filterMap asCase = (numbered rounds).flatMap fun x => x.2.2.map fun c => (x.1, c, p.own x.1 c) := by
  have he : Empty (checks {} p.start) := by intro c; rw [checks_eq]; simp [St.add, plus]
  have hcur : (checks {} p.start).curCase = none := by rw [checks_eq]; rfl
  have ht : (checks {} p.start).told = [] := by rw [checks_eq]; rfl
  unfold main
  rw [List.filterMap_append]
  rcases h with h | h
  · match rounds, h with
    | [us], _ =>
      simp only [runRounds]
      rw [runSuites_case p 0 us _ (hn us (by simp)) (fun c _ => ⟨he c, by rw [hcur]; simp⟩), ht]
      simp [numbered, asCase, List.flatMap_map]
  · rw [runRounds_silent p h _ _ _ he, ht]
    simp [numbered, asCase, List.flatMap_assoc, List.flatMap_map]

/-- Two suites with two cases each, in three rounds, in different orders; checks of all kinds. -/
def exampleProg : Prog where
  start := [.assertion]
  suiteSetup := fun _ _ => []
  suiteCleanup := fun _ _ => []
  caseSetup := fun _ _ => [.assertion]
  body := fun _ c => [.call 1 2, .timed, .mock c]
  caseCleanup := fun _ _ => []
  runs := fun _ c => c != 1

example : exampleProg.Silent ∧ (∀ us ∈ [[(0, [0, 1]), (1, [2, 3])], [(1, [3, 2]), (0, [1, 0])]], (us.flatMap (·.2)).Nodup) := by
  refine ⟨fun _ _ => ⟨rfl, rfl⟩, by decide⟩

example : main exampleProg [[(0, [0, 1]), (1, [2, 3])], [(1, [3, 2]), (0, [1, 0])]] =
    [.case 0 0 4, .case 0 1 0, .suite 0 0 4, .case 0 2 6, .case 0 3 7, .suite 0 1 13,
     .case 1 3 7, .case 1 2 6, .suite 1 1 13, .case 1 1 0, .case 1 0 4, .suite 1 0 4, .run 35] := by decide

/-- A suite with one case and an assertion in its setup and its cleanup. -/
def hookProg : Prog where
  start := []
  suiteSetup := fun _ _ => [.assertion]
  suiteCleanup := fun _ _ => [.assertion]
  caseSetup := fun _ _ => []
  body := fun _ _ => [.assertion, .assertion]
  caseCleanup := fun _ _ => []
  runs := fun _ _ => true

/-- **C99.** With more than one round, the checks in the cleanup of a suite, and in the setup that comes next, are counted for the case that
ran last, and told with it in the next round. -/
theorem C99_case_false : ∃ (p : Prog) (rounds : List (List (Nat × List Nat))), (∀ us ∈ rounds, (us.flatMap (·.2)).Nodup) ∧
    (main p rounds).filterMap asCase ≠ (numbered rounds).flatMap fun x => x.2.2.map fun c => (x.1, c, p.own x.1 c) :=
  ⟨hookProg, [[(0, [0])], [(0, [0])]], by decide, by decide⟩

example : main hookProg [[(0, [0])], [(0, [0])]] = [.case 0 0 2, .suite 0 0 4, .case 1 0 4, .suite 1 0 4, .run 8] := by decide

end H2.Count
